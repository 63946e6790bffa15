import Verif.Spec.MappingFeatures
import Verif.Props.Settings
import Verif.Lemmas.Login
import Verif.Examples.Histories
/-
C139: the mapping features influence nothing but the mapping queries, and neither direction influences the other.
-/
namespace Siwe
open Spec

/-- Two states that agree on what the features `K` cover. -/
structure FeatureTwin {E : Env} (K : List ProviderFeature) (s s' : State E) : Prop where
  lib : s'.lib = s.lib
  sigMap : s'.sigMap = s.sigMap
  certified : s'.certifiedData = s.certifiedData
  toEth : .disablePrincipalToEthMapping ∈ K → s'.settings.disablePrincipalToEthMapping = s.settings.disablePrincipalToEthMapping ∧
    s'.principalAddress = s.principalAddress
  toPrincipal : .disableEthToPrincipalMapping ∈ K → s'.settings.disableEthToPrincipalMapping = s.settings.disableEthToPrincipalMapping ∧
    s'.addressPrincipal = s.addressPrincipal

theorem featureTwin_refl {E : Env} (K : List ProviderFeature) (s : State E) : FeatureTwin K s s :=
  ⟨rfl, rfl, rfl, fun _ => ⟨rfl, rfl⟩, fun _ => ⟨rfl, rfl⟩⟩

theorem featureTwin_lib {E : Env} {K : List ProviderFeature} {s s' : State E} (h : FeatureTwin K s s') (l : LibState E) :
    FeatureTwin K { s with lib := l } { s' with lib := l } :=
  ⟨rfl, h.sigMap, h.certified, h.toEth, h.toPrincipal⟩

/-- The feature is in the list, if there is one. -/
def listed (o : Option (List ProviderFeature)) (f : ProviderFeature) : Bool := match o with | some fs => decide (f ∈ fs) | none => false

theorem listed_iff (i : SettingsInput) (f : ProviderFeature) : listed i.runtimeFeatures f = true ↔ AsksForFeature i f := by
  unfold listed AsksForFeature
  cases i.runtimeFeatures <;> simp

theorem featureOption_eq (o : Option (List ProviderFeature)) (b : Settings) (p : ProviderSettings) :
    applyFeatureOption o (b, p) =
      ({ b with runtimeFeatures := if listed o .includeUriInSeed then some [.includeUriInSeed] else b.runtimeFeatures },
        ⟨p.disableEthToPrincipalMapping || listed o .disableEthToPrincipalMapping,
         p.disablePrincipalToEthMapping || listed o .disablePrincipalToEthMapping⟩) := by
  cases o with
  | none => simp [applyFeatureOption, listed]
  | some fs => simp [applyFeatureOption, listed, applyFeatures_eq]

theorem init_twin {E : Env} {K : List ProviderFeature} (hK : .includeUriInSeed ∈ K) {a a' s s' : State E} (h : FeatureTwin K a a')
    (hs : FeatureTwin K s s') (hp : a'.settings = a.settings) {i i' : SettingsInput} (hi : AgreeOn K i i') :
    (commitInit s' (siweInit a' i')).2 = (commitInit s (siweInit a i)).2 ∧
      FeatureTwin K (commitInit s (siweInit a i)).1 (commitInit s' (siweInit a' i')).1 := by
  obtain ⟨⟨fs, rfl⟩, hf⟩ := hi
  have hl : ∀ f ∈ K, listed fs f = listed i.runtimeFeatures f := by
    intro f hfK
    have := hf f hfK
    rw [← listed_iff, ← listed_iff] at this
    exact (Bool.eq_iff_iff.mpr this).symm
  unfold siweInit
  simp only [show applyScalars { i with runtimeFeatures := fs } = applyScalars i from rfl]
  cases (applyTargets E i.targets (applyScalars i) : Res Empty Settings) with
  | err e => exact nomatch e
  | panic => exact ⟨rfl, hs⟩
  | ok b =>
    simp only [Res.ok_bind, featureOption_eq, hl _ hK, hp]
    generalize (SettingsBuilder.build E _).unwrap = x
    cases x with
    | err e => exact nomatch e
    | panic => exact ⟨rfl, hs⟩
    | ok st =>
      refine ⟨rfl, ⟨?_, h.sigMap, h.certified, fun hm => ⟨?_, (h.toEth hm).2⟩, fun hm => ⟨?_, (h.toPrincipal hm).2⟩⟩⟩
      · show libInit a'.lib st = libInit a.lib st
        rw [h.lib]
      · show (_ || _) = (_ || _)
        rw [hl _ hm]
      · show (_ || _) = (_ || _)
        rw [hl _ hm]

theorem mapped_twin {E : Env} {K : List ProviderFeature} {s s' : State E} (h : FeatureTwin K s s') (p bs : Bytes) :
    FeatureTwin K (mappedState s p bs) (mappedState s' p bs) := by
  refine ⟨h.lib, h.sigMap, h.certified, fun hm => ⟨(h.toEth hm).1, ?_⟩, fun hm => ⟨(h.toPrincipal hm).1, ?_⟩⟩
  · simp only [mappedState, (h.toEth hm).1, (h.toEth hm).2]
  · simp only [mappedState, (h.toPrincipal hm).1, (h.toPrincipal hm).2]

theorem login_twin {E : Env} {K : List ProviderFeature} {s s' : State E} (h : FeatureTwin K s s') (now : UInt64) (sig addr key nonce : Bytes) :
    (siweLogin s' now sig addr key nonce).2 = (siweLogin s now sig addr key nonce).2 ∧
      FeatureTwin K (siweLogin s now sig addr key nonce).1 (siweLogin s' now sig addr key nonce).1 := by
  unfold siweLogin
  cases ha : EthAddress.new E addr with
  | err e => exact ⟨rfl, h⟩
  | panic => exact ⟨rfl, h⟩
  | ok a =>
    cases EthSignature.new sig with
    | err e => exact ⟨rfl, h⟩
    | panic => exact ⟨rfl, h⟩
    | ok g =>
      dsimp only
      rw [h.lib, h.sigMap]
      generalize login s.lib s.sigMap now g a key E.canisterId nonce = x
      obtain ⟨l, sm, r⟩ := x
      have h2 : FeatureTwin K { s with lib := l, sigMap := sm } { s' with lib := l, sigMap := sm } :=
        ⟨rfl, rfl, h.certified, h.toEth, h.toPrincipal⟩
      cases r with
      | err e => exact ⟨rfl, h2⟩
      | panic => exact ⟨rfl, h2⟩
      | ok d =>
        have h3 : FeatureTwin K (updateRootHash { s with lib := l, sigMap := sm }) (updateRootHash { s' with lib := l, sigMap := sm }) :=
          ⟨rfl, rfl, rfl, h.toEth, h.toPrincipal⟩
        obtain ⟨_, bs, _, _, _, _, _, hb⟩ := isAddress_bytes (isAddress_of_new ha).1
        obtain ⟨str⟩ := a
        simp only
        split
        · exact ⟨rfl, h3⟩
        · rw [manage_eq _ _ hb, manage_eq _ _ hb]
          exact ⟨rfl, mapped_twin h3 _ _⟩

theorem commit_twin {E : Env} {α : Type} {K : List ProviderFeature} {s s' : State E} (h : FeatureTwin K s s') (f : α → Reply)
    {x x' : State E × Res ProviderError α} (hx : x'.2 = x.2) (ht : FeatureTwin K x.1 x'.1) :
    (commit s' f x').2 = (commit s f x).2 ∧ FeatureTwin K (commit s f x).1 (commit s' f x').1 := by
  obtain ⟨t, r⟩ := x
  obtain ⟨t', r'⟩ := x'
  simp only at hx
  subst hx
  cases r' with
  | ok a => exact ⟨rfl, ht⟩
  | err e => exact ⟨rfl, ht⟩
  | panic => exact ⟨rfl, h⟩

theorem prepare_twin {E : Env} {K : List ProviderFeature} {s s' : State E} (h : FeatureTwin K s s') (now : UInt64) (addr : Bytes) :
    (siwePrepareLogin s' now addr).2 = (siwePrepareLogin s now addr).2 ∧
      FeatureTwin K (siwePrepareLogin s now addr).1 (siwePrepareLogin s' now addr).1 := by
  unfold siwePrepareLogin
  cases EthAddress.new E addr with
  | err e => exact ⟨rfl, h⟩
  | panic => exact ⟨rfl, h⟩
  | ok a =>
    dsimp only
    rw [h.lib]
    cases prepareLogin s.lib now a with
    | err e => exact ⟨rfl, h⟩
    | panic => exact ⟨rfl, h⟩
    | ok x =>
      obtain ⟨l, m, n⟩ := x
      dsimp only
      cases (m.text : Res ProviderError Bytes) with
      | err e => exact ⟨rfl, featureTwin_lib h l⟩
      | panic => exact ⟨rfl, h⟩
      | ok t => exact ⟨rfl, featureTwin_lib h l⟩

/-- One call. -/
theorem step_twin {E : Env} {K : List ProviderFeature} (hK : .includeUriInSeed ∈ K) {s s' : State E} (h : FeatureTwin K s s') (now : UInt64)
    {op op' : Op} (ho : CallsAgree K op op') :
    FeatureTwin K (step s now op).1 (step s' now op').1 ∧ (¬MappingQuery op → (step s' now op').2 = (step s now op).2) := by
  have hu : FeatureTwin K s.afterUpgrade s'.afterUpgrade :=
    ⟨rfl, rfl, h.certified, fun hm => ⟨rfl, (h.toEth hm).2⟩, fun hm => ⟨rfl, (h.toPrincipal hm).2⟩⟩
  have ins : ∀ {i i'}, AgreeOn K i i' → _ := fun {i i'} hi => init_twin hK (featureTwin_refl K (State.fresh E)) h rfl hi
  have upg : ∀ {i i'}, AgreeOn K i i' → _ := fun {i i'} hi => init_twin hK hu h rfl hi
  have self : ∀ i, AgreeOn K i i := fun i => ⟨⟨i.runtimeFeatures, rfl⟩, fun _ _ => Iff.rfl⟩
  cases ho with
  | install i i' hi => exact ⟨(ins hi).2, fun _ => (ins hi).1⟩
  | upgrade i i' hi => exact ⟨(upg hi).2, fun _ => (upg hi).1⟩
  | same =>
    cases op with
    | install i => exact ⟨(ins (self i)).2, fun _ => (ins (self i)).1⟩
    | upgrade i => exact ⟨(upg (self i)).2, fun _ => (upg (self i)).1⟩
    | rngSeeded seed =>
      refine ⟨?_, fun _ => rfl⟩
      simp only [step, h.lib]
      exact featureTwin_lib h _
    | prepareLogin a =>
      have hp := prepare_twin h now a
      have := commit_twin h .prepared hp.1 hp.2
      exact ⟨this.2, fun _ => this.1⟩
    | login sig a k n =>
      have hp := login_twin h now sig a k n
      have := commit_twin h .loggedIn hp.1 hp.2
      exact ⟨this.2, fun _ => this.1⟩
    | getDelegation c a k e =>
      refine ⟨h, fun _ => ?_⟩
      simp only [step, siweGetDelegation, h.lib, h.sigMap]
    | getAddress p => exact ⟨h, fun hn => absurd trivial hn⟩
    | getCallerAddress p => exact ⟨h, fun hn => absurd trivial hn⟩
    | getPrincipal a => exact ⟨h, fun hn => absurd trivial hn⟩

theorem run_twin {E : Env} {K : List ProviderFeature} (hK : .includeUriInSeed ∈ K) {h h' : History} (hh : HistoriesAgree K h h') {s s' : State E}
    (ht : FeatureTwin K s s') : FeatureTwin K (run s h).1 (run s' h').1 := by
  induction hh generalizing s s' with
  | nil => exact ht
  | cons now ho _ ih => exact ih (step_twin hK ht now ho).1

/-- C139: two canisters with configurations that differ in the mapping features, at the installation and at any upgrades, and otherwise
receive the same calls, answer every call alike except the queries of the mapping, and certify the same data. -/
theorem C139_signing_in (E : Env) (h h' : History) (hh : HistoriesAgree [.includeUriInSeed] h h') (now : UInt64) (op op' : Op)
    (ho : CallsAgree [.includeUriInSeed] op op') (hq : ¬MappingQuery op) :
    (step (stateAfter E h') now op').2 = (step (stateAfter E h) now op).2 ∧
      (stateAfter E h').certifiedData = (stateAfter E h).certifiedData := by
  have ht : FeatureTwin [.includeUriInSeed] (stateAfter E h) (stateAfter E h') := run_twin (by simp) hh (featureTwin_refl _ _)
  exact ⟨(step_twin (by simp) ht now ho).2 hq, ht.certified⟩

/-- C139: what `get_address` and `get_caller_address` answer does not depend on whether the other mapping is disabled. -/
theorem C139_get_address (E : Env) (h h' : History) (hh : HistoriesAgree [.includeUriInSeed, .disablePrincipalToEthMapping] h h')
    (now : UInt64) (p : Bytes) :
    (step (stateAfter E h') now (.getAddress p)).2 = (step (stateAfter E h) now (.getAddress p)).2 ∧
      (step (stateAfter E h') now (.getCallerAddress p)).2 = (step (stateAfter E h) now (.getCallerAddress p)).2 := by
  have ht : FeatureTwin [.includeUriInSeed, .disablePrincipalToEthMapping] (stateAfter E h) (stateAfter E h') :=
    run_twin (by simp) hh (featureTwin_refl _ _)
  obtain ⟨h1, h2⟩ := ht.toEth (by simp)
  simp only [step, getCallerAddress, getAddress, h1, h2, and_self]

/-- C139: nor `get_principal`. -/
theorem C139_get_principal (E : Env) (h h' : History) (hh : HistoriesAgree [.includeUriInSeed, .disableEthToPrincipalMapping] h h')
    (now : UInt64) (a : Bytes) :
    (step (stateAfter E h') now (.getPrincipal a)).2 = (step (stateAfter E h) now (.getPrincipal a)).2 := by
  have ht : FeatureTwin [.includeUriInSeed, .disableEthToPrincipalMapping] (stateAfter E h) (stateAfter E h') :=
    run_twin (by simp) hh (featureTwin_refl _ _)
  obtain ⟨h1, h2⟩ := ht.toPrincipal (by simp)
  simp only [step, getPrincipal, h1, h2]

/-- C139: in which order features are listed, how often, and whether an empty list is given or none, makes no difference to any answer. -/
theorem C139_order_of_features (E : Env) (h h' : History)
    (hh : HistoriesAgree [.includeUriInSeed, .disablePrincipalToEthMapping, .disableEthToPrincipalMapping] h h') (now : UInt64) (op : Op) :
    (step (stateAfter E h') now op).2 = (step (stateAfter E h) now op).2 := by
  have ht : FeatureTwin [.includeUriInSeed, .disablePrincipalToEthMapping, .disableEthToPrincipalMapping] (stateAfter E h) (stateAfter E h') :=
    run_twin (by simp) hh (featureTwin_refl _ _)
  obtain ⟨h1, h2⟩ := ht.toEth (by simp)
  obtain ⟨h3, h4⟩ := ht.toPrincipal (by simp)
  by_cases hq : MappingQuery op
  · cases op <;> first | exact absurd hq id | simp only [step, getCallerAddress, getAddress, getPrincipal, h1, h2, h3, h4]
  · exact (step_twin (by simp) ht now (.same op)).2 hq

/-- The example's configuration without mappings. -/
def Ex.unmapped : SettingsInput :=
  { Ex.input with runtimeFeatures := some [.disableEthToPrincipalMapping, .disablePrincipalToEthMapping] }

/-- The example's login on a canister so configured. -/
def Ex.loggedInUnmapped : History :=
  [(1, .install Ex.unmapped), (2, .rngSeeded [1, 2, 3]), (5, .prepareLogin Ex.alice), (6, .prepareLogin Ex.bob),
    (100, .login Ex.aliceSig Ex.alice Ex.key (Ex.nonce 3))]

/-- Non-vacuity: the example's login succeeds without the mappings as well; only the queries of the mapping differ. -/
example : HistoriesAgree [.includeUriInSeed] Ex.loggedIn Ex.loggedInUnmapped ∧
    (match (step (stateAfter Toy.env Ex.prepared) 100 (.login Ex.aliceSig Ex.alice Ex.key (Ex.nonce 3))).2 with
      | .loggedIn _ => true | _ => false) = true ∧
    (match (step (stateAfter Toy.env Ex.loggedIn) 200 (.getPrincipal Ex.alice)).2 with | .bytes _ => true | _ => false) = true ∧
    (step (stateAfter Toy.env Ex.loggedInUnmapped) 200 (.getPrincipal Ex.alice)).2 = .err .ethToPrincipalDisabled := by
  refine ⟨?_, by decide +kernel, by decide +kernel, by decide +kernel⟩
  refine .cons 1 (.install _ _ ⟨⟨_, rfl⟩, ?_⟩) (.cons 2 (.same _) (.cons 5 (.same _) (.cons 6 (.same _) (.cons 100 (.same _) .nil))))
  simp [AsksForFeature, Ex.unmapped, Ex.input]

/-- Non-vacuity of the other cases: one mapping disabled, and a list of features in another order with repetitions. -/
example : AgreeOn [.includeUriInSeed, .disablePrincipalToEthMapping] Ex.input
      { Ex.input with runtimeFeatures := some [.disableEthToPrincipalMapping] } ∧
    AgreeOn [.includeUriInSeed, .disablePrincipalToEthMapping, .disableEthToPrincipalMapping] Ex.unmapped
      { Ex.input with runtimeFeatures := some [.disablePrincipalToEthMapping, .disableEthToPrincipalMapping, .disablePrincipalToEthMapping] } := by
  refine ⟨⟨⟨_, rfl⟩, ?_⟩, ⟨_, rfl⟩, ?_⟩ <;> simp [AsksForFeature, Ex.unmapped, Ex.input]

end Siwe
