import Verif.Lemmas.StableMap
import Verif.Lemmas.Mappings
import Verif.Model.StableCanister
import Mathlib.Data.List.Induction
/- Lemmas about uses of the maps in stable memory, and about the canister that keeps its mappings there. -/
namespace Siwe
open Spec StableBTree

theorem latest_snoc (ops : List (Bytes × Bytes)) (k v x : Bytes) :
    latest (ops ++ [(k, v)]) x = if x = k then some v else latest ops x := by
  simp only [latest, List.reverse_append, List.reverse_cons, List.reverse_nil, List.nil_append, List.cons_append, List.find?_cons]
  by_cases h : k = x
  · simp [h]
  · have : ¬x = k := fun e => h e.symm
    simp [h, this]

theorem latest_isSome (ops : List (Bytes × Bytes)) (k : Bytes) : (latest ops k).isSome = true ↔ k ∈ ops.map (·.1) := by
  simp [latest]

theorem keysOf_snoc (ops : List (Bytes × Bytes)) (k v : Bytes) :
    keysOf (ops ++ [(k, v)]) = if (latest ops k).isSome then keysOf ops else keysOf ops + 1 := by
  have hp : ((ops ++ [(k, v)]).map (·.1)).dedup.Perm (k :: ops.map (·.1)).dedup := by
    rw [List.perm_ext_iff_of_nodup (List.nodup_dedup _) (List.nodup_dedup _)]
    intro a
    simp [or_comm]
  rw [keysOf, hp.length_eq]
  split
  · rename_i h
    rw [List.dedup_cons_of_mem ((latest_isSome ops k).1 h)]
    rfl
  · rename_i h
    rw [List.dedup_cons_of_notMem fun hm => h ((latest_isSome ops k).2 hm)]
    rfl

theorem mapAfter_snoc (us : List MapUse) (u : MapUse) : mapAfter (us ++ [u]) = (mapAfter us).bind (useMap · u) := by
  simp only [mapAfter, List.foldl_append, List.foldl_cons, List.foldl_nil]

theorem inserted_snoc (us : List MapUse) (u : MapUse) : inserted (us ++ [u]) = inserted us ++ match u with
    | .insert k v => [(k, v)]
    | .upgrade => [] := by
  cases u <;> simp [inserted]

theorem mapAfter_holds (us : List MapUse) : ∃ t l, mapAfter us = some t ∧ Holds t l ∧ (∀ k, find l k = latest (inserted us) k) ∧
    l.length = keysOf (inserted us) := by
  induction us using List.reverseRecOn with
  | nil => exact ⟨_, [], rfl, holds_new, fun k => rfl, rfl⟩
  | append_singleton us u ih =>
    obtain ⟨t, l, h1, h2, h3, h4⟩ := ih
    rw [mapAfter_snoc, h1, inserted_snoc]
    cases u with
    | insert k v =>
      obtain ⟨t', l', old, i1, i2, i3⟩ := h2.insert k v
      refine ⟨t', l', by simp [useMap, i1], i2, fun x => ?_, ?_⟩
      · rw [i3.find h2.2.2.1, h3, latest_snoc]
      · rw [i3.length, i3.old h2.2.2.1, h3, h4, keysOf_snoc]
    | upgrade =>
      refine ⟨t, l, by simp [useMap, h2.reload], h2, by simpa using h3, by simpa using h4⟩

/-- The tree behind a map holds the entries of a finite map. -/
def Backs (h : Handle) (m : StableMap) : Prop := ∃ l, Holds h.map l ∧ ∀ k, find l k = m.lookup k

theorem backs_new : Backs (.closed .unused) [] := ⟨[], holds_new, fun _ => rfl⟩

theorem Backs.reset {h : Handle} {m : StableMap} (hb : Backs h m) : Backs h.reset m := by
  obtain ⟨l, h1, h2⟩ := hb
  cases h with
  | closed m => exact ⟨l, h1, h2⟩
  | opened t => exact ⟨l, by rw [Handle.reset, Handle.map, Holds.reload (t := t) h1]; exact h1, h2⟩

theorem Backs.get {h : Handle} {m : StableMap} (hb : Backs h m) (k : Bytes) : StableBTree.get h.map k = some (m.lookup k) := by
  obtain ⟨l, h1, h2⟩ := hb
  rw [h1.get, h2]

theorem Backs.insert {h : Handle} {m : StableMap} (hb : Backs h m) (k v : Bytes) :
    ∃ t old, StableBTree.insert h.map k v = some (t, old) ∧ Backs (.opened t) (m.insert k v) := by
  obtain ⟨l, h1, h2⟩ := hb
  obtain ⟨t, l', old, i1, i2, i3⟩ := h1.insert k v
  exact ⟨t, old, i1, l', i2, fun x => by rw [i3.find h1.2.2.1, h2, stableMap_lookup_insert]⟩

/-- The two canisters are in the same state. -/
def Same {E : Env} (c : Canister E) (s : State E) : Prop :=
  c.lib = s.lib ∧ c.sigMap = s.sigMap ∧ c.settings = s.settings ∧ c.certifiedData = s.certifiedData ∧
    Backs c.principalAddress s.principalAddress ∧ Backs c.addressPrincipal s.addressPrincipal

theorem prepare_backed {E : Env} (c : Canister E) (s : State E) (h : Same c s) (now : UInt64) (a : Bytes) :
    (siwePrepareLogin c.heap now a).2 = (siwePrepareLogin s now a).2 ∧
      Same (c.withHeap (siwePrepareLogin c.heap now a).1) (siwePrepareLogin s now a).1 := by
  obtain ⟨cl, csm, cse, ccd, cpa, cap⟩ := c
  obtain ⟨lib, sm, se, pa, ap, cd⟩ := s
  obtain ⟨h1, h2, h3, h4, h5, h6⟩ := h
  simp only at h1 h2 h3 h4 h5 h6
  subst h1 h2 h3 h4
  simp only [siwePrepareLogin, Canister.heap]
  cases EthAddress.new E a with
  | err e => exact ⟨rfl, rfl, rfl, rfl, rfl, h5, h6⟩
  | panic => exact ⟨rfl, rfl, rfl, rfl, rfl, h5, h6⟩
  | ok address =>
    simp only
    cases prepareLogin cl now address with
    | err e => exact ⟨rfl, rfl, rfl, rfl, rfl, h5, h6⟩
    | panic => exact ⟨rfl, rfl, rfl, rfl, rfl, h5, h6⟩
    | ok x =>
      obtain ⟨l, message, nonce⟩ := x
      simp only
      cases (message.text : Res ProviderError _) with
      | err e => exact ⟨rfl, rfl, rfl, rfl, rfl, h5, h6⟩
      | panic => exact ⟨rfl, rfl, rfl, rfl, rfl, h5, h6⟩
      | ok t => exact ⟨rfl, rfl, rfl, rfl, rfl, h5, h6⟩

/-- The two results of a function are the same. -/
def SameRes {E : Env} {ε : Type} : Res ε (Canister E) → Res ε (State E) → Prop
  | .ok c, .ok s => Same c s
  | .err e, .err e' => e = e'
  | .panic, .panic => True
  | _, _ => False

theorem init_backed {E : Env} (c : Canister E) (s : State E) (h : Same c s) (i : SettingsInput) :
    match siweInit c.heap i, siweInit s i with
    | .ok x, .ok y => Same (c.withHeap x) y
    | .panic, .panic => True
    | _, _ => False := by
  obtain ⟨h1, h2, h3, h4, h5, h6⟩ := h
  simp only [siweInit, Canister.heap, h3]
  cases (applyTargets E i.targets (applyScalars i) : Res Empty _) with
  | err e => exact nomatch e
  | panic => trivial
  | ok b =>
    simp only [bind, Res.bind]
    cases (SettingsBuilder.build E (applyFeatureOption i.runtimeFeatures (b, s.settings)).1).unwrap (ε' := Empty) with
    | err e => exact nomatch e
    | panic => trivial
    | ok x => exact ⟨by simp only [Canister.withHeap, h1], h2, rfl, h4, h5, h6⟩

theorem manage_backed {E : Env} (c : Canister E) (s : State E) (h : Same c s) (p : Bytes) (a : EthAddress) :
    SameRes (StableBTree.managePrincipalAddressMappings c p a) (Siwe.managePrincipalAddressMappings s p a) := by
  obtain ⟨cl, csm, cse, ccd, cpa, cap⟩ := c
  obtain ⟨lib, sm, se, pa, ap, cd⟩ := s
  obtain ⟨h1, h2, h3, h4, h5, h6⟩ := h
  simp only at h1 h2 h3 h4 h5 h6
  subst h1 h2 h3 h4
  obtain ⟨d1, d2⟩ := cse
  simp only [StableBTree.managePrincipalAddressMappings, Siwe.managePrincipalAddressMappings]
  cases hb : (a.asByteArray.unwrap : Res ProviderError Bytes) with
  | err e => cases d1 <;> cases d2 <;> first | exact rfl | exact ⟨rfl, rfl, rfl, rfl, h5, h6⟩
  | panic => cases d1 <;> cases d2 <;> first | exact trivial | exact ⟨rfl, rfl, rfl, rfl, h5, h6⟩
  | ok b =>
    obtain ⟨t1, o1, i1, j1⟩ := h5.insert p b
    obtain ⟨t2, o2, i2, j2⟩ := h6.insert b p
    cases d1 <;> cases d2 <;> simp only [bind, Res.bind, Bool.not_true, Bool.not_false, Bool.false_eq_true, if_true, if_false, i1, i2]
    · exact ⟨rfl, rfl, rfl, rfl, j1, j2⟩
    · exact ⟨rfl, rfl, rfl, rfl, h5, j2⟩
    · exact ⟨rfl, rfl, rfl, rfl, j1, h6⟩
    · exact ⟨rfl, rfl, rfl, rfl, h5, h6⟩

theorem login_backed {E : Env} (c : Canister E) (s : State E) (h : Same c s) (now : UInt64) (sig a k n : Bytes) :
    (StableBTree.siweLogin c now sig a k n).2 = (Siwe.siweLogin s now sig a k n).2 ∧
      Same (StableBTree.siweLogin c now sig a k n).1 (Siwe.siweLogin s now sig a k n).1 := by
  have h0 := h
  obtain ⟨h1, h2, h3, h4, h5, h6⟩ := h
  simp only [StableBTree.siweLogin, Siwe.siweLogin, h1, h2]
  cases EthAddress.new E a with
  | err e => exact ⟨rfl, h0⟩
  | panic => exact ⟨rfl, h0⟩
  | ok address =>
    simp only
    cases EthSignature.new sig with
    | err e => exact ⟨rfl, h0⟩
    | panic => exact ⟨rfl, h0⟩
    | ok signature =>
      simp only
      cases Siwe.login s.lib s.sigMap now signature address k E.canisterId n with | mk l x =>
      cases x with | mk sm r =>
      cases r with
      | err e => exact ⟨rfl, rfl, rfl, h3, h4, h5, h6⟩
      | panic => exact ⟨rfl, rfl, rfl, h3, h4, h5, h6⟩
      | ok details =>
        simp only
        have hs : Same (Canister.withHeap { c with lib := l, sigMap := sm } (updateRootHash (Canister.heap { c with lib := l, sigMap := sm })))
            (updateRootHash { s with lib := l, sigMap := sm }) := ⟨rfl, rfl, h3, rfl, h5, h6⟩
        split
        · exact ⟨rfl, hs⟩
        · have hm := manage_backed _ _ hs ((selfAuthenticating E details.userCanisterPubkey).take 29) address
          revert hm
          cases StableBTree.managePrincipalAddressMappings _ _ address <;> cases Siwe.managePrincipalAddressMappings _ _ address <;> intro hm
          · exact ⟨rfl, hm⟩
          · exact hm.elim
          · exact hm.elim
          · exact hm.elim
          · cases hm; exact ⟨rfl, hs⟩
          · exact hm.elim
          · exact hm.elim
          · exact hm.elim
          · exact ⟨rfl, hs⟩

theorem getAddress_backed {E : Env} (c : Canister E) (s : State E) (h : Same c s) (p : Bytes) :
    StableBTree.getAddress c p = Siwe.getAddress s p := by
  obtain ⟨h1, h2, h3, h4, h5, h6⟩ := h
  simp only [StableBTree.getAddress, Siwe.getAddress, h3, h5.get]
  cases s.principalAddress.lookup p <;> rfl

theorem getPrincipal_backed {E : Env} (c : Canister E) (s : State E) (h : Same c s) (a : Bytes) :
    StableBTree.getPrincipal c a = Siwe.getPrincipal s a := by
  obtain ⟨h1, h2, h3, h4, h5, h6⟩ := h
  simp only [StableBTree.getPrincipal, Siwe.getPrincipal, h3, h6.get]
  split
  · rfl
  · cases (EthAddress.new E a).mapErr ProviderError.eth with
    | err e => rfl
    | panic => rfl
    | ok x =>
      simp only [bind, Res.bind]
      cases (x.asByteArray.unwrap : Res ProviderError Bytes) with
      | err e => rfl
      | panic => rfl
      | ok b =>
        simp only
        cases s.addressPrincipal.lookup b <;> rfl

theorem fresh_backed (E : Env) : Same (Canister.fresh E) (State.fresh E) := ⟨rfl, rfl, rfl, rfl, backs_new, backs_new⟩

theorem upgrade_backed {E : Env} {c : Canister E} {s : State E} (h : Same c s) : Same c.afterUpgrade s.afterUpgrade :=
  ⟨rfl, rfl, rfl, h.2.2.2.1, h.2.2.2.2.1.reset, h.2.2.2.2.2.reset⟩

theorem commitInit_backed {E : Env} {c new : Canister E} {s snew : State E} (h : Same c s) (hn : Same new snew) (i : SettingsInput) :
    (StableBTree.commitInit c new (siweInit new.heap i)).2 = (Siwe.commitInit s (siweInit snew i)).2 ∧
      Same (StableBTree.commitInit c new (siweInit new.heap i)).1 (Siwe.commitInit s (siweInit snew i)).1 := by
  have := init_backed new snew hn i
  revert this
  cases siweInit new.heap i with
  | err e => exact nomatch e
  | panic =>
    cases siweInit snew i with
    | err e => exact nomatch e
    | panic => intro _; exact ⟨rfl, h⟩
    | ok y => intro hf; exact hf.elim
  | ok x =>
    cases siweInit snew i with
    | err e => exact nomatch e
    | panic => intro hf; exact hf.elim
    | ok y => intro hf; exact ⟨rfl, hf⟩

theorem commit_backed {E : Env} {α : Type} {c : Canister E} {s : State E} (h : Same c s) (f : α → Reply) (x : Canister E × Res ProviderError α)
    (y : State E × Res ProviderError α) (h1 : x.2 = y.2) (h2 : Same x.1 y.1) :
    (StableBTree.commit c f x).2 = (Siwe.commit s f y).2 ∧ Same (StableBTree.commit c f x).1 (Siwe.commit s f y).1 := by
  simp only [StableBTree.commit, Siwe.commit, h1]
  cases y.2 with
  | panic => exact ⟨rfl, h⟩
  | err e => exact ⟨rfl, h2⟩
  | ok a => exact ⟨rfl, h2⟩

theorem step_backed {E : Env} {c : Canister E} {s : State E} (h : Same c s) (now : UInt64) (op : Op) :
    (StableBTree.step c now op).2 = (Siwe.step s now op).2 ∧ Same (StableBTree.step c now op).1 (Siwe.step s now op).1 := by
  cases op with
  | install i => exact commitInit_backed h (fresh_backed E) i
  | upgrade i => exact commitInit_backed h (upgrade_backed h) i
  | rngSeeded seed => exact ⟨rfl, by simp only [StableBTree.step, Siwe.step, h.1], h.2⟩
  | prepareLogin a =>
    have := prepare_backed c s h now a
    exact commit_backed h _ _ _ this.1 this.2
  | login sig a k n =>
    have := login_backed c s h now sig a k n
    exact commit_backed h _ _ _ this.1 this.2
  | getDelegation cert a k e =>
    refine ⟨?_, h⟩
    simp only [StableBTree.step, Siwe.step, siweGetDelegation, Canister.heap, h.1, h.2.1]
  | getAddress p =>
    refine ⟨?_, h⟩
    simp only [StableBTree.step, Siwe.step, getAddress_backed c s h]
  | getCallerAddress p =>
    refine ⟨?_, h⟩
    simp only [StableBTree.step, Siwe.step, StableBTree.getCallerAddress, Siwe.getCallerAddress, getAddress_backed c s h, h.2.2.1]
  | getPrincipal a =>
    refine ⟨?_, h⟩
    simp only [StableBTree.step, Siwe.step, getPrincipal_backed c s h]

theorem run_backed {E : Env} : ∀ (h : History) (c : Canister E) (s : State E), Same c s →
    (StableBTree.run c h).2 = (Siwe.run s h).2 ∧ Same (StableBTree.run c h).1 (Siwe.run s h).1
  | [], _, _, hs => ⟨rfl, hs⟩
  | (now, op) :: h, c, s, hs => by
    have h1 := step_backed hs now op
    have h2 := run_backed h _ _ h1.2
    exact ⟨by simp only [StableBTree.run, Siwe.run, h1.1, h2.1], h2.2⟩

end Siwe
