import Verif.Lemmas.Settings
import Verif.Spec.Config
import Verif.Examples.Toy
import Batteries.Tactic.Init
import Batteries.Tactic.PermuteGoals
/- Properties C40-C42: validation and initialisation. -/
namespace Siwe
open Spec

theorem firstFailure_or (rs : List (Prop × SettingsError)) :
    (∀ r ∈ rs, r.1) ∨ ∃ e, FirstFailure rs e := by
  induction rs with
  | nil => simp
  | cons r rs ih =>
    obtain ⟨p, e⟩ := r
    by_cases hp : p
    · rcases ih with h | ⟨e', h⟩
      · left; exact List.forall_mem_cons.mpr ⟨hp, h⟩
      · right; exact ⟨e', .later hp h⟩
    · right; exact ⟨e, .here hp⟩

theorem firstFailure_not {rs : List (Prop × SettingsError)} {e} (h : FirstFailure rs e) : ¬ ∀ r ∈ rs, r.1 := by
  induction h with
  | here hp => intro h; exact hp (h _ List.mem_cons_self)
  | later _ _ ih => intro h; exact ih fun r hr => h r (List.mem_cons_of_mem _ hr)

theorem firstFailure_unique {rs : List (Prop × SettingsError)} {e e'} (h : FirstFailure rs e)
    (h' : FirstFailure rs e') : e = e' := by
  induction h with
  | here hp => cases h' with
    | here _ => rfl
    | later hp' _ => exact absurd hp' hp
  | later hp _ ih => cases h' with
    | here hp' => exact absurd hp hp'
    | later _ h => exact ih h

theorem build_spec (E : Env) (s : Settings) (hh : ¬ HostlessDomain E s) :
    (ValidSettings E s ∧ SettingsBuilder.build E s = .ok s) ∨
    (∃ e, FirstFailure (requirements E s) e ∧ SettingsBuilder.build E s = .err e) := by
  unfold ValidSettings requirements SettingsBuilder.build
  by_cases hd : DomainOk E s
  swap
  · right
    refine ⟨_, .here hd, ?_⟩
    have : validateDomain E s.scheme s.domain = .err .invalidDomain := by
      unfold validateDomain DomainOk HostlessDomain at *
      cases h : E.urlParse (s.scheme ++ ascii "://" ++ s.domain) with
      | none => rfl
      | some u =>
        rw [h] at hd hh
        obtain ⟨a, host⟩ := u
        cases a <;> cases host <;> simp_all
    simp [this]
  have e1 : validateDomain E s.scheme s.domain = .ok () := by
    obtain ⟨host, h⟩ := hd
    unfold validateDomain
    rw [h]; rfl
  by_cases hu : UriOk E s
  swap
  · right
    exact ⟨_, .later hd (.here hu), by simp [e1, (checks_uri E s).2 hu]⟩
  have e2 := (checks_uri E s).1 hu
  simp only [e1, e2, Res.ok_bind]
  by_cases h3 : s.salt ≠ []
  swap
  · right
    exact ⟨_, .later hd (.later hu (.here h3)), by simp at h3; simp [validateSalt, h3]⟩
  by_cases h4 : ∀ c ∈ s.salt, 33 ≤ c.toNat ∧ c.toNat ≤ 126
  swap
  · right
    refine ⟨_, .later hd (.later hu (.later h3 (.here h4))), ?_⟩
    have := (salt_graphic s.salt).2 h4
    simp only [validateSalt, List.isEmpty_eq_false_iff.mpr h3, this]; rfl
  have e4 : validateSalt s.salt = .ok () := by
    have := mt (salt_graphic s.salt).1 (not_not_intro h4)
    simp only [validateSalt, List.isEmpty_eq_false_iff.mpr h3, this]; rfl
  simp only [e4, Res.ok_bind]
  by_cases h5 : s.chainId ≠ 0
  swap
  · right
    exact ⟨_, .later hd (.later hu (.later h3 (.later h4 (.here h5)))), by simp at h5; simp [validateChainId, h5]⟩
  have e5 : validateChainId s.chainId = .ok () := by simp [validateChainId, h5]
  by_cases h6 : s.scheme = ascii "http" ∨ s.scheme = ascii "https"
  swap
  · right
    exact ⟨_, .later hd (.later hu (.later h3 (.later h4 (.later h5 (.here h6))))), by
      simp only [e5, validateScheme, h6, Res.ok_bind]; rfl⟩
  have e6 : validateScheme s.scheme = .ok () := by simp only [validateScheme, h6]; rfl
  by_cases h7 : ¬ (10 : UInt8) ∈ s.statement
  swap
  · right
    exact ⟨_, .later hd (.later hu (.later h3 (.later h4 (.later h5 (.later h6 (.here h7)))))), by
      simp at h7; simp [e5, e6, validateStatement, h7]⟩
  have e7 : validateStatement s.statement = .ok () := by simp [validateStatement, h7]
  by_cases h8 : s.signInExpiresIn ≠ 0
  swap
  · right
    exact ⟨_, .later hd (.later hu (.later h3 (.later h4 (.later h5 (.later h6 (.later h7 (.here h8))))))), by
      simp at h8; simp [e5, e6, e7, validateSignInExpiresIn, h8]⟩
  have e8 : validateSignInExpiresIn s.signInExpiresIn = .ok () := by simp [validateSignInExpiresIn, h8]
  by_cases h9 : s.sessionExpiresIn ≠ 0
  swap
  · right
    exact ⟨_, .later hd (.later hu (.later h3 (.later h4 (.later h5 (.later h6 (.later h7 (.later h8
      (.here h9)))))))), by
      simp at h9; simp [e5, e6, e7, e8, validateSessionExpiresIn, h9]⟩
  have e9 : validateSessionExpiresIn s.sessionExpiresIn = .ok () := by simp [validateSessionExpiresIn, h9]
  simp only [e5, e6, e7, e8, e9, Res.ok_bind]
  cases ht : s.targets with
  | none =>
    left
    refine ⟨?_, by simp [validateTargets]⟩
    intro r hr
    simp only [List.mem_cons, List.not_mem_nil, or_false] at hr
    rcases hr with rfl | rfl | rfl | rfl | rfl | rfl | rfl | rfl | rfl | rfl | rfl | rfl <;>
      first | assumption | simp
  | some ts =>
    by_cases h10 : ts = []
    · right
      subst h10
      exact ⟨_, .later hd (.later hu (.later h3 (.later h4 (.later h5 (.later h6 (.later h7 (.later h8
        (.later h9 (.here (by simp)))))))))), by simp [validateTargets]⟩
    by_cases h11 : ts.length ≤ 1000
    swap
    · right
      exact ⟨_, .later hd (.later hu (.later h3 (.later h4 (.later h5 (.later h6 (.later h7 (.later h8
        (.later h9 (.later (by simpa using h10) (.here (by simpa using h11))))))))))), by
          simp [validateTargets, h10, show 1000 < ts.length by omega]⟩
    by_cases h12 : ts.Nodup
    swap
    · right
      refine ⟨_, .later hd (.later hu (.later h3 (.later h4 (.later h5 (.later h6 (.later h7 (.later h8
        (.later h9 (.later (by simpa using h10) (.later (by simpa using h11)
          (.here (by simpa using h12)))))))))))), ?_⟩
      have := mt (dedup_sort_nodup ts).1 h12
      simp [validateTargets, h10, show ¬ 1000 < ts.length by omega, this]
    left
    constructor
    · intro r hr
      simp only [List.mem_cons, List.not_mem_nil, or_false] at hr
      rcases hr with rfl | rfl | rfl | rfl | rfl | rfl | rfl | rfl | rfl | rfl | rfl | rfl <;>
        first | assumption | simpa
    · have := (dedup_sort_nodup ts).2 h12
      simp [validateTargets, h10, show ¬ 1000 < ts.length by omega, this]

theorem build_panic_iff (E : Env) (s : Settings) :
    SettingsBuilder.build E s = .panic ↔ HostlessDomain E s := by
  constructor
  · intro h
    apply Classical.byContradiction
    intro hh
    rcases build_spec E s hh with ⟨_, h'⟩ | ⟨e, _, h'⟩ <;> simp [h] at h'
  · intro h
    have : validateDomain E s.scheme s.domain = .panic := by 
      unfold HostlessDomain at h
      unfold validateDomain
      rw [h]; rfl
    simp [SettingsBuilder.build, this]

theorem not_hostless {E : Env} {s : Settings} (h : DomainOk E s) : ¬ HostlessDomain E s := by
  obtain ⟨host, h⟩ := h
  intro h'
  unfold HostlessDomain at h'
  rw [h] at h'
  simp at h'

/-! ### C40 -/

/-- C40: `build` returns `Ok` exactly when all requirements hold, and then the settings are those given. -/
theorem C40_accepts (E : Env) (s s' : Settings) :
    SettingsBuilder.build E s = .ok s' ↔ ValidSettings E s ∧ s' = s := by
  constructor
  · intro h
    have hh : ¬ HostlessDomain E s := by rw [← build_panic_iff, h]; simp
    rcases build_spec E s hh with ⟨h1, h2⟩ | ⟨e, _, h2⟩
    · rw [h] at h2; exact ⟨h1, by simpa using h2⟩
    · simp [h] at h2
  · rintro ⟨h, rfl⟩
    have hh := not_hostless (h _ List.mem_cons_self)
    rcases build_spec E s' hh with ⟨h1, h2⟩ | ⟨e, h1, h2⟩
    · exact h2
    · exact absurd h (firstFailure_not h1)

/-- C40: `build` returns the error of the first requirement that fails (unless it panics, see C41). -/
theorem C40_rejects (E : Env) (s : Settings) (e : SettingsError) :
    SettingsBuilder.build E s = .err e ↔ FirstFailure (requirements E s) e ∧ ¬ HostlessDomain E s := by
  constructor
  · intro h
    have hh : ¬ HostlessDomain E s := by rw [← build_panic_iff, h]; simp
    rcases build_spec E s hh with ⟨h1, h2⟩ | ⟨e', h1, h2⟩
    · simp [h] at h2
    · rw [h] at h2
      cases h2
      exact ⟨h1, hh⟩
  · rintro ⟨h, hh⟩
    rcases build_spec E s hh with ⟨h1, h2⟩ | ⟨e', h1, h2⟩
    · exact absurd h1 (firstFailure_not h)
    · rw [h2, firstFailure_unique h1 h]

/-- Non-vacuity of C40: accepted, and rejected settings (repeated targets that are not adjacent). -/
example : SettingsBuilder.build Toy.env (SettingsBuilder.new (ascii "a.com") (ascii "http://a.com") (ascii "s")) =
      .ok (SettingsBuilder.new (ascii "a.com") (ascii "http://a.com") (ascii "s")) ∧
    SettingsBuilder.build Toy.env { SettingsBuilder.new (ascii "a.com") (ascii "http://a.com") (ascii "s") with
      targets := some [[1], [2], [1]] } = .err .duplicateTargets ∧
    SettingsBuilder.build Toy.env (SettingsBuilder.new (ascii "a.com") (ascii "http://a.com") (ascii "s s")) =
      .err .invalidSalt := by
  decide +kernel

/-! ### C41 -/

/-- C41 is false of the code: `build` panics exactly when the URL parser finds an authority but no host in
`scheme://domain` (for instance `foo://`); the scheme is only checked later. -/
theorem C41_panics_iff (E : Env) (s : Settings) : SettingsBuilder.build E s = .panic ↔ HostlessDomain E s :=
  build_panic_iff E s

/-- C41, the negation for a URL parser that does this for the string `foo://`. -/
theorem C41_panic_exists (E : Env) (h : E.urlParse (ascii "foo://") = some ⟨true, none⟩) :
    ∃ s, SettingsBuilder.build E s = .panic :=
  ⟨{ SettingsBuilder.new [] (ascii "http://a.com") (ascii "s") with scheme := ascii "foo" },
    (build_panic_iff E _).2 <| by
      have e : ascii "foo" ++ ascii "://" ++ ([] : Bytes) = ascii "foo://" := by decide
      unfold HostlessDomain
      exact (congrArg E.urlParse e).trans h⟩

/-- C41, partial: no panic for the two accepted schemes, when the URL parser never reports an `http(s)://` URL
without a host (as the URL standard requires). -/
theorem C41_http_no_panic_partial (E : Env) (s : Settings)
    (hstd : ∀ rest u, (E.urlParse (ascii "http://" ++ rest) = some u ∨
      E.urlParse (ascii "https://" ++ rest) = some u) → u.hostStr ≠ none)
    (hs : s.scheme = ascii "http" ∨ s.scheme = ascii "https") : SettingsBuilder.build E s ≠ .panic := by
  rw [Ne, build_panic_iff]
  intro h
  have e1 : ascii "http" ++ ascii "://" = ascii "http://" := by decide
  have e2 : ascii "https" ++ ascii "://" = ascii "https://" := by decide
  unfold HostlessDomain at h
  rcases hs with hs | hs <;> rw [hs] at h
  · exact hstd s.domain _ (.inl (e1 ▸ h)) rfl
  · exact hstd s.domain _ (.inr (e2 ▸ h)) rfl

/-- Non-vacuity of C41: the toy parser meets the standard's condition; a variant of it meets the hypothesis of the
negation. -/
example : (∀ rest u, (Toy.env.urlParse (ascii "http://" ++ rest) = some u ∨
      Toy.env.urlParse (ascii "https://" ++ rest) = some u) → u.hostStr ≠ none) ∧
    ({ Toy.env with urlParse := fun _ => some ⟨true, none⟩ } : Env).urlParse (ascii "foo://") =
      some ⟨true, none⟩ := by
  constructor
  · rintro rest u (h | h) <;> simp [Toy.env] at h <;> simp [← h.2]
  · rfl

/-! ### C42 -/

theorem parseTargets_ok {ε : Type} (E : Env) (ts ps : List Bytes) :
    (parseTargets E ts : Res ε _) = .ok ps ↔ ts.map E.principalFromText = ps.map some := by
  induction ts generalizing ps with
  | nil => cases ps <;> simp [parseTargets]
  | cons t ts ih =>
    rw [parseTargets]
    cases h : E.principalFromText t with
    | none => cases ps <;> simp [h]
    | some q =>
      simp only [List.map_cons, h]
      cases hp : (parseTargets E ts : Res ε _) with
      | ok qs =>
        have := (ih qs).1 hp
        cases ps with
        | nil => simp
        | cons p ps =>
          simp only [Res.ok_bind, Res.ok.injEq, List.cons.injEq, List.map_cons, Option.some.injEq]
          rw [this]
          refine and_congr_right fun _ => ?_
          exact ⟨fun h => by rw [h], fun h => (List.map_inj_right (fun _ _ h => by simpa using h)).1 h⟩
      | err e =>
        cases ps with
        | nil => simp
        | cons p ps =>
          have := mt (ih ps).2 (by simp [hp])
          simp only [Res.err_bind, List.map_cons, List.cons.injEq]
          simp [this]
      | panic =>
        cases ps with
        | nil => simp
        | cons p ps =>
          have := mt (ih ps).2 (by simp [hp])
          simp only [Res.panic_bind, List.map_cons, List.cons.injEq]
          simp [this]

theorem applyFeatures_eq (fs : List ProviderFeature) (b : Settings) (p : ProviderSettings) :
    applyFeatures fs (b, p) =
      ({ b with runtimeFeatures :=
          if .includeUriInSeed ∈ fs then some [.includeUriInSeed] else b.runtimeFeatures },
        ⟨p.disableEthToPrincipalMapping || decide (.disableEthToPrincipalMapping ∈ fs),
         p.disablePrincipalToEthMapping || decide (.disablePrincipalToEthMapping ∈ fs)⟩) := by
  induction fs generalizing b p with
  | nil => simp [applyFeatures]
  | cons f fs ih =>
    cases f <;> rw [applyFeatures, ih] <;> simp [SettingsBuilder.runtimeFeatures]

theorem applyScalars_eq (i : SettingsInput) : applyScalars i =
    { domain := i.domain, uri := i.uri, salt := i.salt, chainId := i.chainId.getD 1,
      scheme := i.scheme.getD (ascii "https"), statement := i.statement.getD (ascii "SIWE Fields:"),
      signInExpiresIn := i.signInExpiresIn.getD 300000000000,
      sessionExpiresIn := i.sessionExpiresIn.getD 1800000000000, targets := none, runtimeFeatures := none } := by
  obtain ⟨d, u, sa, c, sc, st, si, se, t, f⟩ := i
  cases c <;> cases sc <;> cases st <;> cases si <;> cases se <;> rfl

theorem applyTargets_ok {ε : Type} (E : Env) (t : Option (List Bytes)) (b b' : Settings) :
    (applyTargets E t b : Res ε _) = .ok b' ↔ (t = none ∧ b' = b) ∨
      ∃ ts ps, t = some ts ∧ ts.map E.principalFromText = ps.map some ∧ E.canisterId ∈ ps ∧
        b' = { b with targets := some ps } := by
  cases t with
  | none => simp [applyTargets, eq_comm]
  | some ts =>
    simp only [applyTargets, reduceCtorEq, false_and, false_or, Option.some.injEq]
    cases hp : (parseTargets E ts : Res ε _) with
    | ok ps =>
      have hps := (parseTargets_ok E ts ps).1 hp
      simp only [Res.ok_bind]
      constructor
      · intro h
        split at h
        · simp at h
        · next hc =>
          simp at hc h
          exact ⟨ts, ps, rfl, hps, hc, h.symm⟩
      · rintro ⟨ts', ps', rfl, h1, h2, rfl⟩
        rw [hps] at h1
        have : ps = ps' := (List.map_inj_right (fun _ _ h => by simpa using h)).1 h1
        subst this
        simp [h2, SettingsBuilder.targets]
    | err e =>
      simp only [Res.err_bind, reduceCtorEq, false_iff]
      rintro ⟨ts', ps', rfl, h1, _⟩
      simp [(parseTargets_ok (ε := ε) E ts ps').2 h1] at hp
    | panic =>
      simp only [Res.panic_bind, reduceCtorEq, false_iff]
      rintro ⟨ts', ps', rfl, h1, _⟩
      simp [(parseTargets_ok (ε := ε) E ts ps').2 h1] at hp

theorem siweInit_ok {E : Env} (st st' : State E) (i : SettingsInput)
    (h0 : st.settings = ⟨false, false⟩) :
    siweInit st i = .ok st' ↔ ∃ s p, Configures E i s p ∧ ValidSettings E s ∧
      st' = { st with lib := { st.lib with settings := some s }, settings := p } := by
  have hf : ∀ b : Settings, b.runtimeFeatures = none →
      applyFeatureOption i.runtimeFeatures (b, st.settings) =
      ({ b with runtimeFeatures :=
          if .includeUriInSeed ∈ i.runtimeFeatures.getD [] then some [.includeUriInSeed] else none },
        ⟨decide (.disableEthToPrincipalMapping ∈ i.runtimeFeatures.getD []),
         decide (.disablePrincipalToEthMapping ∈ i.runtimeFeatures.getD [])⟩) := by
    intro b hb
    cases i.runtimeFeatures with
    | none => simp [applyFeatureOption, h0, ← hb]
    | some fs => simp [applyFeatureOption, applyFeatures_eq, h0, hb]
  unfold siweInit
  constructor
  · intro h
    cases ht : (applyTargets E i.targets (applyScalars i) : Res Empty _) with
    | err e => exact nomatch e
    | panic => simp [ht] at h
    | ok b =>
      rw [ht, Res.ok_bind] at h
      have hb : b.runtimeFeatures = none := by
        rcases (applyTargets_ok E _ _ _).1 ht with ⟨_, rfl⟩ | ⟨_, _, _, _, _, rfl⟩ <;> simp [applyScalars_eq]
      simp only [hf b hb] at h
      generalize hs : ({ b with runtimeFeatures := if ProviderFeature.includeUriInSeed ∈ i.runtimeFeatures.getD [] then some [RuntimeFeature.includeUriInSeed] else none } : Settings) = s at h
      cases hbuild : SettingsBuilder.build E s with
      | err e => simp [hbuild] at h
      | panic => simp [hbuild] at h
      | ok s' =>
        rw [hbuild] at h
        obtain ⟨hv, rfl⟩ := (C40_accepts E s s').1 hbuild
        simp only [Res.unwrap_ok, Res.ok_bind, Res.ok.injEq, libInit] at h
        refine ⟨s', _, ?_, hv, h.symm⟩
        subst hs
        rcases (applyTargets_ok E _ _ _).1 ht with ⟨h1, rfl⟩ | ⟨ts, ps, h1, h2, h3, rfl⟩
        · constructor <;> simp [applyScalars_eq, h1]
        · constructor <;> simp [applyScalars_eq, h1]
          exact ⟨h2, h3⟩
  · rintro ⟨s, p, hc, hv, rfl⟩
    obtain ⟨b, hb, hbs⟩ : ∃ b, (applyTargets E i.targets (applyScalars i) : Res Empty _) = .ok b ∧
        s = { b with runtimeFeatures :=
          if .includeUriInSeed ∈ i.runtimeFeatures.getD [] then some [.includeUriInSeed] else none } ∧
        b.runtimeFeatures = none := by
      cases ht : i.targets with
      | none =>
        refine ⟨applyScalars i, by simp [applyTargets], ?_, by simp [applyScalars_eq]⟩
        obtain ⟨h1, h2, h3, h4, h5, h6, h7, h8, h9, h10, h11, h12, h13⟩ := hc
        cases s
        simp_all [applyScalars_eq]
      | some ts =>
        obtain ⟨ps, h1, h2, h3⟩ := hc.targets ts ht
        refine ⟨{ applyScalars i with targets := some ps }, ?_, ?_, by simp [applyScalars_eq]⟩
        · exact (applyTargets_ok E _ _ _).2 (.inr ⟨ts, ps, rfl, h2, h3, rfl⟩)
        · obtain ⟨h1, h2, h3, h4, h5, h6, h7, h8, h9, h10, h11, h12, h13⟩ := hc
          cases s
          simp_all [applyScalars_eq]
    rw [hb, Res.ok_bind]
    simp only [hf b hbs.2, ← hbs.1]
    rw [(C40_accepts E s s).2 ⟨hv, rfl⟩]
    have hp : p = ⟨decide (.disableEthToPrincipalMapping ∈ i.runtimeFeatures.getD []),
         decide (.disablePrincipalToEthMapping ∈ i.runtimeFeatures.getD [])⟩ := by
      obtain ⟨x, y⟩ := p
      have h1 := hc.ethToPrincipal
      have h2 := hc.principalToEth
      simp only at h1 h2
      congr
      · simp only [← h1]; simp
      · simp only [← h2]; simp
    rw [hp]
    simp [libInit]

/-- C42: installation succeeds exactly for an argument that asks for valid settings; the canister then has
exactly these settings and is otherwise empty. -/
theorem C42_install {E : Env} (st st' : State E) (now : UInt64) (i : SettingsInput) :
    step st now (.install i) = (st', .done) ↔
      ∃ s p, Configures E i s p ∧ ValidSettings E s ∧
        st' = ⟨⟨none, some s, []⟩, .empty, p, [], [], []⟩ := by
  have key := siweInit_ok (State.fresh E) st' i rfl
  simp only [step]
  cases h : siweInit (State.fresh E) i with
  | ok x =>
    rw [h] at key
    simp only [commitInit, Prod.mk.injEq, and_true]
    exact ⟨fun e => key.1 (by rw [e]), fun e => by have := key.2 e; simpa using this⟩
  | err e => exact nomatch e
  | panic =>
    rw [h] at key
    simp only [commitInit, Prod.mk.injEq, reduceCtorEq, and_false, false_iff]
    exact fun e => nomatch key.2 e

/-- C42: an upgrade succeeds exactly for an argument that asks for valid settings; the canister then has exactly
these settings, keeps both mappings and its certified data, and is otherwise empty. -/
theorem C42_upgrade {E : Env} (st st' : State E) (now : UInt64) (i : SettingsInput) :
    step st now (.upgrade i) = (st', .done) ↔
      ∃ s p, Configures E i s p ∧ ValidSettings E s ∧
        st' = ⟨⟨none, some s, []⟩, .empty, p, st.principalAddress, st.addressPrincipal, st.certifiedData⟩ := by
  have key := siweInit_ok st.afterUpgrade st' i rfl
  simp only [step]
  cases h : siweInit st.afterUpgrade i with
  | ok x =>
    rw [h] at key
    simp only [commitInit, Prod.mk.injEq, and_true]
    exact ⟨fun e => key.1 (by rw [e]), fun e => by have := key.2 e; simpa using this⟩
  | err e => exact nomatch e
  | panic =>
    rw [h] at key
    simp only [commitInit, Prod.mk.injEq, reduceCtorEq, and_false, false_iff]
    exact fun e => nomatch key.2 e

/-- C42: an installation or upgrade that does not succeed traps and changes nothing. -/
theorem C42_otherwise_trap {E : Env} (st : State E) (now : UInt64) (i : SettingsInput) (op : Op)
    (hop : op = .install i ∨ op = .upgrade i) (h : (step st now op).2 ≠ .done) :
    step st now op = (st, .trap) := by
  rcases hop with rfl | rfl <;> simp only [step, commitInit] at h ⊢ <;> split <;> simp_all
  all_goals next e _ => exact nomatch e

/-- C42: an initialisation argument determines the settings it asks for. -/
theorem C42_determined {E : Env} (i : SettingsInput) (s s' : Settings) (p p' : ProviderSettings)
    (h : Configures E i s p) (h' : Configures E i s' p') : s = s' ∧ p = p' := by
  have ht : s.targets = s'.targets := by
    cases hi : i.targets with
    | none => rw [h.noTargets hi, h'.noTargets hi]
    | some ts =>
      obtain ⟨ps, e1, e2, _⟩ := h.targets ts hi
      obtain ⟨ps', e1', e2', _⟩ := h'.targets ts hi
      rw [e2] at e2'
      rw [e1, e1', (List.map_inj_right (fun _ _ h => by simpa using h)).1 e2']
  obtain ⟨h1, h2, h3, h4, h5, h6, h7, h8, h9, h10, h11, h12, h13⟩ := h
  obtain ⟨g1, g2, g3, g4, g5, g6, g7, g8, g9, g10, g11, g12, g13⟩ := h'
  constructor
  · cases s; cases s'; simp_all
  · cases p; cases p'
    simp only [← g12, ← g13] at h12 h13
    simp only [Bool.coe_iff_coe] at h12 h13
    simp_all

/-- An initialisation argument with targets and two features. -/
def exampleInput : SettingsInput where
  domain := ascii "a.com"
  uri := ascii "http://a.com"
  salt := ascii "s"
  chainId := some 10
  scheme := none
  statement := none
  signInExpiresIn := none
  sessionExpiresIn := some 7
  targets := some [[9], Toy.env.canisterId]
  runtimeFeatures := some [.includeUriInSeed, .disablePrincipalToEthMapping]

/-- Non-vacuity of C42: this installation succeeds; without the own canister id among the targets it traps. -/
example : (step (State.fresh Toy.env) 5 (.install exampleInput)).2 = .done ∧
    (step (State.fresh Toy.env) 5 (.install { exampleInput with targets := some [[9]] })).2 = .trap := by
  decide +kernel

end Siwe
