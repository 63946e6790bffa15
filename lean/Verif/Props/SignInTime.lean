import Verif.Spec.SignInTime
import Verif.Props.Wording
/-
C145: a longer sign-in time gives users more time and changes nothing else.
-/
namespace Siwe
open Spec

/-- The same message with a later expiration time. -/
def LongerMessage (m m' : SiweMessage) : Prop :=
  ∃ t, m' = { m with expirationTime := t } ∧ m.expirationTime.toNat ≤ t.toNat

/-- Every pending message is pending there too, with a later expiration time. -/
def LongerMessages (l l' : SiweMessageMap) : Prop :=
  ∀ k m, l.lookup k = some m → ∃ m', l'.lookup k = some m' ∧ LongerMessage m m'

/-- The same settings with a longer sign-in time. -/
def LongerSettings (x x' : Settings) : Prop :=
  ∃ t, x' = { x with signInExpiresIn := t } ∧ x.signInExpiresIn.toNat ≤ t.toNat

theorem LongerMessages.pruned {l l' : SiweMessageMap} (h : LongerMessages l l') (hu : UniqueKeys l) (hu' : UniqueKeys l') (now : UInt64) :
    LongerMessages (l.pruneExpired now) (l'.pruneExpired now) := by
  intro k m hk
  obtain ⟨h1, h2⟩ := (lookup_prune hu now k m).mp hk
  obtain ⟨m', h3, t, rfl, h4⟩ := h k m h1
  exact ⟨_, (lookup_prune hu' now k _).mpr ⟨h3, Nat.lt_of_lt_of_le h2 h4⟩, t, rfl, h4⟩

theorem LongerMessages.erased {l l' : SiweMessageMap} (h : LongerMessages l l') (hu : UniqueKeys l) (hu' : UniqueKeys l') (k : Hash) :
    LongerMessages (SiweMessageMap.erase l k) (SiweMessageMap.erase l' k) := by
  intro j m hj
  unfold SiweMessageMap.erase at hj ⊢
  obtain ⟨h1, h2⟩ := (lookup_filter hu _ _ _).mp hj
  obtain ⟨m', h3, h4⟩ := h j m h1
  exact ⟨m', (lookup_filter hu' _ _ _).mpr ⟨h3, h2⟩, h4⟩

/-- Erasing more in the first. -/
theorem LongerMessages.late {l l' : SiweMessageMap} (h : LongerMessages l l') (hu' : UniqueKeys l') (k : Hash) (hk : l.lookup k = none) :
    LongerMessages l (SiweMessageMap.erase l' k) := by
  intro j m hj
  obtain ⟨m', h3, h4⟩ := h j m hj
  refine ⟨m', ?_, h4⟩
  unfold SiweMessageMap.erase
  refine (lookup_filter hu' _ _ _).mpr ⟨h3, ?_⟩
  have : j ≠ k := fun g => by rw [g, hk] at hj; cases hj
  simpa using this

theorem LongerMessages.added {l l' : SiweMessageMap} (h : LongerMessages l l') (k : Hash) {m m' : SiweMessage} (hm : LongerMessage m m') :
    LongerMessages ((k, m) :: l) ((k, m') :: l') := by
  intro j x hj
  rw [List.lookup_cons] at hj ⊢
  cases hjk : j == k with
  | true =>
    rw [hjk] at hj
    cases Option.some.inj hj
    exact ⟨m', rfl, hm⟩
  | false =>
    rw [hjk] at hj
    exact h j x hj

theorem LongerSettings.message {x x' : Settings} (h : LongerSettings x x') (now : UInt64) (a : EthAddress) (n : Bytes) :
    LongerMessage (SiweMessage.new x now a n) (SiweMessage.new x' now a n) := by
  obtain ⟨t, rfl, ht⟩ := h
  refine ⟨_, rfl, ?_⟩
  simp only [SiweMessage.new, satAdd_toNat]
  omega

theorem LongerSettings.seed {x x' : Settings} (h : LongerSettings x x') (E : Env) (a : EthAddress) :
    generateSeed E x' a = generateSeed E x a := by
  obtain ⟨t, rfl, _⟩ := h
  rfl

theorem LongerSettings.delegation {x x' : Settings} (h : LongerSettings x x') (E : Env) (k : Bytes) (e : UInt64) :
    createDelegation E x' k e = createDelegation E x k e := by
  obtain ⟨t, rfl, _⟩ := h
  rfl

/-- Two states that agree on everything but the sign-in time and the messages it keeps. -/
structure LongerTwin {E : Env} (s s' : State E) : Prop where
  rng : s.lib.rng = s'.lib.rng
  messages : LongerMessages s.lib.messages s'.lib.messages
  provider : s.settings = s'.settings
  addresses : s.principalAddress = s'.principalAddress
  principals : s.addressPrincipal = s'.addressPrincipal
  sigs : s.sigMap = s'.sigMap
  settings : (s.lib.settings = none ∧ s'.lib.settings = none) ∨
    ∃ x x', s.lib.settings = some x ∧ s'.lib.settings = some x' ∧ LongerSettings x x'

theorem longer_nil : LongerMessages [] [] := fun _ _ h => nomatch h

theorem longerTwin_fresh (E : Env) : LongerTwin (State.fresh E) (State.fresh E) :=
  ⟨rfl, longer_nil, rfl, rfl, rfl, rfl, .inl ⟨rfl, rfl⟩⟩

theorem configures_longer {E : Env} {i i' : SettingsInput} {x x' : Settings} {p p' : ProviderSettings} (h : Configures E i x p)
    (h' : Configures E i' x' p') {t : Option UInt64} (hi : i' = { i with signInExpiresIn := t }) (ht : signInTime i ≤ signInTime i') :
    LongerSettings x x' ∧ p = p' := by
  subst hi
  have htg : x'.targets = x.targets := by
    cases hts : i.targets with
    | none => rw [h.noTargets hts, h'.noTargets hts]
    | some ts =>
      obtain ⟨q, h1, h2, _⟩ := h.targets ts hts
      obtain ⟨q', h1', h2', _⟩ := h'.targets ts hts
      rw [h1, h1', map_some_injective (h2.symm.trans h2')]
  have time : ∀ {j : SettingsInput} {y : Settings} {q : ProviderSettings}, Configures E j y q → y.signInExpiresIn.toNat = signInTime j := by
    intro j y q hj
    rw [hj.signIn]
    unfold signInTime
    cases j.signInExpiresIn <;> rfl
  refine ⟨⟨x'.signInExpiresIn, ?_, by rw [time h, time h']; exact ht⟩, ?_⟩
  · have h1 := h.uri.trans h'.uri.symm
    have h2 := h.salt.trans h'.salt.symm
    have h3 := h.domain.trans h'.domain.symm
    have h4 := h.session.trans h'.session.symm
    have h5 := h.uriFeature.trans h'.uriFeature.symm
    have h6 := h.scheme.trans h'.scheme.symm
    have h7 := h.chainId.trans h'.chainId.symm
    have h8 := h.statement.trans h'.statement.symm
    cases x; cases x'
    simp only at h1 h2 h3 h4 h5 h6 h7 h8 htg
    subst h1 h2 h3 h4 h5 h6 h7 h8 htg
    rfl
  · have h1 := h.ethToPrincipal.trans h'.ethToPrincipal.symm
    have h2 := h.principalToEth.trans h'.principalToEth.symm
    cases p; cases p'
    simp only at h1 h2
    rw [Bool.eq_iff_iff.mpr h1, Bool.eq_iff_iff.mpr h2]

theorem init_longer {E : Env} {a a' s s' : State E} {i i' : SettingsInput} (hs : LongerSignIn E i i')
    (h1 : a.settings = ⟨false, false⟩) (h2 : a'.settings = ⟨false, false⟩) (ht : LongerTwin a a') :
    LongerTwin (commitInit s (siweInit a i)).1 (commitInit s' (siweInit a' i')).1 ∧
      (commitInit s (siweInit a i)).2 = (commitInit s' (siweInit a' i')).2 := by
  obtain ⟨g, g', ⟨t, hi⟩, hle⟩ := hs
  obtain ⟨x, p, hc, hv⟩ := installs_settings g
  obtain ⟨x', p', hc', hv'⟩ := installs_settings g'
  obtain ⟨hx, hp⟩ := configures_longer hc hc' hi hle
  rw [(siweInit_ok a _ i h1).mpr ⟨x, p, hc, hv, rfl⟩, (siweInit_ok a' _ i' h2).mpr ⟨x', p', hc', hv', rfl⟩]
  exact ⟨⟨ht.rng, ht.messages, hp, ht.addresses, ht.principals, ht.sigs, .inr ⟨x, x', rfl, rfl, hx⟩⟩, rfl⟩

/-- The same configuration for both. -/
theorem init_longer_same {E : Env} {a a' s s' : State E} (i : SettingsInput) (h1 : a.settings = ⟨false, false⟩)
    (h2 : a'.settings = ⟨false, false⟩) (ht : LongerTwin a a') (hss : LongerTwin s s') :
    LongerTwin (commitInit s (siweInit a i)).1 (commitInit s' (siweInit a' i)).1 ∧
      (commitInit s (siweInit a i)).2 = (commitInit s' (siweInit a' i)).2 := by
  cases h : siweInit a i with
  | err e => exact nomatch e
  | ok t =>
    obtain ⟨x, p, hc, hv, rfl⟩ := (siweInit_ok a t i h1).mp h
    rw [(siweInit_ok a' _ i h2).mpr ⟨x, p, hc, hv, rfl⟩]
    exact ⟨⟨ht.rng, ht.messages, rfl, ht.addresses, ht.principals, ht.sigs, .inr ⟨x, x, rfl, rfl, _, rfl, Nat.le_refl _⟩⟩, rfl⟩
  | panic =>
    cases h' : siweInit a' i with
    | err e => exact nomatch e
    | panic => exact ⟨hss, rfl⟩
    | ok t' =>
      obtain ⟨x, p, hc, hv, rfl⟩ := (siweInit_ok a' t' i h2).mp h'
      rw [(siweInit_ok a _ i h1).mpr ⟨x, p, hc, hv, rfl⟩] at h
      cases h

theorem prepare_longer {E : Env} {s s' : State E} (ht : LongerTwin s s') (hi : Inv s) (hi' : Inv s') (now : UInt64) (a : Bytes) :
    LongerTwin (step s now (.prepareLogin a)).1 (step s' now (.prepareLogin a)).1 ∧
      SameButExpiry (.prepareLogin a) (step s now (.prepareLogin a)).2 (step s' now (.prepareLogin a)).2 := by
  simp only [step]
  by_cases hA : IsAddress E.keccak a
  · rcases siwePrepareLogin_cases s now a with ⟨_, h, _⟩ | ⟨_, hn, hc⟩ | ⟨bs, r, x, txt, _, hb, hl, hr, hx, htx, _, hc⟩
    · exact absurd hA h
    · have hn' : s'.lib.rng = none ∨ s'.lib.settings = none := by
        rcases hn with hn | hn
        · exact .inl (ht.rng ▸ hn)
        · rcases ht.settings with ⟨_, h⟩ | ⟨x, x', h, _⟩
          · exact .inr h
          · rw [hn] at h; cases h
      rcases siwePrepareLogin_cases s' now a with ⟨_, h, _⟩ | ⟨_, _, hc'⟩ | ⟨bs, r, x, txt, _, hb, hl, hr, hx, htx, _, hc'⟩
      · exact absurd hA h
      · rw [hc, hc']; exact ⟨ht, .equal _ _⟩
      · rcases hn' with h | h
        · rw [h] at hr; cases hr
        · rw [h] at hx; cases hx
    · rcases siwePrepareLogin_cases s' now a with ⟨_, h, _⟩ | ⟨_, hn', hc'⟩ | ⟨bs', r', x', txt', _, hb', hl', hr', hx', htx', _, hc'⟩
      · exact absurd hA h
      · exfalso
        rcases hn' with h | h
        · rw [ht.rng, h] at hr; cases hr
        · rcases ht.settings with ⟨h', _⟩ | ⟨y, y', _, h', _⟩
          · rw [h'] at hx; cases hx
          · rw [h] at h'; cases h'
      · have e1 : bs = bs' := by rw [hb] at hb'; cases hb'; rfl
        have e2 : r = r' := by rw [ht.rng, hr'] at hr; cases hr; rfl
        subst e1 e2
        rcases ht.settings with ⟨h', _⟩ | ⟨y, y', h1, h2, h3⟩
        · rw [h'] at hx; cases hx
        · rw [hx] at h1; cases h1
          rw [hx'] at h2; cases h2
          rw [hc, hc']
          refine ⟨⟨rfl, ?_, ht.provider, ht.addresses, ht.principals, ht.sigs, .inr ⟨x, x', hx, hx', h3⟩⟩, .prepared _ _ _ _⟩
          exact (ht.messages.erased hi.keys hi'.keys _).added _ (h3.message _ _ _)
  · have key : ∀ t : State E, ∃ e, EthAddress.new E a = .err e ∧ siwePrepareLogin t now a = (t, .err (.eth e)) := by
      intro t
      cases hn : EthAddress.new E a with
      | panic => exact absurd hn (ethAddress_new_no_panic E a)
      | ok y => exact absurd ((ethAddress_new_ok_iff E a y).mp hn).1 hA
      | err e => exact ⟨e, rfl, by simp only [siwePrepareLogin, hn]⟩
    obtain ⟨e, h1, hc⟩ := key s
    obtain ⟨e', h2, hc'⟩ := key s'
    rw [h1] at h2; cases h2
    rw [hc, hc']
    exact ⟨ht, .equal _ _⟩

/-- Two logins for which the message is found. -/
theorem found_longer {E : Env} {s s' t t' : State E} (ht : LongerTwin s s') (hi : Inv s) (hi' : Inv s') {now : UInt64}
    {a k bs n sig : Bytes} {m m' : SiweMessage} {c c' : Res LoginError Unit} (hm : LongerMessage m m') (hcc : c = .ok () ↔ c' = .ok ())
    (he : ∀ e, c = .err e → OfSignature e) (he' : ∀ e, c' = .err e → OfSignature e) {r r' : Res ProviderError LoginDetails}
    (h : LoginFound s now a k bs n m c t r) (h' : LoginFound s' now a k bs n m' c' t' r') :
    LongerTwin t t' ∧ SameButExpiry (.login sig a k n) (reply .loggedIn r) (reply .loggedIn r') := by
  have hiss : m'.issuedAt = m.issuedAt := by obtain ⟨t, rfl, _⟩ := hm; rfl
  have signing : ∀ {e}, OfSignature e → OfSigning e := fun {e} h => by cases e <;> trivial
  have used : ∀ {u u' : State E}, u.lib = usedLib s.lib now (storeKey E bs n) → u'.lib = usedLib s'.lib now (storeKey E bs n) →
      u.settings = u'.settings → u.principalAddress = u'.principalAddress → u.addressPrincipal = u'.addressPrincipal →
      u.sigMap = u'.sigMap → LongerTwin u u' := by
    intro u u' h1 h2 h3 h4 h5 h6
    refine ⟨by rw [h1, h2]; exact ht.rng, ?_, h3, h4, h5, h6, by rw [h1, h2]; exact ht.settings⟩
    rw [h1, h2]
    exact (ht.messages.pruned hi.keys hi'.keys now).erased (uniqueKeys_filter hi.keys _) (uniqueKeys_filter hi'.keys _) _
  have twin : ∀ {x x'}, s.lib.settings = some x → s'.lib.settings = some x' → LongerSettings x x' := by
    intro x x' hx hx'
    rcases ht.settings with ⟨g, _⟩ | ⟨y, y', g1, g2, g3⟩
    · rw [hx] at g; cases g
    · rw [hx] at g1; cases g1
      rw [hx'] at g2; cases g2
      exact g3
  have session : ∀ {x x'}, s.lib.settings = some x → s'.lib.settings = some x' → x'.sessionExpiresIn = x.sessionExpiresIn := by
    intro x x' hx hx'
    obtain ⟨t, rfl, _⟩ := twin hx hx'
    rfl
  cases h with
  | badSignature e hc =>
    cases h' with
    | badSignature e' hc' =>
      exact ⟨used rfl rfl ht.provider ht.addresses ht.principals ht.sigs,
        .refused _ _ _ _ _ _ (signing (he e hc)) (signing (he' e' hc'))⟩
    | badKey x q sm e' hc' => rw [hcc.mpr hc'] at hc; cases hc
    | success x q sm sm' d dh hc' => rw [hcc.mpr hc'] at hc; cases hc
  | badKey x q sm e hc hx hpr hd =>
    cases h' with
    | badSignature e' hc' => rw [hcc.mp hc] at hc'; cases hc'
    | badKey x' q' sm' e' hc' hx' hpr' hd' =>
      rw [hiss, (twin hx hx').delegation, session hx hx'] at hd'
      have h1 : e = e' := Res.err.inj (hd.symm.trans hd')
      rw [ht.sigs] at hpr
      have h2 := Prod.mk.inj (Res.ok.inj (hpr.symm.trans hpr'))
      rw [h1]
      exact ⟨used rfl rfl ht.provider ht.addresses ht.principals h2.2, .equal _ _⟩
    | success x' q' sm' sm'' d dh hc' hx' hpr' hd' =>
      rw [hiss, (twin hx hx').delegation, session hx hx'] at hd'
      have := hd.symm.trans hd'
      cases this
  | success x q sm sm1 d dh hc hx hpr hd hdh hput =>
    cases h' with
    | badSignature e' hc' => rw [hcc.mp hc] at hc'; cases hc'
    | badKey x' q' sm' e' hc' hx' hpr' hd' =>
      rw [hiss, (twin hx hx').delegation, session hx hx'] at hd'
      have := hd.symm.trans hd'
      cases this
    | success x' q' sm' sm1' d' dh' hc' hx' hpr' hd' hdh' hput' =>
      have hseed := (twin hx hx').seed E ⟨a⟩
      have hk : seedKey E x' ⟨a⟩ = seedKey E x ⟨a⟩ := by unfold seedKey; rw [hseed]
      have hU : userKey E x' ⟨a⟩ = userKey E x ⟨a⟩ := by unfold userKey; rw [hseed]
      have hP : userPrincipal E x' ⟨a⟩ = userPrincipal E x ⟨a⟩ := by unfold userPrincipal; rw [hU]
      rw [hiss, (twin hx hx').delegation, session hx hx'] at hd'
      rw [hk] at hput'
      rw [hP, hU, hiss, session hx hx']
      have h1 : d = d' := Res.ok.inj (hd.symm.trans hd')
      subst h1
      have h2 : dh = dh' := delegationHash_unique hdh hdh'
      subst h2
      rw [ht.sigs] at hpr
      have h3 := (Prod.mk.inj (Res.ok.inj (hpr.symm.trans hpr'))).2
      subst h3
      have h4 : sm1 = sm1' := Res.ok.inj (hput.symm.trans hput')
      subst h4
      refine ⟨used rfl rfl ht.provider ?_ ?_ rfl, .equal _ _⟩
      · simp only [mappedState, ht.provider, ht.addresses]
      · simp only [mappedState, ht.provider, ht.principals]

theorem login_longer {E : Env} {s s' : State E} (ht : LongerTwin s s') (hi : Inv s) (hi' : Inv s') (now : UInt64)
    (sig sig' a k n : Bytes) (hs : HexString 130 sig) (hs' : HexString 130 sig')
    (hw : SignsWaiting s now sig a n ↔ SignsWaiting s' now sig' a n) :
    LongerTwin (step s now (.login sig a k n)).1 (step s' now (.login sig' a k n)).1 ∧
      SameButExpiry (.login sig a k n) (step s now (.login sig a k n)).2 (step s' now (.login sig' a k n)).2 := by
  simp only [step]
  rcases siweLogin_cases s hi.sigs hi.configured now sig a k n with ⟨e, h1, he, hc⟩ | ⟨e, h1, h2, he, hc⟩ |
    ⟨h1, h2, bs, hb, hsp, hc⟩ <;>
  rcases siweLogin_cases s' hi'.sigs hi'.configured now sig' a k n with ⟨e', h1', he', hc'⟩ | ⟨e', h1', h2', he', hc'⟩ |
    ⟨h1', h2', bs', hb', hsp', hc'⟩
  · rw [he] at he'; cases he'
    rw [hc, hc']; exact ⟨ht, .equal _ _⟩
  · exact absurd h1' h1
  · exact absurd h1' h1
  · exact absurd h1 h1'
  · exact absurd hs h2
  · exact absurd hs h2
  · exact absurd h1 h1'
  · exact absurd hs' h2'
  · have : bs = bs' := spells_unique hsp hsp'
    subst this
    have hpruned := ht.messages.pruned hi.keys hi'.keys now
    have waiting : ∀ {u : State E} {v txt : Bytes} {m : SiweMessage}, Inv u →
        (u.lib.messages.pruneExpired now).lookup (storeKey E bs n) = some m → (∀ ε, m.text (ε := ε) = .ok txt) →
        (SignsWaiting u now v a n ↔ Signs E v txt a) := by
      intro u v txt m hu hlk htx
      obtain ⟨g1, g2⟩ := (lookup_prune hu.keys now _ m).mp hlk
      have hU : Usable u now a n m txt := ⟨(pending_iff hb hsp).mpr g1, g2, htx Empty⟩
      exact ⟨fun ⟨_, _, hu', hs⟩ => (usable_unique hU hu').2 ▸ hs, fun h => ⟨m, txt, hU, h⟩⟩
    rcases hc with ⟨hl, hc⟩ | ⟨m, txt, t, r, hl, htx, _, hf, hc⟩ <;>
    rcases hc' with ⟨hl', hc'⟩ | ⟨m', txt', t', r', hl', htx', _, hf', hc'⟩
    · rw [hc, hc']
      exact ⟨⟨ht.rng, hpruned, ht.provider, ht.addresses, ht.principals, ht.sigs, ht.settings⟩, .equal _ _⟩
    · -- the message is gone in the first only
      have hno : ¬SignsWaiting s now sig a n := by
        rintro ⟨m, txt, ⟨hp, hlt, _⟩, _⟩
        rw [(lookup_prune hi.keys now _ m).mpr ⟨(pending_iff hb hsp).mp hp, hlt⟩] at hl
        cases hl
      have hnc : checkSignature E txt' ⟨sig'⟩ ⟨a⟩ ≠ .ok () := fun g =>
        hno (hw.mpr ((waiting hi' hl' htx').mpr ((check_ok hs' h1').mp g)))
      rw [hc, hc']
      cases hf' with
      | badSignature e' he' =>
        refine ⟨⟨ht.rng, ?_, ht.provider, ht.addresses, ht.principals, ht.sigs, ht.settings⟩, .refused _ _ _ _ _ _ trivial ?_⟩
        · exact hpruned.late (uniqueKeys_filter hi'.keys _) _ hl
        · have := check_error he'
          cases e' <;> trivial
      | badKey x q sm e hc => exact absurd hc hnc
      | success x q sm sm1 d dh hc => exact absurd hc hnc
    · obtain ⟨m', g, _⟩ := hpruned _ _ hl
      rw [hl'] at g; cases g
    · have hm : LongerMessage m m' := by
        obtain ⟨m'', g, h⟩ := hpruned _ _ hl
        rw [hl'] at g; cases g
        exact h
      have hcc := ((check_ok (text := txt) hs h1).trans (waiting hi hl htx).symm).trans
        (hw.trans ((waiting hi' hl' htx').trans (check_ok (text := txt') hs' h1').symm))
      have k1 := found_longer (sig := sig) ht hi hi' hm hcc (fun _ => check_error) (fun _ => check_error) hf hf'
      have hp := hf.no_panic
      have hp' := hf'.no_panic
      rw [hc, hc']
      cases r with
      | panic => exact absurd rfl hp
      | ok d => cases r' with
        | panic => exact absurd rfl hp'
        | ok d' => exact k1
        | err e' => exact k1
      | err e => cases r' with
        | panic => exact absurd rfl hp'
        | ok d' => exact k1
        | err e' => exact k1

/-- One call. -/
theorem step_longer {E : Env} {s s' : State E} (ht : LongerTwin s s') (hi : Inv s) (hi' : Inv s') (now : UInt64) {op op' : Op}
    (ho : LongerCalls s s' now op op') :
    LongerTwin (step s now op).1 (step s' now op').1 ∧ SameButExpiry op (step s now op).2 (step s' now op').2 := by
  have hup : LongerTwin s.afterUpgrade s'.afterUpgrade := ⟨rfl, longer_nil, rfl, ht.addresses, ht.principals, rfl, .inl ⟨rfl, rfl⟩⟩
  have eq : ∀ {r r' : Reply}, r = r' → SameButExpiry op r r' := fun h => h ▸ .equal _ _
  cases ho with
  | install i i' h =>
    have := init_longer (s := s) (s' := s') h rfl rfl (longerTwin_fresh E)
    exact ⟨this.1, eq this.2⟩
  | upgrade i i' h =>
    have := init_longer (s := s) (s' := s') h rfl rfl hup
    exact ⟨this.1, eq this.2⟩
  | login sig sig' a k n h1 h2 h3 => exact login_longer ht hi hi' now sig sig' a k n h1 h2 h3
  | same op hop =>
    cases op with
    | install i => exact ⟨(init_longer_same i rfl rfl (longerTwin_fresh E) ht).1, eq (init_longer_same i rfl rfl (longerTwin_fresh E) ht).2⟩
    | upgrade i => exact ⟨(init_longer_same i rfl rfl hup ht).1, eq (init_longer_same i rfl rfl hup ht).2⟩
    | rngSeeded seed => exact ⟨⟨rfl, ht.messages, ht.provider, ht.addresses, ht.principals, ht.sigs, ht.settings⟩, eq rfl⟩
    | prepareLogin a => exact prepare_longer ht hi hi' now a
    | login sig a k n =>
      have hs := hop _ _ _ _ rfl
      simp only [step]
      rcases siweLogin_cases s hi.sigs hi.configured now sig a k n with ⟨e, h1, he, hc⟩ | ⟨e, h1, h2, he, hc⟩ |
        ⟨_, h2, _⟩ <;>
      rcases siweLogin_cases s' hi'.sigs hi'.configured now sig a k n with ⟨e', h1', he', hc'⟩ | ⟨e', h1', h2', he', hc'⟩ |
        ⟨_, h2', _⟩
      · rw [he] at he'; cases he'
        rw [hc, hc']; exact ⟨ht, .equal _ _⟩
      · exact absurd h1' h1
      · exact absurd h2' hs
      · exact absurd h1 h1'
      · rw [he] at he'; cases he'
        rw [hc, hc']; exact ⟨ht, .equal _ _⟩
      · exact absurd h2' hs
      · exact absurd h2 hs
      · exact absurd h2 hs
      · exact absurd h2 hs
    | getDelegation c a k e =>
      refine ⟨ht, eq ?_⟩
      rcases ht.settings with ⟨g, g'⟩ | ⟨x, x', g, g', hx⟩
      · simp only [step, siweGetDelegation, g, g']
      · simp only [step, siweGetDelegation, g, g', ht.sigs, hx.seed, hx.delegation]
    | getAddress p => exact ⟨ht, eq (by simp only [step, getAddress, ht.provider, ht.addresses])⟩
    | getCallerAddress p => exact ⟨ht, eq (by simp only [step, getCallerAddress, getAddress, ht.provider, ht.addresses])⟩
    | getPrincipal a => exact ⟨ht, eq (by simp only [step, getPrincipal, ht.provider, ht.principals])⟩

theorem histories_longer {E : Env} {h h' : History} (hh : LongerHistories E h h') : LongerTwin (stateAfter E h) (stateAfter E h') := by
  induction hh with
  | nil => exact longerTwin_fresh E
  | snoc now hh ho ih =>
    have := (step_longer ih (inv_stateAfter E _) (inv_stateAfter E _) now ho).1
    unfold stateAfter at this ⊢
    rw [run_snoc, run_snoc]
    exact this

/-- C145: two canisters of which the second is configured with a sign-in time at least as long, at the installation and at any upgrades, and
that otherwise receive corresponding calls, answer every call alike, except for the text of the messages they issue and the reason for which
they refuse a login. -/
theorem C145_sign_in_time (E : Env) (h h' : History) (hh : LongerHistories E h h') (now : UInt64) (op op' : Op)
    (ho : LongerCalls (stateAfter E h) (stateAfter E h') now op op') :
    SameButExpiry op (step (stateAfter E h) now op).2 (step (stateAfter E h') now op').2 :=
  (step_longer (histories_longer hh) (inv_stateAfter E h) (inv_stateAfter E h') now ho).2

/-- C145: whatever message may be used on the first may be used on the second, at least as long: the sign-in time takes nothing from users. -/
theorem C145_no_shorter (E : Env) (h h' : History) (hh : LongerHistories E h h') (now : UInt64) (addr nonce : Bytes) (m : SiweMessage)
    (txt : Bytes) (hu : Usable (stateAfter E h) now addr nonce m txt) :
    ∃ m' txt', Usable (stateAfter E h') now addr nonce m' txt' ∧ m'.issuedAt = m.issuedAt ∧
      m.expirationTime.toNat ≤ m'.expirationTime.toNat := by
  obtain ⟨⟨bs, h1, h2, h3⟩, h4, h5⟩ := hu
  obtain ⟨m', g1, t, rfl, g2⟩ := (histories_longer hh).messages _ _ h3
  obtain ⟨txt', htxt', _⟩ := message_text_ok Empty { m with expirationTime := t }
  exact ⟨_, txt', ⟨⟨bs, h1, h2, g1⟩, Nat.lt_of_lt_of_le h4 g2, htxt'⟩, rfl, g2⟩

/-- C145: in particular a user who signs each canister's own message in the first one's time becomes the same user on both, for the same time. -/
theorem C145_same_user (E : Env) (h h' : History) (hh : LongerHistories E h h') (now : UInt64) (sig sig' addr key nonce : Bytes)
    (h1 : HexString 130 sig) (h2 : HexString 130 sig') (h3 : SignsWaiting (stateAfter E h) now sig addr nonce)
    (h4 : SignsWaiting (stateAfter E h') now sig' addr nonce) (d : LoginDetails) :
    (step (stateAfter E h) now (.login sig addr key nonce)).2 = .loggedIn d ↔
      (step (stateAfter E h') now (.login sig' addr key nonce)).2 = .loggedIn d := by
  have := C145_sign_in_time E h h' hh now _ _ (.login sig sig' addr key nonce h1 h2 ⟨fun _ => h4, fun _ => h3⟩)
  generalize (step (stateAfter E h) now (.login sig addr key nonce)).2 = r at this ⊢
  generalize (step (stateAfter E h') now (.login sig' addr key nonce)).2 = r' at this ⊢
  cases this with
  | equal => exact Iff.rfl
  | refused => constructor <;> intro h <;> cases h

/-- The example's configuration with a sign-in time of ten minutes. -/
def Ex.inputSlow : SettingsInput := { Ex.input with signInExpiresIn := some 600000000000 }

/-- Non-vacuity: the example's calls on two such canisters; after seven minutes the message may be used on the second only. -/
example :
    let h := [(1, .install Ex.input), (2, .rngSeeded [1, 2, 3]), (5, .prepareLogin Ex.alice)]
    let h' := [(1, .install Ex.inputSlow), (2, .rngSeeded [1, 2, 3]), (5, .prepareLogin Ex.alice)]
    LongerHistories Toy.env h h' ∧
    (match (step (stateAfter Toy.env h) 100 (.login Ex.aliceSig Ex.alice Ex.key (Ex.nonce 3))).2,
      (step (stateAfter Toy.env h') 100 (.login Ex.aliceSig Ex.alice Ex.key (Ex.nonce 3))).2 with
      | .loggedIn d, .loggedIn d' => decide (d = d') | _, _ => false) = true ∧
    (match (step (stateAfter Toy.env h) 420000000000 (.login Ex.aliceSig Ex.alice Ex.key (Ex.nonce 3))).2,
      (step (stateAfter Toy.env h') 420000000000 (.login Ex.aliceSig Ex.alice Ex.key (Ex.nonce 3))).2 with
      | .err (.login .messageNotFound), .loggedIn _ => true | _, _ => false) = true := by
  refine ⟨?_, by decide +kernel, by decide +kernel⟩
  refine .snoc 5 (h := [_, _]) (h' := [_, _]) (.snoc 2 (h := [_]) (h' := [_]) (.snoc 1 (h := []) (h' := []) .nil
    (.install _ _ ⟨?_, ?_, ⟨_, rfl⟩, ?_⟩)) (.same _ ?_)) (.same _ ?_)
  · unfold Installs; decide +kernel
  · unfold Installs; decide +kernel
  · decide
  · intro _ _ _ _ h; cases h
  · intro _ _ _ _ h; cases h

/-- Non-vacuity: on each of the two the signature is well formed, and is one of the waiting message. -/
example : ∀ i ∈ [Ex.input, Ex.inputSlow],
    let h : History := [(1, .install i), (2, .rngSeeded [1, 2, 3]), (5, .prepareLogin Ex.alice)]
    HexString 130 Ex.aliceSig ∧ SignsWaiting (stateAfter Toy.env h) 100 Ex.aliceSig Ex.alice (Ex.nonce 3) := by
  have ok : ∀ i ∈ [Ex.input, Ex.inputSlow],
      (match (step (stateAfter Toy.env [(1, .install i), (2, .rngSeeded [1, 2, 3]), (5, .prepareLogin Ex.alice)]) 100
        (.login Ex.aliceSig Ex.alice Ex.key (Ex.nonce 3))).2 with | .loggedIn _ => true | _ => false) = true := by decide +kernel
  intro i hi
  have g := ok i hi
  obtain ⟨_, h1, h2, _⟩ := (C14_success_iff Toy.env [(1, .install i), (2, .rngSeeded [1, 2, 3]), (5, .prepareLogin Ex.alice)] 100
    Ex.aliceSig Ex.alice Ex.key (Ex.nonce 3)).mp (by
      revert g
      generalize (step _ _ _).2 = r
      intro g
      cases r with
      | loggedIn d => exact ⟨d, rfl⟩
      | _ => cases g)
  exact ⟨h1, h2⟩

end Siwe
