import Verif.Spec.SessionSettings
import Verif.Props.Login
import Verif.Props.Settings
import Verif.Examples.Histories
/-
C140: the targets influence nothing but the delegations, and the session length nothing but when sessions end.
-/
namespace Siwe
open Spec

/-- Two states that agree on everything but the delegations. -/
structure SessionTwin {E : Env} (same : Prop) (s s' : State E) : Prop where
  rng : s.lib.rng = s'.lib.rng
  messages : s.lib.messages = s'.lib.messages
  provider : s.settings = s'.settings
  addresses : s.principalAddress = s'.principalAddress
  principals : s.addressPrincipal = s'.addressPrincipal
  settings : (s.lib.settings = none ∧ s'.lib.settings = none) ∨
    ∃ x len ts, s.lib.settings = some x ∧ s'.lib.settings = some { x with sessionExpiresIn := len, targets := ts } ∧
      (same → len = x.sessionExpiresIn)

theorem sessionTwin_fresh (E : Env) (same : Prop) : SessionTwin same (State.fresh E) (State.fresh E) :=
  ⟨rfl, rfl, rfl, rfl, rfl, .inl ⟨rfl, rfl⟩⟩

theorem valid_session {E : Env} {s : Settings} {len : UInt64} {ts : Option (List Bytes)} (h1 : len ≠ 0)
    (h2 : ∀ ps, ts = some ps → ps ≠ [] ∧ ps.length ≤ 1000 ∧ ps.Nodup) (h : ValidSettings E s) :
    ValidSettings E { s with sessionExpiresIn := len, targets := ts } := by
  unfold ValidSettings requirements at h ⊢
  simp only [List.forall_mem_cons] at h ⊢
  obtain ⟨a1, a2, a3, a4, a5, a6, a7, a8, _, _, _, _, a13⟩ := h
  exact ⟨a1, a2, a3, a4, a5, a6, a7, a8, h1, fun g => (h2 _ g).1 rfl, fun _ g => (h2 _ g).2.1, fun _ g => (h2 _ g).2.2, a13⟩

theorem init_ok_session {E : Env} {same : Prop} {a a' t : State E} {i i' : SettingsInput} (hs : i' = i ∨ SameButSession E same i i')
    (h1 : a.settings = ⟨false, false⟩) (h2 : a'.settings = ⟨false, false⟩) (hr : a.lib.rng = a'.lib.rng)
    (hm : a.lib.messages = a'.lib.messages) (ha : a.principalAddress = a'.principalAddress)
    (hp : a.addressPrincipal = a'.addressPrincipal) (h : siweInit a i = .ok t) :
    ∃ t', siweInit a' i' = .ok t' ∧ SessionTwin same t t' := by
  obtain ⟨s, p, hc, hv, rfl⟩ := (siweInit_ok a t i h1).mp h
  rcases hs with rfl | hs
  · exact ⟨_, (siweInit_ok a' _ _ h2).mpr ⟨s, p, hc, hv, rfl⟩, hr, hm, rfl, ha, hp, .inr ⟨s, _, _, rfl, rfl, fun _ => rfl⟩⟩
  · obtain ⟨⟨len, ts, rfl⟩, g1, g2, g3⟩ := hs
    have key : ∃ ps : Option (List Bytes), (ts = none → ps = none) ∧ (∀ l, ts = some l → ∃ q, ps = some q ∧
        l.map E.principalFromText = q.map some ∧ E.canisterId ∈ q) ∧
        ∀ q, ps = some q → q ≠ [] ∧ q.length ≤ 1000 ∧ q.Nodup := by
      cases ts with
      | none => exact ⟨none, fun _ => rfl, fun _ h => (nomatch h), fun _ h => (nomatch h)⟩
      | some l =>
        obtain ⟨q, q1, q2, q3, q4⟩ := g3.2 l rfl
        refine ⟨some q, fun h => (nomatch h), fun l' hl' => ?_, fun q' hq' => ?_⟩
        · cases hl'; exact ⟨q, rfl, q1, q2⟩
        · cases hq'; exact ⟨fun h0 => (by rw [h0] at q2; cases q2), q3, q4⟩
    obtain ⟨ps, k1, k2, k3⟩ := key
    refine ⟨_, (siweInit_ok a' _ _ h2).mpr ⟨{ s with sessionExpiresIn := len.getD 1800000000000, targets := ps }, p,
      ⟨hc.domain, hc.uri, hc.salt, hc.chainId, hc.scheme, hc.statement, hc.signIn, rfl, k1, k2, hc.uriFeature,
        hc.ethToPrincipal, hc.principalToEth⟩, valid_session ?_ k3 hv, rfl⟩, ?_⟩
    · cases len with
      | none => decide
      | some v => exact fun h0 => g2.2 (congrArg some h0)
    · refine ⟨hr, hm, rfl, ha, hp, .inr ⟨s, _, ps, rfl, rfl, fun hsame => ?_⟩⟩
      have := g1 hsame
      simp only at this
      rw [hc.session, this]

theorem init_session {E : Env} {same : Prop} {a a' s s' : State E} {i i' : SettingsInput} (hs : i' = i ∨ SameButSession E same i i')
    (h1 : a.settings = ⟨false, false⟩) (h2 : a'.settings = ⟨false, false⟩) (hr : a.lib.rng = a'.lib.rng)
    (hm : a.lib.messages = a'.lib.messages) (ha : a.principalAddress = a'.principalAddress)
    (hp : a.addressPrincipal = a'.addressPrincipal) (ht : SessionTwin same s s') :
    SessionTwin same (commitInit s (siweInit a i)).1 (commitInit s' (siweInit a' i')).1 ∧
      (commitInit s (siweInit a i)).2 = (commitInit s' (siweInit a' i')).2 := by
  cases h : siweInit a i with
  | err e => exact nomatch e
  | ok t =>
    obtain ⟨t', g, htt⟩ := init_ok_session hs h1 h2 hr hm ha hp h
    rw [g]
    exact ⟨htt, rfl⟩
  | panic =>
    cases h' : siweInit a' i' with
    | err e => exact nomatch e
    | panic => exact ⟨ht, rfl⟩
    | ok t' =>
      have hs' : i = i' ∨ SameButSession E same i' i := by
        rcases hs with hs | ⟨⟨len, ts, rfl⟩, g1, g2, g3⟩
        · exact .inl hs.symm
        · exact .inr ⟨⟨i.sessionExpiresIn, i.targets, rfl⟩, fun h => (g1 h).symm, g2.symm, g3.symm⟩
      obtain ⟨t, g, _⟩ := init_ok_session hs' h2 h1 hr.symm hm.symm ha.symm hp.symm h'
      rw [h] at g
      cases g

theorem prepare_session {E : Env} {same : Prop} {s s' : State E} (ht : SessionTwin same s s') (now : UInt64) (a : Bytes) :
    SessionTwin same (step s now (.prepareLogin a)).1 (step s' now (.prepareLogin a)).1 ∧
      (step s now (.prepareLogin a)).2 = (step s' now (.prepareLogin a)).2 := by
  simp only [step]
  by_cases hA : IsAddress E.keccak a
  · rcases siwePrepareLogin_cases s now a with ⟨_, h, _⟩ | ⟨_, hn, hc⟩ | ⟨bs, r, x, txt, _, hb, hl, hr, hx, htx, _, hc⟩
    · exact absurd hA h
    · have hn' : s'.lib.rng = none ∨ s'.lib.settings = none := by
        rcases hn with hn | hn
        · exact .inl (ht.rng ▸ hn)
        · rcases ht.settings with ⟨_, h⟩ | ⟨x, len, ts, h, _⟩
          · exact .inr h
          · rw [hn] at h; cases h
      rcases siwePrepareLogin_cases s' now a with ⟨_, h, _⟩ | ⟨_, _, hc'⟩ | ⟨bs, r, x, txt, _, hb, hl, hr, hx, htx, _, hc'⟩
      · exact absurd hA h
      · rw [hc, hc']; exact ⟨ht, rfl⟩
      · rcases hn' with h | h
        · rw [h] at hr; cases hr
        · rw [h] at hx; cases hx
    · rcases siwePrepareLogin_cases s' now a with ⟨_, h, _⟩ | ⟨_, hn', hc'⟩ | ⟨bs', r', x', txt', _, hb', hl', hr', hx', htx', _, hc'⟩
      · exact absurd hA h
      · exfalso
        rcases hn' with h | h
        · rw [ht.rng, h] at hr; cases hr
        · rcases ht.settings with ⟨h', _⟩ | ⟨y, len, ts, _, h', _⟩
          · rw [h'] at hx; cases hx
          · rw [h] at h'; cases h'
      · have e1 : bs = bs' := by rw [hb] at hb'; cases hb'; rfl
        have e2 : r = r' := by rw [ht.rng, hr'] at hr; cases hr; rfl
        subst e1 e2
        rcases ht.settings with ⟨h', _⟩ | ⟨y, len, ts, h1, h2, h3⟩
        · rw [h'] at hx; cases hx
        · rw [hx] at h1; cases h1
          rw [hx'] at h2; cases h2
          have e3 : txt = txt' := Res.ok.inj (htx.symm.trans htx')
          subst e3
          rw [hc, hc']
          refine ⟨⟨rfl, ?_, ht.provider, ht.addresses, ht.principals, .inr ⟨x, len, ts, hx, hx', h3⟩⟩, rfl⟩
          simp only [commit, preparedLib, ht.messages]
          rfl
  · have key : ∀ t : State E, ∃ e, EthAddress.new E a = .err e ∧ siwePrepareLogin t now a = (t, .err (.eth e)) := by
      intro t
      cases hn : EthAddress.new E a with
      | panic => exact absurd hn (ethAddress_new_no_panic E a)
      | ok y => exact absurd ((ethAddress_new_ok_iff E a y).mp hn).1 hA
      | err e => exact ⟨e, rfl, by simp only [siwePrepareLogin, hn]⟩
    obtain ⟨e, h1, hc⟩ := key s
    obtain ⟨e', h2, hc'⟩ := key s'
    rw [h1] at h2; cases h2
    rw [hc, hc']
    exact ⟨ht, rfl⟩

theorem createDelegation_err {E : Env} {s s' : Settings} {k : Bytes} {x x' : UInt64} {e : DelegationError} (hx : x ≠ 0)
    (h : createDelegation E s k x = .err e) : createDelegation E s' k x' = .err e := by
  unfold createDelegation at h ⊢
  split at h
  · next hk => rw [if_pos hk]; exact h
  · next hk =>
    rw [if_neg hk]
    split at h
    · next hd => rw [if_pos hd]; exact h
    · cases h

/-- Two logins for which the message is found. -/
theorem found_session {E : Env} {same : Prop} {s s' t t' : State E} (ht : SessionTwin same s s') (hi : Inv s) (hi' : Inv s') {now : UInt64}
    {a k bs n : Bytes} {m : SiweMessage} {c : Res LoginError Unit} {r r' : Res ProviderError LoginDetails}
    (h : LoginFound s now a k bs n m c t r) (h' : LoginFound s' now a k bs n m c t' r') :
    SessionTwin same t t' ∧ ((same → r = r') ∧ (r = r' ∨ ∃ d d', r = .ok d ∧ r' = .ok d' ∧
      d.userCanisterPubkey = d'.userCanisterPubkey)) := by
  have used : ∀ {u u' : State E}, u.lib = usedLib s.lib now (storeKey E bs n) → u'.lib = usedLib s'.lib now (storeKey E bs n) →
      u.settings = u'.settings → u.principalAddress = u'.principalAddress → u.addressPrincipal = u'.addressPrincipal →
      SessionTwin same u u' := by
    intro u u' h1 h2 h3 h4 h5
    exact ⟨by rw [h1, h2]; exact ht.rng, by rw [h1, h2]; simp only [usedLib, ht.messages], h3, h4, h5,
      by rw [h1, h2]; exact ht.settings⟩
  cases h with
  | badSignature e hc =>
    cases h' with
    | badSignature e' hc' =>
      rw [hc] at hc'; cases hc'
      exact ⟨used rfl rfl ht.provider ht.addresses ht.principals, fun _ => rfl, .inl rfl⟩
    | badKey x q sm e' hc' => rw [hc] at hc'; cases hc'
    | success x q sm sm' d dh hc' => rw [hc] at hc'; cases hc'
  | badKey x q sm e hc hx hpr hd =>
    cases h' with
    | badSignature e' hc' => rw [hc] at hc'; cases hc'
    | badKey x' q' sm' e' hc' hx' hpr' hd' =>
      have := (createDelegation_err (s' := x') (x' := satAdd m.issuedAt x'.sessionExpiresIn)
        (satAdd_ne_zero (session_ne_zero (hi.valid x hx))) hd).symm.trans hd'
      cases this
      exact ⟨used rfl rfl ht.provider ht.addresses ht.principals, fun _ => rfl, .inl rfl⟩
    | success x' q' sm' sm'' d dh hc' hx' hpr' hd' =>
      have := (createDelegation_err (s' := x') (x' := satAdd m.issuedAt x'.sessionExpiresIn)
        (satAdd_ne_zero (session_ne_zero (hi.valid x hx))) hd).symm.trans hd'
      cases this
  | success x q sm sm1 d dh hc hx hpr hd hdh hput =>
    cases h' with
    | badSignature e' hc' => rw [hc] at hc'; cases hc'
    | badKey x' q' sm' e' hc' hx' hpr' hd' =>
      have := (createDelegation_err (s' := x) (x' := satAdd m.issuedAt x.sessionExpiresIn)
        (satAdd_ne_zero (session_ne_zero (hi'.valid x' hx'))) hd').symm.trans hd
      cases this
    | success x' q' sm' sm1' d' dh' hc' hx' hpr' hd' hdh' hput' =>
      rcases ht.settings with ⟨g, _⟩ | ⟨y, len, ts, g1, g2, g3⟩
      · rw [hx] at g; cases g
      · rw [hx] at g1; cases g1
        rw [hx'] at g2; cases g2
        refine ⟨used rfl rfl ht.provider ?_ ?_, fun hsame => ?_, .inr ⟨_, _, rfl, rfl, rfl⟩⟩
        · simp only [mappedState, ht.provider, ht.addresses]; rfl
        · simp only [mappedState, ht.provider, ht.principals]; rfl
        · rw [g3 hsame]; rfl

theorem login_session {E : Env} {same : Prop} {s s' : State E} (ht : SessionTwin same s s') (hi : Inv s) (hi' : Inv s')
    (now : UInt64) (sig a k n : Bytes) :
    SessionTwin same (step s now (.login sig a k n)).1 (step s' now (.login sig a k n)).1 ∧
      (same → (step s now (.login sig a k n)).2 = (step s' now (.login sig a k n)).2) ∧
      SameUser (step s now (.login sig a k n)).2 (step s' now (.login sig a k n)).2 := by
  simp only [step]
  rcases siweLogin_cases s hi.sigs hi.configured now sig a k n with ⟨e, h1, he, hc⟩ | ⟨e, h1, h2, he, hc⟩ |
    ⟨h1, h2, bs, hb, hsp, hc⟩ <;>
  rcases siweLogin_cases s' hi'.sigs hi'.configured now sig a k n with ⟨e', h1', he', hc'⟩ | ⟨e', h1', h2', he', hc'⟩ |
    ⟨h1', h2', bs', hb', hsp', hc'⟩
  · rw [he] at he'; cases he'
    rw [hc, hc']; exact ⟨ht, fun _ => rfl, .inl rfl⟩
  · exact absurd h1' h1
  · exact absurd h1' h1
  · exact absurd h1 h1'
  · rw [he] at he'; cases he'
    rw [hc, hc']; exact ⟨ht, fun _ => rfl, .inl rfl⟩
  · exact absurd h2' h2
  · exact absurd h1 h1'
  · exact absurd h2 h2'
  · have : bs = bs' := spells_unique hsp hsp'
    subst this
    rcases hc with ⟨hl, hc⟩ | ⟨m, txt, t, r, hl, htx, _, hf, hc⟩ <;>
    rcases hc' with ⟨hl', hc'⟩ | ⟨m', txt', t', r', hl', htx', _, hf', hc'⟩
    · rw [hc, hc']
      exact ⟨⟨ht.rng, by simp only [commit, prunedLib, ht.messages], ht.provider, ht.addresses, ht.principals, ht.settings⟩,
        fun _ => rfl, .inl rfl⟩
    · rw [ht.messages, hl'] at hl; cases hl
    · rw [ht.messages, hl'] at hl; cases hl
    · have hp := hf.no_panic
      have hp' := hf'.no_panic
      rw [ht.messages, hl'] at hl
      have hm : m' = m := Option.some.inj hl
      subst hm
      have htt : txt' = txt := Res.ok.inj ((htx' Empty).symm.trans (htx Empty))
      subst htt
      obtain ⟨k1, k2, k3⟩ := found_session ht hi hi' hf hf'
      rw [hc, hc']
      rcases k3 with rfl | ⟨d, d', rfl, rfl, hk⟩
      · cases r with
        | panic => exact absurd rfl hp
        | ok d => exact ⟨k1, fun _ => rfl, .inl rfl⟩
        | err e => exact ⟨k1, fun _ => rfl, .inl rfl⟩
      · exact ⟨k1, fun hs => congrArg Reply.loggedIn (Res.ok.inj (k2 hs)), .inr ⟨d, d', rfl, rfl, hk⟩⟩

/-- One call. -/
theorem step_session {E : Env} {same : Prop} {s s' : State E} (ht : SessionTwin same s s') (hi : Inv s) (hi' : Inv s')
    (now : UInt64) {op op' : Op} (ho : SessionCalls E same op op') :
    SessionTwin same (step s now op).1 (step s' now op').1 ∧
      (¬AsksDelegation op → ((same ∨ ¬IsLogin op) → (step s now op).2 = (step s' now op').2) ∧
        SameUser (step s now op).2 (step s' now op').2) := by
  have ins : ∀ {i i'}, (i' = i ∨ SameButSession E same i i') → _ := fun {i i'} hs =>
    init_session (a := State.fresh E) (a' := State.fresh E) (i := i) (i' := i') hs rfl rfl rfl rfl rfl rfl ht
  have upg : ∀ {i i'}, (i' = i ∨ SameButSession E same i i') → _ := fun {i i'} hs =>
    init_session (a := s.afterUpgrade) (a' := s'.afterUpgrade) (i := i) (i' := i') hs rfl rfl rfl rfl ht.addresses ht.principals ht
  have eq : ∀ {r r' : Reply}, r = r' → ((same ∨ ¬IsLogin op) → r = r') ∧ SameUser r r' := fun h => ⟨fun _ => h, .inl h⟩
  cases ho with
  | install i i' h => exact ⟨(ins (.inr h)).1, fun _ => eq (ins (.inr h)).2⟩
  | upgrade i i' h => exact ⟨(upg (.inr h)).1, fun _ => eq (upg (.inr h)).2⟩
  | same =>
    cases op with
    | install i => exact ⟨(ins (.inl rfl)).1, fun _ => eq (ins (.inl rfl)).2⟩
    | upgrade i => exact ⟨(upg (.inl rfl)).1, fun _ => eq (upg (.inl rfl)).2⟩
    | rngSeeded seed => exact ⟨⟨rfl, ht.messages, ht.provider, ht.addresses, ht.principals, ht.settings⟩, fun _ => eq rfl⟩
    | prepareLogin a => exact ⟨(prepare_session ht now a).1, fun _ => eq (prepare_session ht now a).2⟩
    | login sig a k n =>
      have := login_session ht hi hi' now sig a k n
      exact ⟨this.1, fun _ => ⟨fun h => this.2.1 (h.resolve_right fun g => g trivial), this.2.2⟩⟩
    | getDelegation c a k e => exact ⟨ht, fun h => absurd trivial h⟩
    | getAddress p => exact ⟨ht, fun _ => eq (by simp only [step, getAddress, ht.provider, ht.addresses])⟩
    | getCallerAddress p =>
      exact ⟨ht, fun _ => eq (by simp only [step, getCallerAddress, getAddress, ht.provider, ht.addresses])⟩
    | getPrincipal a => exact ⟨ht, fun _ => eq (by simp only [step, getPrincipal, ht.provider, ht.principals])⟩

theorem run_session {E : Env} {same : Prop} {s s' : State E} (ht : SessionTwin same s s') (hi : Inv s) (hi' : Inv s')
    {h h' : History} (hh : SessionHistories E same h h') : SessionTwin same (run s h).1 (run s' h').1 := by
  induction hh generalizing s s' with
  | nil => exact ht
  | cons now ho _ ih => exact ih (step_session ht hi hi' now ho).1 (inv_step hi now _) (inv_step hi' now _)

/-- C140: two canisters configured with different targets, at the installation and at any upgrades, that otherwise receive the same
calls, answer every call alike except the request for a delegation. -/
theorem C140_targets (E : Env) (h h' : History) (hh : SessionHistories E True h h') (now : UInt64) (op op' : Op)
    (ho : SessionCalls E True op op') (hq : ¬AsksDelegation op) :
    (step (stateAfter E h) now op).2 = (step (stateAfter E h') now op').2 :=
  ((step_session (run_session (sessionTwin_fresh E True) (inv_fresh E) (inv_fresh E) hh) (inv_stateAfter E h) (inv_stateAfter E h')
    now ho).2 hq).1 (.inl trivial)

/-- C140: with different session lengths, the answers to logins may differ as well, but not whether a login succeeds, with which error
it fails and who the user becomes. -/
theorem C140_session_length (E : Env) (h h' : History) (hh : SessionHistories E False h h') (now : UInt64) (op op' : Op)
    (ho : SessionCalls E False op op') (hq : ¬AsksDelegation op) :
    SameUser (step (stateAfter E h) now op).2 (step (stateAfter E h') now op').2 ∧
      (¬IsLogin op → (step (stateAfter E h) now op).2 = (step (stateAfter E h') now op').2) := by
  have := (step_session (run_session (sessionTwin_fresh E False) (inv_fresh E) (inv_fresh E) hh) (inv_stateAfter E h)
    (inv_stateAfter E h') now ho).2 hq
  exact ⟨this.2, fun hl => this.1 (.inr hl)⟩

/-- The example's configuration with targets, and with another session length as well. -/
def Ex.inputTargets : SettingsInput := { Ex.input with targets := some [Toy.env.canisterId, [1, 2, 3]] }

def Ex.inputShort : SettingsInput := { Ex.inputTargets with sessionExpiresIn := some 7 }

/-- The calls up to the two prepared logins on a canister so configured. -/
def Ex.preparedWith (i : SettingsInput) : History :=
  [(1, .install i), (2, .rngSeeded [1, 2, 3]), (5, .prepareLogin Ex.alice), (6, .prepareLogin Ex.bob)]

theorem Ex.good_targets : GoodTargets Toy.env Ex.input.targets ∧ GoodTargets Toy.env Ex.inputTargets.targets := by
  refine ⟨fun ts h => (by cases h), fun ts h => ?_⟩
  cases h
  exact ⟨[Toy.env.canisterId, [1, 2, 3]], by decide, by decide, by decide, by decide⟩

/-- Non-vacuity: the example's login succeeds with targets as well. -/
example : SessionHistories Toy.env True (Ex.preparedWith Ex.input) (Ex.preparedWith Ex.inputTargets) ∧
    (match (step (stateAfter Toy.env (Ex.preparedWith Ex.inputTargets)) 100 (.login Ex.aliceSig Ex.alice Ex.key (Ex.nonce 3))).2 with
      | .loggedIn _ => true | _ => false) = true := by
  refine ⟨.cons 1 (.install _ _ ⟨⟨_, _, rfl⟩, fun _ => rfl, ?_, Ex.good_targets⟩)
    (.cons 2 (.same _) (.cons 5 (.same _) (.cons 6 (.same _) .nil))), by decide +kernel⟩
  unfold GoodSession; decide

/-- Non-vacuity: with another session length, the login succeeds with another expiration. -/
example : SessionHistories Toy.env False (Ex.preparedWith Ex.input) (Ex.preparedWith Ex.inputShort) ∧
    (match (step (stateAfter Toy.env (Ex.preparedWith Ex.input)) 100 (.login Ex.aliceSig Ex.alice Ex.key (Ex.nonce 3))).2,
      (step (stateAfter Toy.env (Ex.preparedWith Ex.inputShort)) 100 (.login Ex.aliceSig Ex.alice Ex.key (Ex.nonce 3))).2 with
      | .loggedIn d, .loggedIn d' => decide (d.expiration ≠ d'.expiration) | _, _ => false) = true := by
  refine ⟨.cons 1 (.install _ _ ⟨⟨_, _, rfl⟩, fun h => h.elim, ?_, Ex.good_targets⟩)
    (.cons 2 (.same _) (.cons 5 (.same _) (.cons 6 (.same _) .nil))), by decide +kernel⟩
  unfold GoodSession; decide

end Siwe
