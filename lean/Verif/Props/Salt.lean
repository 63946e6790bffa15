import Verif.Spec.Salt
import Verif.Props.Login
import Verif.Props.Settings
import Verif.Examples.Histories
/- Property C68: what the salt influences. -/
namespace Siwe
open Spec

/-- The library's state, except for the salt. -/
structure Twin {E : Env} (s s' : State E) : Prop where
  rng : s.lib.rng = s'.lib.rng
  messages : s.lib.messages = s'.lib.messages
  settings : (s.lib.settings = none ∧ s'.lib.settings = none) ∨
    ∃ x salt, s.lib.settings = some x ∧ s'.lib.settings = some { x with salt := salt }

theorem twin_of_lib {E : Env} {s s' t t' : State E} (h : Twin s s') (h1 : t.lib = s.lib) (h2 : t'.lib = s'.lib) : Twin t t' :=
  ⟨by rw [h1, h2]; exact h.rng, by rw [h1, h2]; exact h.messages, by rw [h1, h2]; exact h.settings⟩

/-- Two salts of which both are accepted, or that are the same. -/
def Interchangeable (a b : Bytes) : Prop := a = b ∨ (GoodSalt a ∧ GoodSalt b)

theorem valid_salt {E : Env} {s : Settings} {salt : Bytes} (hs : Interchangeable s.salt salt) (h : ValidSettings E s) :
    ValidSettings E { s with salt := salt } := by
  rcases hs with rfl | ⟨_, h1, h2⟩
  · exact h
  · unfold ValidSettings requirements at h ⊢
    simp only [List.forall_mem_cons] at h ⊢
    obtain ⟨a1, a2, a3, a4, a5⟩ := h
    exact ⟨a1, a2, h1, h2, a5⟩

theorem configures_salt {E : Env} {i : SettingsInput} {s : Settings} {p : ProviderSettings} (salt : Bytes)
    (h : Configures E i s p) : Configures E { i with salt := salt } { s with salt := salt } p :=
  ⟨h.domain, h.uri, rfl, h.chainId, h.scheme, h.statement, h.signIn, h.session, h.noTargets, h.targets, h.uriFeature,
    h.ethToPrincipal, h.principalToEth⟩

theorem init_ok_salt {E : Env} {a a' t : State E} {i : SettingsInput} {salt : Bytes} (hs : Interchangeable i.salt salt)
    (h1 : a.settings = ⟨false, false⟩) (h2 : a'.settings = ⟨false, false⟩) (hr : a.lib.rng = a'.lib.rng)
    (hm : a.lib.messages = a'.lib.messages) (h : siweInit a i = .ok t) :
    ∃ t', siweInit a' { i with salt := salt } = .ok t' ∧ Twin t t' := by
  obtain ⟨s, p, hc, hv, rfl⟩ := (siweInit_ok a t i h1).mp h
  refine ⟨_, (siweInit_ok a' _ _ h2).mpr ⟨{ s with salt := salt }, p, configures_salt salt hc, valid_salt ?_ hv, rfl⟩, ?_⟩
  · rw [hc.salt]; exact hs
  · exact ⟨hr, hm, .inr ⟨s, salt, rfl, rfl⟩⟩

theorem init_salt {E : Env} {a a' s s' : State E} {i : SettingsInput} {salt : Bytes} (hs : Interchangeable i.salt salt)
    (h1 : a.settings = ⟨false, false⟩) (h2 : a'.settings = ⟨false, false⟩) (hr : a.lib.rng = a'.lib.rng)
    (hm : a.lib.messages = a'.lib.messages) (ht : Twin s s') :
    Twin (commitInit s (siweInit a i)).1 (commitInit s' (siweInit a' { i with salt := salt })).1 ∧
      (commitInit s (siweInit a i)).2 = (commitInit s' (siweInit a' { i with salt := salt })).2 := by
  cases h : siweInit a i with
  | err e => exact nomatch e
  | ok t =>
    obtain ⟨t', g, htt⟩ := init_ok_salt hs h1 h2 hr hm h
    rw [g]
    exact ⟨htt, rfl⟩
  | panic =>
    cases h' : siweInit a' { i with salt := salt } with
    | err e => exact nomatch e
    | panic => exact ⟨ht, rfl⟩
    | ok t' =>
      have hs' : Interchangeable ({ i with salt := salt } : SettingsInput).salt i.salt := by
        rcases hs with hs | ⟨g1, g2⟩
        · exact .inl hs.symm
        · exact .inr ⟨g2, g1⟩
      obtain ⟨t, g, _⟩ := init_ok_salt (salt := i.salt) hs' h2 h1 hr.symm hm.symm h'
      rw [show ({ ({ i with salt := salt } : SettingsInput) with salt := i.salt } : SettingsInput) = i from rfl, h] at g
      cases g

theorem prepare_salt {E : Env} {s s' : State E} (ht : Twin s s') (now : UInt64) (a : Bytes) :
    Twin (step s now (.prepareLogin a)).1 (step s' now (.prepareLogin a)).1 ∧
      (step s now (.prepareLogin a)).2 = (step s' now (.prepareLogin a)).2 := by
  simp only [step]
  by_cases hA : IsAddress E.keccak a
  · rcases siwePrepareLogin_cases s now a with ⟨_, h, _⟩ | ⟨_, hn, hc⟩ | ⟨bs, r, x, txt, _, hb, hl, hr, hx, htx, _, hc⟩
    · exact absurd hA h
    · have hn' : s'.lib.rng = none ∨ s'.lib.settings = none := by
        rcases hn with hn | hn
        · exact .inl (ht.rng ▸ hn)
        · rcases ht.settings with ⟨_, h⟩ | ⟨x, salt, h, _⟩
          · exact .inr h
          · rw [hn] at h; cases h
      rcases siwePrepareLogin_cases s' now a with ⟨_, h, _⟩ | ⟨_, _, hc'⟩ | ⟨bs, r, x, txt, _, hb, hl, hr, hx, htx, _, hc'⟩
      · exact absurd hA h
      · rw [hc, hc']; exact ⟨ht, rfl⟩
      · rcases hn' with h | h
        · rw [h] at hr; cases hr
        · rw [h] at hx; cases hx
    · rcases siwePrepareLogin_cases s' now a with ⟨_, h, _⟩ | ⟨_, hn', hc'⟩ | ⟨bs', r', x', txt', _, hb', hl', hr', hx', htx', _, hc'⟩
      · exact absurd hA h
      · exfalso
        rcases hn' with h | h
        · rw [ht.rng, h] at hr; cases hr
        · rcases ht.settings with ⟨h', _⟩ | ⟨y, salt, _, h'⟩
          · rw [h'] at hx; cases hx
          · rw [h] at h'; cases h'
      · have e1 : bs = bs' := by rw [hb] at hb'; cases hb'; rfl
        have e2 : r = r' := by rw [ht.rng, hr'] at hr; cases hr; rfl
        subst e1 e2
        rcases ht.settings with ⟨h', _⟩ | ⟨y, salt, h1, h2⟩
        · rw [h'] at hx; cases hx
        · rw [hx] at h1; cases h1
          rw [hx'] at h2; cases h2
          have e3 : txt = txt' := Res.ok.inj (htx.symm.trans htx')
          subst e3
          rw [hc, hc']
          refine ⟨⟨rfl, ?_, .inr ⟨x, salt, hx, hx'⟩⟩, rfl⟩
          simp only [commit, preparedLib, ht.messages]
          rfl
  · have key : ∀ t : State E, ∃ e, EthAddress.new E a = .err e ∧ siwePrepareLogin t now a = (t, .err (.eth e)) := by
      intro t
      cases hn : EthAddress.new E a with
      | panic => exact absurd hn (ethAddress_new_no_panic E a)
      | ok y => exact absurd ((ethAddress_new_ok_iff E a y).mp hn).1 hA
      | err e => exact ⟨e, rfl, by simp only [siwePrepareLogin, hn]⟩
    obtain ⟨e, h1, hc⟩ := key s
    obtain ⟨e', h2, hc'⟩ := key s'
    rw [h1] at h2; cases h2
    rw [hc, hc']
    exact ⟨ht, rfl⟩

theorem found_lib {E : Env} {st : State E} {now : UInt64} {addr key bs nonce : Bytes} {m : SiweMessage} {c : Res LoginError Unit}
    {st' : State E} {r : Res ProviderError LoginDetails} (h : LoginFound st now addr key bs nonce m c st' r) :
    st'.lib = usedLib st.lib now (storeKey E bs nonce) := by
  cases h <;> rfl

theorem twin_used {E : Env} {s s' : State E} (ht : Twin s s') (now : UInt64) (k : Hash) {t t' : State E}
    (h1 : t.lib = usedLib s.lib now k) (h2 : t'.lib = usedLib s'.lib now k) : Twin t t' :=
  ⟨by rw [h1, h2]; exact ht.rng, by rw [h1, h2]; simp only [usedLib, ht.messages], by rw [h1, h2]; exact ht.settings⟩

/-- What the login changes in the library's state. -/
theorem login_lib_salt {E : Env} {s s' : State E} (ht : Twin s s') (hi : Inv s) (hi' : Inv s') (now : UInt64)
    (sig a k n : Bytes) : Twin (step s now (.login sig a k n)).1 (step s' now (.login sig a k n)).1 := by
  simp only [step]
  rcases siweLogin_cases s hi.sigs hi.configured now sig a k n with ⟨e, h1, _, hc⟩ | ⟨e, h1, h2, _, hc⟩ |
    ⟨h1, h2, bs, hb, hsp, hc⟩ <;>
  rcases siweLogin_cases s' hi'.sigs hi'.configured now sig a k n with ⟨e', h1', _, hc'⟩ | ⟨e', h1', h2', _, hc'⟩ |
    ⟨h1', h2', bs', hb', hsp', hc'⟩
  · rw [hc, hc']; exact ht
  · exact absurd h1' h1
  · exact absurd h1' h1
  · exact absurd h1 h1'
  · rw [hc, hc']; exact ht
  · exact absurd h2' h2
  · exact absurd h1 h1'
  · exact absurd h2 h2'
  · have : bs = bs' := spells_unique hsp hsp'
    subst this
    rcases hc with ⟨hl, hc⟩ | ⟨m, txt, t, r, hl, _, _, hf, hc⟩ <;>
    rcases hc' with ⟨hl', hc'⟩ | ⟨m', txt', t', r', hl', _, _, hf', hc'⟩
    · rw [hc, hc']
      exact ⟨ht.rng, by simp only [commit, prunedLib, ht.messages], ht.settings⟩
    · rw [ht.messages, hl'] at hl; cases hl
    · rw [ht.messages, hl'] at hl; cases hl
    · have hp := hf.no_panic
      have hp' := hf'.no_panic
      rw [hc, hc']
      cases r with
      | panic => exact absurd rfl hp
      | _ =>
        cases r' with
        | panic => exact absurd rfl hp'
        | _ => exact twin_used ht now _ (found_lib hf) (found_lib hf')

/-- The reply to a login. -/
theorem login_reply_salt {E : Env} {s s' : State E} (ht : Twin s s') {now : UInt64} {sig a k n : Bytes} {r r' : Reply}
    (h : LoginReply s now sig a k n r) (h' : LoginReply s' now sig a k n r') : SameLogin r r' := by
  have hu : ∀ {m txt}, Usable s now a n m txt → Usable s' now a n m txt := by
    rintro m txt ⟨⟨bs, h1, h2, h3⟩, h4, h5⟩
    exact ⟨⟨bs, h1, h2, ht.messages ▸ h3⟩, h4, h5⟩
  have hu' : ∀ {m txt}, Usable s' now a n m txt → Usable s now a n m txt := by
    rintro m txt ⟨⟨bs, h1, h2, h3⟩, h4, h5⟩
    exact ⟨⟨bs, h1, h2, ht.messages ▸ h3⟩, h4, h5⟩
  have one : LoginReply s' now sig a k n r → SameLogin r r' := fun g => .inl (C14_one_answer s' now sig a k n r r' g h')
  cases h with
  | badAddress e h1 => exact one (.badAddress e h1)
  | badSignature e h1 h2 => exact one (.badSignature e h1 h2)
  | notFound h1 h2 h3 => exact one (.notFound h1 h2 fun ⟨m, txt, hm⟩ => h3 ⟨m, txt, hu' hm⟩)
  | unrecoverable m txt e h1 h2 h3 h4 => exact one (.unrecoverable m txt e h1 h2 (hu h3) h4)
  | otherSigner m txt pub h1 h2 h3 h4 h5 => exact one (.otherSigner m txt pub h1 h2 (hu h3) h4 h5)
  | badKey m txt e h1 h2 h3 h4 h5 => exact one (.badKey m txt e h1 h2 (hu h3) h4 h5)
  | success m txt x seed d h1 h2 h3 h4 h5 h6 h7 h8 h9 h10 =>
    rcases ht.settings with ⟨h', _⟩ | ⟨y, salt, g1, g2⟩
    · rw [h'] at h7; cases h7
    · rw [h7] at g1; cases g1
      obtain ⟨seed', hs'⟩ : ∃ seed', IsSeed E { x with salt := salt } a seed' := by
        by_cases hq : UsesUri { x with salt := salt }
        · exact ⟨_, .inl ⟨hq, rfl⟩⟩
        · exact ⟨_, .inr ⟨hq, rfl⟩⟩
      have hd : LoginReply s' now sig a k n
          (.loggedIn ⟨d.expiration, createUserCanisterPubkey E.canisterId seed'.bytes⟩) :=
        .success m txt _ seed' _ h1 h2 (hu h3) h4 h5 h6 g2 hs' h9 rfl
      rw [← C14_one_answer s' now sig a k n _ r' hd h']
      exact .inr ⟨_, _, rfl, rfl, rfl⟩

theorem step_salt {E : Env} {s s' : State E} (ht : Twin s s') (hi : Inv s) (hi' : Inv s') (now : UInt64) {op op' : Op}
    (h : SameButSalt op op') : Twin (step s now op).1 (step s' now op').1 := by
  cases h with
  | install i salt h1 h2 => exact (init_salt (.inr ⟨h1, h2⟩) rfl rfl rfl rfl ht).1
  | upgrade i salt h1 h2 => exact (init_salt (a := s.afterUpgrade) (a' := s'.afterUpgrade) (.inr ⟨h1, h2⟩) rfl rfl rfl rfl ht).1
  | same =>
    cases op with
    | install i => exact (init_salt (.inl rfl) rfl rfl rfl rfl ht).1
    | upgrade i => exact (init_salt (a := s.afterUpgrade) (a' := s'.afterUpgrade) (.inl rfl) rfl rfl rfl rfl ht).1
    | rngSeeded seed => exact ⟨rfl, ht.messages, ht.settings⟩
    | prepareLogin a => exact (prepare_salt ht now a).1
    | login sig a k n => exact login_lib_salt ht hi hi' now sig a k n
    | _ => exact ht

theorem run_salt {E : Env} {s s' : State E} (ht : Twin s s') (hi : Inv s) (hi' : Inv s') {h h' : History}
    (hh : SameCalls h h') : Twin (run s h).1 (run s' h').1 := by
  induction hh generalizing s s' with
  | nil => exact ht
  | cons now op op' h h' ho _ ih => exact ih (step_salt ht hi hi' now ho) (inv_step hi now op) (inv_step hi' now op')

theorem twin_fresh (E : Env) : Twin (State.fresh E) (State.fresh E) := ⟨rfl, rfl, .inl ⟨rfl, rfl⟩⟩

/-- C68: the salt does not influence the sign-in messages: after the same calls, canisters with different salts answer
`siwe_prepare_login` in the same way, message, nonce and all. -/
theorem C68_messages (E : Env) (h h' : History) (hh : SameCalls h h') (now : UInt64) (a : Bytes) :
    (step (stateAfter E h) now (.prepareLogin a)).2 = (step (stateAfter E h') now (.prepareLogin a)).2 :=
  (prepare_salt (run_salt (twin_fresh E) (inv_fresh E) (inv_fresh E) hh) now a).2

/-- C68: nor whether a login succeeds, with which error it fails, and when the session ends: only the user's key differs. -/
theorem C68_logins (E : Env) (h h' : History) (hh : SameCalls h h') (now : UInt64) (sig a k n : Bytes) :
    SameLogin (step (stateAfter E h) now (.login sig a k n)).2 (step (stateAfter E h') now (.login sig a k n)).2 :=
  login_reply_salt (run_salt (twin_fresh E) (inv_fresh E) (inv_fresh E) hh) (C14_decision E h now sig a k n)
    (C14_decision E h' now sig a k n)

/-- C68: nor whether an installation or upgrade succeeds. -/
theorem C68_installs (E : Env) (h h' : History) (now : UInt64) (i : SettingsInput) (salt : Bytes)
    (h1 : GoodSalt i.salt) (h2 : GoodSalt salt) :
    (step (stateAfter E h) now (.install i)).2 = (step (stateAfter E h') now (.install { i with salt := salt })).2 ∧
    (step (stateAfter E h) now (.upgrade i)).2 = (step (stateAfter E h') now (.upgrade { i with salt := salt })).2 := by
  have key : ∀ {a a' s s' : State E}, a.settings = ⟨false, false⟩ → a'.settings = ⟨false, false⟩ →
      a.lib.rng = a'.lib.rng → a.lib.messages = a'.lib.messages →
      (commitInit s (siweInit a i)).2 = (commitInit s' (siweInit a' { i with salt := salt })).2 := by
    intro a a' s s' g1 g2 g3 g4
    have := (init_salt (s := State.fresh E) (s' := State.fresh E) (.inr ⟨h1, h2⟩) g1 g2 g3 g4 (twin_fresh E)).2
    revert this
    cases siweInit a i with
    | err e => exact nomatch e
    | _ =>
      cases siweInit a' { i with salt := salt } with
      | err e => exact nomatch e
      | _ => exact id
  exact ⟨key rfl rfl rfl rfl, key rfl rfl rfl rfl⟩

/-- The example canister with another salt. -/
def Ex.resalted : SettingsInput := { Ex.input with salt := ascii "t" }

/-- ... and the calls up to the two prepared logins. -/
def Ex.resaltedHistory : History :=
  [(1, .install Ex.resalted), (2, .rngSeeded [1, 2, 3]), (5, .prepareLogin Ex.alice), (6, .prepareLogin Ex.bob)]

theorem Ex.good_salts : GoodSalt Ex.input.salt ∧ GoodSalt (ascii "t") := by
  unfold GoodSalt; decide

/-- Non-vacuity: the hypothesis is met by two canisters with different salts; both log the user in, with different keys. -/
example : SameCalls Ex.prepared Ex.resaltedHistory ∧
    (∃ d d', (step (stateAfter Toy.env Ex.prepared) 100 (.login Ex.aliceSig Ex.alice Ex.key (Ex.nonce 3))).2 = .loggedIn d ∧
      (step (stateAfter Toy.env Ex.resaltedHistory) 100 (.login Ex.aliceSig Ex.alice Ex.key (Ex.nonce 3))).2 = .loggedIn d' ∧
      d ≠ d') := by
  refine ⟨.cons _ _ _ _ _ (.install Ex.input (ascii "t") Ex.good_salts.1 Ex.good_salts.2)
    (.cons _ _ _ _ _ (.same _) (.cons _ _ _ _ _ (.same _) (.cons _ _ _ _ _ (.same _) .nil))), ?_⟩
  have h : (match (step (stateAfter Toy.env Ex.prepared) 100 (.login Ex.aliceSig Ex.alice Ex.key (Ex.nonce 3))).2,
      (step (stateAfter Toy.env Ex.resaltedHistory) 100 (.login Ex.aliceSig Ex.alice Ex.key (Ex.nonce 3))).2 with
      | .loggedIn d, .loggedIn d' => decide (d ≠ d')
      | _, _ => false) = true := by decide +kernel
  split at h
  · next d d' h1 h2 => exact ⟨d, d', h1, h2, of_decide_eq_true h⟩
  · cases h

end Siwe
