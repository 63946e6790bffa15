import Verif.Props.Certificates
/- Property C53: a user who follows the protocol gets a delegation that verifies. -/
namespace Siwe
open Spec

/-- The message a preparation stores. -/
theorem prepared_pending {E : Env} (h : History) (t : UInt64) (addr : Bytes) (p : PrepareLoginOkResponse)
    (hp : (step (stateAfter E h) t (.prepareLogin addr)).2 = .prepared p) :
    ∃ s m, (stateAfter E h).lib.settings = some s ∧ (stateAfter E (h ++ [(t, .prepareLogin addr)])).lib.settings = some s ∧
      IsAddress E.keccak addr ∧
      Pending (stateAfter E (h ++ [(t, .prepareLogin addr)])) addr p.nonce m ∧ m.issuedAt = t ∧
      m.expirationTime.toNat = min (t.toNat + s.signInExpiresIn.toNat) (2 ^ 64 - 1) ∧
      (m.text : Res Empty Bytes) = .ok p.siweMessage := by
  have e2 : stateAfter E (h ++ [(t, .prepareLogin addr)]) = (step (stateAfter E h) t (.prepareLogin addr)).1 :=
    run_snoc _ _ _ _
  rw [e2]
  have hi := inv_stateAfter E h
  generalize stateAfter E h = st at hi hp ⊢
  cases effect hi t (.prepareLogin addr) with
  | reset i _ _ g => rcases g with g | g <;> cases g
  | same _ g => exact absurd ⟨rfl, hp⟩ (g addr p.nonce p.siweMessage)
  | issued addr' bs nonce text s g1 g2 g3 g4 g5 g6 g7 _ g8 g9 =>
    cases g4
    rw [hp] at g5
    cases g5
    exact ⟨s, SiweMessage.new s t ⟨addr⟩ nonce, g6, g7, g1, ⟨bs, g2, g3, by rw [g9]; exact if_pos rfl⟩, rfl, satAdd_toNat _ _, g8 _⟩
  | attempted _ _ _ _ _ _ _ _ _ g => cases g

/-- C53: a user prepares a sign-in at `t0`, signs the returned text, and logs in at `t1`, before the message expires, with a
session key nobody else used; whatever other calls `h1` are made in between (none for this address and nonce), the login
succeeds, with the configured lifetime counted from `t0`.  Less than a minute later, after any further calls `h2`,
`siwe_get_delegation` returns the delegation for that session key, expiration and the configured targets, signed so that the
IC's check accepts it under the public key returned by the login (provided no login refused for its session key pruned
signatures since, see C29).  The alternatives exhibit a SHA-256 collision with another call of the history. -/
theorem C53_sign_in_works (E : Env) (h h1 : History) (t0 t1 : UInt64) (addr sig key : Bytes) (p : PrepareLoginOkResponse)
    (hp : (step (stateAfter E h) t0 (.prepareLogin addr)).2 = .prepared p)
    (hsig : HexString 130 sig) (hsigns : Signs E sig p.siweMessage addr) (hk : key ≠ []) (hder : E.derOk key = true)
    (hm : SameModule (traceFrom (stateAfter E (h ++ [(t0, .prepareLogin addr)])) h1))
    (ho : ∀ e ∈ traceFrom (stateAfter E (h ++ [(t0, .prepareLogin addr)])) h1, ¬e.Concerns addr p.nonce)
    (hfresh : ∀ x ∈ h ++ h1, ∀ sig' addr' nonce', x.2 ≠ .login sig' addr' key nonce') :
    ∃ s, (stateAfter E h).lib.settings = some s ∧
    ((∀ x ∈ h1, x.1.toNat < min (t0.toNat + s.signInExpiresIn.toNat) (2 ^ 64 - 1)) →
      t1.toNat < min (t0.toNat + s.signInExpiresIn.toNat) (2 ^ 64 - 1) →
    (∃ d, (step (stateAfter E (h ++ [(t0, .prepareLogin addr)] ++ h1)) t1 (.login sig addr key p.nonce)).2 = .loggedIn d ∧
      d.expiration.toNat = min (t0.toNat + s.sessionExpiresIn.toNat) (2 ^ 64 - 1) ∧
      ∀ (h2 : History) (t2 : UInt64) (cert : Bytes) (full : History),
        full = h ++ [(t0, .prepareLogin addr)] ++ h1 ++ [(t1, .login sig addr key p.nonce)] ++ h2 →
        SameModule (traceFrom (stateAfter E (h ++ [(t0, .prepareLogin addr)] ++ h1 ++ [(t1, .login sig addr key p.nonce)])) h2) →
        (∀ x ∈ h2, ∀ sig' addr' nonce', x.2 ≠ .login sig' addr' key nonce') →
        (∀ x ∈ h2, x.1.toNat ≤ t2.toNat) → t2.toNat < min (t1.toNat + minute) (2 ^ 64 - 1) →
        cert.length < 2 ^ 64 → RefusalsHarmless (trace E full) →
        (∃ sd, (step (stateAfter E full) t2 (.getDelegation (some cert) addr key d.expiration)).2 = .delegation sd ∧
          sd.delegation = ⟨key, d.expiration, s.targets⟩ ∧
          Verifies E E.canisterId (stateAfter E full).certifiedData cert d.userCanisterPubkey sd) ∨
        ∃ x ∈ trace E full, ∃ addr' key' nonce' d' s', x.LogsIn addr' key' nonce' d' ∧
          InForce E (trace E full) s' (stateAfter E full).settings ∧
          GrantCollision E s' addr key d.expiration addr' key' d'.expiration) ∨
    ∃ e ∈ traceFrom (stateAfter E (h ++ [(t0, .prepareLogin addr)])) h1, ∃ addr' nonce', e.Concerns addr' nonce' ∧
      KeyCollision E addr p.nonce addr' nonce') := by
  obtain ⟨s, m, q1, q2, q3, q4, q5, q6, q7⟩ := prepared_pending h t0 addr p hp
  refine ⟨s, q1, fun hx1 ht1 => ?_⟩
  have evtimes : ∀ (st : State E) (l : History) (e : Event), e ∈ traceFrom st l → (e.time, e.call) ∈ l := by
    intro st l
    induction l generalizing st with
    | nil => intro e he; simp [traceFrom] at he
    | cons x l ih =>
      intro e he
      simp only [traceFrom, List.mem_cons] at he
      rcases he with rfl | he
      · exact List.mem_cons_self
      · exact List.mem_cons_of_mem _ (ih _ e he)
  generalize eA : h ++ [(t0, Op.prepareLogin addr)] = A at *
  have hpend := C49_others_do_not_interfere E A h1 addr p.nonce m q3 q4 hm ho
    (fun e he => by rw [q6]; exact hx1 _ (evtimes _ _ e he))
  rcases hpend with hpend | hcol
  case inr => exact .inr hcol
  left
  have hset1 : (stateAfter E (A ++ h1)).lib.settings = some s := by
    rw [show stateAfter E (A ++ h1) = (run (stateAfter E A) h1).1 from run_append _ _ _,
      (settings_keep (inv_stateAfter E A) h1 hm).1, q2]
  obtain ⟨d, hd⟩ := (C14_success_iff E (A ++ h1) t1 sig addr key p.nonce).mpr
    ⟨q3, hsig, ⟨m, p.siweMessage, ⟨hpend, by omega, q7⟩, hsigns⟩, hk, hder⟩
  have hdec := C14_decision E (A ++ h1) t1 sig addr key p.nonce
  rw [hd] at hdec
  have hexp : d.expiration.toNat = min (t0.toNat + s.sessionExpiresIn.toNat) (2 ^ 64 - 1) := by
    cases hdec with
    | success m' txt s' seed _ g1 g2 g3 g4 g5 g6 g7 g8 g9 g10 =>
      rw [hset1] at g7; cases g7
      obtain ⟨rfl, rfl⟩ := usable_unique g3 ⟨hpend, by omega, q7⟩
      rw [g9, q5]
  refine ⟨d, hd, hexp, fun h2 t2 cert full hfull hm2 hfresh2 hx2 ht2 hc hharm => ?_⟩
  have hB : stateAfter E (A ++ h1 ++ [(t1, .login sig addr key p.nonce)]) =
      (step (stateAfter E (A ++ h1)) t1 (.login sig addr key p.nonce)).1 := run_snoc _ _ _ _
  have htr : trace E full = trace E (A ++ h1) ++ ⟨t1, .login sig addr key p.nonce, .loggedIn d⟩ ::
      traceFrom (stateAfter E (A ++ h1 ++ [(t1, .login sig addr key p.nonce)])) h2 := by
    rw [hfull, trace, traceFrom_append, traceFrom_snoc]
    show _ ++ [(⟨t1, _, (step (stateAfter E (A ++ h1)) t1 (.login sig addr key p.nonce)).2⟩ : Event)] ++ _ = _
    rw [hd]; simp [trace, stateAfter]
  have hl : Event.LogsIn ⟨t1, .login sig addr key p.nonce, .loggedIn d⟩ addr key p.nonce d := ⟨⟨sig, rfl⟩, rfl⟩
  rcases C28_single_login_partial E full _ _ _ addr key p.nonce d t2 cert htr hm2 hl ht2
      (fun y hy => hx2 _ (evtimes _ _ y hy)) (fun b x a nonce' d' g1 g2 g3 _ => by
        obtain ⟨⟨sig', g3⟩, _⟩ := g3
        have hx : x ∈ trace E full := by rw [g1]; simp
        rw [htr] at hx
        rcases List.mem_append.mp hx with hx | hx
        · have := evtimes _ _ x hx
          rw [← eA] at this
          simp only [List.mem_append, List.mem_singleton, Prod.mk.injEq] at this
          rcases this with (h' | ⟨_, h'⟩) | h'
          · exact absurd g3 (hfresh _ (List.mem_append_left _ h') sig' addr nonce')
          · rw [g3] at h'; cases h'
          · exact absurd g3 (hfresh _ (List.mem_append_right _ h') sig' addr nonce')
        · rcases List.mem_cons.mp hx with rfl | hx
          · rfl
          · exact absurd g3 (hfresh2 _ (evtimes _ _ x hx) sig' addr nonce')) with ⟨sd, hsd⟩ | hcol
  · left
    refine ⟨sd, hsd, ?_, C29_verifies_partial E full t2 cert addr key d.expiration sd _ _ _ key p.nonce d hsd hc htr hm2 hl hharm⟩
    have hset2 : (stateAfter E full).lib.settings = some s := by
      rw [hfull, show stateAfter E (A ++ h1 ++ [(t1, .login sig addr key p.nonce)] ++ h2) =
        (run (stateAfter E (A ++ h1 ++ [(t1, .login sig addr key p.nonce)])) h2).1 from run_append _ _ _,
        (settings_keep (inv_stateAfter E _) h2 hm2).1, hB,
        (effect_keep (effect (inv_stateAfter E (A ++ h1)) t1 (.login sig addr key p.nonce)) (by simp [Event.Reinstalls])).1, hset1]
    have hdr := C52_decision E full t2 (some cert) addr key d.expiration
    rw [hsd] at hdr
    cases hdr with
    | success _ s' sh dh w _ g1 g2 g3 g4 g5 g6 g7 g8 g9 g10 g11 =>
      rw [hset2] at g2; cases g2
      exact g10
  · exact .inr hcol

/-- Non-vacuity: installation and seeding, the user's preparation, another user's preparation, the login, another user's login
with another session key, and the query 30 s later. -/
def Ex.start : History := [(1, .install Ex.input), (2, .rngSeeded [1, 2, 3])]
def Ex.between : History := [(6, .prepareLogin Ex.bob)]
def Ex.afterwards : History := [(200, .login Ex.bobSig Ex.bob [48, 2] (Ex.nonce 4))]

theorem refusalsHarmless_of_none {es : List Event}
    (h : es.all (fun e => match e.reply with | .err (.login (.delegation _)) => false | _ => true) = true) :
    RefusalsHarmless es := by
  intro b x a err he _ hx
  have := List.all_eq_true.mp h x (by rw [he]; simp)
  rw [hx] at this
  cases this

example : ∃ p, (step (stateAfter Toy.env Ex.start) 5 (.prepareLogin Ex.alice)).2 = .prepared p ∧ p.nonce = Ex.nonce 3 ∧
    HexString 130 Ex.aliceSig ∧ Signs Toy.env Ex.aliceSig p.siweMessage Ex.alice ∧ Ex.key ≠ [] ∧ Toy.env.derOk Ex.key = true ∧
    SameModule (traceFrom (stateAfter Toy.env (Ex.start ++ [(5, .prepareLogin Ex.alice)])) Ex.between) ∧
    (∀ e ∈ traceFrom (stateAfter Toy.env (Ex.start ++ [(5, .prepareLogin Ex.alice)])) Ex.between, ¬e.Concerns Ex.alice p.nonce) ∧
    (∀ x ∈ Ex.start ++ Ex.between, ∀ sig' addr' nonce', x.2 ≠ .login sig' addr' Ex.key nonce') ∧
    (∀ x ∈ Ex.between, x.1.toNat < min (5 + 300000000000) (2 ^ 64 - 1)) ∧
    SameModule (traceFrom (stateAfter Toy.env (Ex.start ++ [(5, .prepareLogin Ex.alice)] ++ Ex.between ++
      [(100, .login Ex.aliceSig Ex.alice Ex.key p.nonce)])) Ex.afterwards) ∧
    (∀ x ∈ Ex.afterwards, ∀ sig' addr' nonce', x.2 ≠ .login sig' addr' Ex.key nonce') ∧
    (∀ x ∈ Ex.afterwards, x.1.toNat ≤ 30000000000) ∧ 30000000000 < min (100 + minute) (2 ^ 64 - 1) ∧
    RefusalsHarmless (trace Toy.env (Ex.start ++ [(5, .prepareLogin Ex.alice)] ++ Ex.between ++
      [(100, .login Ex.aliceSig Ex.alice Ex.key (Ex.nonce 3))] ++ Ex.afterwards)) := by
  have hl : ∃ d, (step (stateAfter Toy.env (Ex.start ++ [(5, .prepareLogin Ex.alice)])) 100
      (.login Ex.aliceSig Ex.alice Ex.key (Ex.nonce 3))).2 = .loggedIn d := ⟨Ex.details, by decide +kernel⟩
  obtain ⟨_, h2, ⟨m, txt, h3, h4⟩, h5, h6⟩ := (C14_success_iff _ _ _ _ _ _ _).mp hl
  have hp : ∃ p, (step (stateAfter Toy.env Ex.start) 5 (.prepareLogin Ex.alice)).2 = .prepared p ∧ p.nonce = Ex.nonce 3 := by
    have h : (match (step (stateAfter Toy.env Ex.start) 5 (.prepareLogin Ex.alice)).2 with
      | .prepared p => decide (p.nonce = Ex.nonce 3) | _ => false) = true := by decide +kernel
    split at h
    · next p h' => exact ⟨p, h', by simpa using h⟩
    · cases h
  obtain ⟨p, hp, hn⟩ := hp
  have htxt : p.siweMessage = txt := by
    obtain ⟨s, m', g1, g2, g3, g4, g5, g6, g7⟩ := prepared_pending Ex.start 5 Ex.alice p hp
    obtain ⟨⟨bs, _, b2, b3⟩, _, h3⟩ := h3
    obtain ⟨bs', _, b2', b3'⟩ := g4
    rw [hn, spells_unique b2' b2, b3] at b3'
    cases b3'
    exact Res.ok.inj (g7.symm.trans h3)
  refine ⟨p, hp, hn, h2, htxt ▸ h4, h5, h6, sameModule_of_ops _ _ rfl, ?_, ?_, ?_, ?_, ?_, ?_, ?_, ?_⟩
  · intro e he
    simp only [Ex.between, traceFrom, List.mem_cons, List.not_mem_nil, or_false] at he
    subst he
    have hne : Ex.bob ≠ Ex.alice := by decide +kernel
    rintro (⟨_, h, _⟩ | ⟨_, _, h⟩)
    · exact hne (by simpa using h)
    · cases h
  · intro x hx sig' addr' nonce'
    simp only [Ex.start, Ex.between, List.cons_append, List.nil_append, List.mem_cons, List.not_mem_nil, or_false] at hx
    rcases hx with rfl | rfl | rfl <;> simp
  · intro x hx
    simp only [Ex.between, List.mem_cons, List.not_mem_nil, or_false] at hx
    subst hx; decide
  · exact sameModule_of_ops _ Ex.afterwards rfl
  · intro x hx sig' addr' nonce'
    simp only [Ex.afterwards, List.mem_cons, List.not_mem_nil, or_false] at hx
    subst hx; simp [Ex.key]
  · intro x hx
    simp only [Ex.afterwards, List.mem_cons, List.not_mem_nil, or_false] at hx
    subst hx; decide
  · unfold minute; decide
  · exact refusalsHarmless_of_none (by decide +kernel)

/-! ### C20 -/

/-- C20, exactly how far it holds: for a user who prepared a sign-in and can sign, no login with that message is answered with a
delegation that has expired if and only if sessions are configured to last at least as long as sign-ins. -/
theorem C20_exact (E : Env) (h : History) (t0 : UInt64) (addr sig key : Bytes) (p : PrepareLoginOkResponse) (s : Settings)
    (hp : (step (stateAfter E h) t0 (.prepareLogin addr)).2 = .prepared p)
    (hsig : HexString 130 sig) (hsigns : Signs E sig p.siweMessage addr) (hk : key ≠ []) (hder : E.derOk key = true)
    (hs : (stateAfter E h).lib.settings = some s) (ht : t0.toNat + s.signInExpiresIn.toNat < 2 ^ 64) :
    (∀ t1 d, (step (stateAfter E (h ++ [(t0, .prepareLogin addr)])) t1 (.login sig addr key p.nonce)).2 = .loggedIn d →
      t1.toNat < d.expiration.toNat) ↔ s.signInExpiresIn.toNat ≤ s.sessionExpiresIn.toNat := by
  obtain ⟨s', m, q1, q2, q3, q4, q5, q6, q7⟩ := prepared_pending h t0 addr p hp
  rw [hs] at q1
  cases q1
  -- the answers at each time
  have ok : ∀ t1 : UInt64, t1.toNat < m.expirationTime.toNat →
      ∃ d, (step (stateAfter E (h ++ [(t0, .prepareLogin addr)])) t1 (.login sig addr key p.nonce)).2 = .loggedIn d :=
    fun t1 h1 => (C14_success_iff E _ t1 sig addr key p.nonce).mpr ⟨q3, hsig, ⟨m, p.siweMessage, ⟨q4, h1, q7⟩, hsigns⟩, hk, hder⟩
  have exp : ∀ (t1 : UInt64) d, (step (stateAfter E (h ++ [(t0, .prepareLogin addr)])) t1 (.login sig addr key p.nonce)).2 = .loggedIn d →
      t1.toNat < m.expirationTime.toNat ∧ d.expiration.toNat = min (t0.toNat + s.sessionExpiresIn.toNat) (2 ^ 64 - 1) := by
    intro t1 d hd
    have hdec := C14_decision E (h ++ [(t0, .prepareLogin addr)]) t1 sig addr key p.nonce
    rw [hd] at hdec
    cases hdec with
    | success m' txt s' seed _ g1 g2 g3 g4 g5 g6 g7 g8 g9 g10 =>
      rw [q2] at g7; cases g7
      obtain ⟨bs, b1, b2, b3⟩ := q4
      obtain ⟨⟨bs', c1, c2, c3⟩, hlt, _⟩ := g3
      have : bs = bs' := by
        have e1 := (hexDecode_ok_iff _ _).mpr b2
        have e2 := (hexDecode_ok_iff _ _).mpr c2
        rw [e1] at e2
        exact Res.ok.inj e2
      subst this
      rw [b3] at c3
      cases c3
      exact ⟨hlt, by rw [g9, q5]⟩
  constructor
  · intro hall
    by_contra hlt
    have hlt : s.sessionExpiresIn.toNat < s.signInExpiresIn.toNat := by omega
    have hb : t0.toNat + s.sessionExpiresIn.toNat < 2 ^ 64 := by omega
    have h1 : (UInt64.ofNat (t0.toNat + s.sessionExpiresIn.toNat)).toNat = t0.toNat + s.sessionExpiresIn.toNat := by
      rw [UInt64.toNat_ofNat']
      exact Nat.mod_eq_of_lt hb
    obtain ⟨d, hd⟩ := ok (UInt64.ofNat (t0.toNat + s.sessionExpiresIn.toNat)) (by omega)
    have := hall _ d hd
    have := (exp _ d hd).2
    omega
  · intro hle t1 d hd
    have := exp t1 d hd
    omega

/-- Non-vacuity: the example user above meets the hypotheses; the periods there are the defaults, and those of `Ex.shortSessions` are
the other way round. -/
example : ((stateAfter Toy.env Ex.start).lib.settings.map fun s => (s.signInExpiresIn, s.sessionExpiresIn)) =
      some (300000000000, 1800000000000) ∧
    ((stateAfter Toy.env (Ex.shortSessions.take 2)).lib.settings.map fun s => (s.signInExpiresIn, s.sessionExpiresIn)) =
      some (300000000000, 7) := by decide +kernel

end Siwe
