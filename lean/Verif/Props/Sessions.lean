import Verif.Lemmas.Provenance
import Verif.Examples.Histories
/- Properties C15-C21 and C49: logins in histories. -/
namespace Siwe
open Spec

/-- C42: the settings the canister works with are exactly those given to the last successful installation or
upgrade. -/
theorem C42_settings_in_force (E : Env) (h : History) (s : Settings) (p : ProviderSettings) :
    InForce E (trace E h) s p ↔ (stateAfter E h).lib.settings = some s ∧ (stateAfter E h).settings = p :=
  ⟨inForce_state, fun ⟨h1, h2⟩ => h2 ▸ settings_inForce h1⟩

/-! ### C15 -/

/-- What a successful login shows about the state. -/
theorem login_success {E : Env} {h : History} {now : UInt64} {sig addr key nonce : Bytes} {d : LoginDetails}
    (hr : (step (stateAfter E h) now (.login sig addr key nonce)).2 = .loggedIn d) :
    IsAddress E.keccak addr ∧ ∃ bs before e after addr' nonce' text s,
      bs.length = 20 ∧ Spells (addr.drop 2) bs ∧
      trace E h = before ++ e :: after ∧ SameModule after ∧ e.Issues addr' nonce' text ∧
      ((addr' = addr ∧ nonce' = nonce) ∨ KeyCollision E addr nonce addr' nonce') ∧
      InForce E (trace E h) s (stateAfter E h).settings ∧ (stateAfter E h).lib.settings = some s ∧ ValidSettings E s ∧
      Signs E sig text addr ∧ now.toNat < min (e.time.toNat + s.signInExpiresIn.toNat) (2 ^ 64 - 1) ∧
      d.expiration.toNat = min (e.time.toNat + s.sessionExpiresIn.toNat) (2 ^ 64 - 1) ∧
      key ≠ [] ∧ E.derOk key = true ∧
      d.userCanisterPubkey = createUserCanisterPubkey E.canisterId (generateSeed E s ⟨addr⟩).bytes := by
  have hd := C14_decision E h now sig addr key nonce
  rw [hr] at hd
  cases hd with
  | success m txt s seed _ h1 h2 h3 h4 h5 h6 h7 h8 h9 h10 =>
    obtain ⟨⟨bs, b1, b2, b3⟩, hlt, ht⟩ := h3
    rcases pending_origin (inv_fresh E) h _ m b3 with ⟨_, g⟩ |
      ⟨before, e, after, addr', nonce', text, bs', s', g1, g2, g3, g4, g5, g6, g7, g8, g9, g10⟩
    · cases g
    · have : s' = s := Option.some.inj (g8.symm.trans h7)
      subst this
      have : txt = text := Res.ok.inj (ht.symm.trans (g10 Empty))
      subst this
      refine ⟨h1, bs, before, e, after, addr', nonce', txt, s', b1, b2, g1, g2, g3,
        storeKey_inj h1 g4 b2 g6 b1 g5 g7, settings_inForce h7, h7, (inv_stateAfter E h).valid s' h7, h4, ?_, ?_, h5, h6, ?_⟩
      · rw [g9] at hlt
        simpa [SiweMessage.new, satAdd_toNat] using hlt
      · rw [g9] at h9
        simpa [SiweMessage.new] using h9
      · rw [h10, isSeed_unique h8 (isSeed_generate E s' addr)]

/-- C15: a successful login uses a message that `siwe_prepare_login` returned since the last installation or upgrade,
less than the configured time ago, and its signature recovers the address over that text; the message was issued for
this address with this nonce, or the storage keys exhibit a SHA-256 collision. -/
theorem C15_login_needs_a_signed_fresh_message (E : Env) (h : History) (now : UInt64) (sig addr key nonce : Bytes)
    (d : LoginDetails) (hr : (step (stateAfter E h) now (.login sig addr key nonce)).2 = .loggedIn d) :
    ∃ before e after addr' nonce' text s p, trace E h = before ++ e :: after ∧ SameModule after ∧
      e.Issues addr' nonce' text ∧
      ((addr' = addr ∧ nonce' = nonce) ∨ KeyCollision E addr nonce addr' nonce') ∧
      InForce E (trace E h) s p ∧ Signs E sig text addr ∧
      now.toNat < e.time.toNat + s.signInExpiresIn.toNat := by
  obtain ⟨_, _, before, e, after, addr', nonce', text, s, _, _, g1, g2, g3, g4, g5, _, _, g6, g7, _⟩ := login_success hr
  exact ⟨before, e, after, addr', nonce', text, s, _, g1, g2, g3, g4, g5, g6, by omega⟩

/-- Non-vacuity: the login of the example history succeeds; with another user's or a broken signature, another nonce
or too late it does not. -/
example : (step (stateAfter Toy.env Ex.prepared) 100 (.login Ex.aliceSig Ex.alice Ex.key (Ex.nonce 3))).2 =
      .loggedIn ⟨1800000000005, createUserCanisterPubkey Toy.env.canisterId
        (Toy.env.sha256 (identityString (ascii "s") Ex.alice none)).bytes⟩ ∧
    (step (stateAfter Toy.env Ex.prepared) 100 (.login Ex.bobSig Ex.alice Ex.key (Ex.nonce 3))).2 =
      .err (.login .addressMismatch) ∧
    (step (stateAfter Toy.env Ex.prepared) 100 (.login Ex.brokenSig Ex.alice Ex.key (Ex.nonce 3))).2 =
      .err (.login (.eth .invalidRecoveryId)) ∧
    (step (stateAfter Toy.env Ex.prepared) 100 (.login Ex.aliceSig Ex.alice Ex.key (Ex.nonce 4))).2 =
      .err (.login .messageNotFound) ∧
    (step (stateAfter Toy.env Ex.prepared) 300000000005 (.login Ex.aliceSig Ex.alice Ex.key (Ex.nonce 3))).2 =
      .err (.login .messageNotFound) ∧
    (step (stateAfter Toy.env Ex.prepared) 100 (.login Ex.aliceSig Ex.alice [1] (Ex.nonce 3))).2 =
      .err (.login (.delegation .sessionKeyNotDer)) ∧
    (step (stateAfter Toy.env Ex.prepared) 100 (.login (ascii "0x") Ex.alice [1] (Ex.nonce 3))).2 =
      .err (.eth .signatureFormatError) := by
  decide +kernel

/-! ### C16 -/

theorem issuesTo_iff (addr nonce : Bytes) (e : Event) : e.issuesTo addr nonce = true ↔ ∃ text, e.Issues addr nonce text := by
  obtain ⟨t, op, r⟩ := e
  unfold Event.issuesTo Event.Issues
  split
  · next a p h1 h2 =>
    simp only at h1 h2
    subst h1; subst h2
    obtain ⟨txt, n⟩ := p
    simp
  · next h =>
    simp only [Bool.false_eq_true, false_iff, not_exists, not_and]
    rintro text rfl rfl
    exact h _ _ rfl rfl

theorem logsInWith_iff (addr nonce : Bytes) (e : Event) :
    e.logsInWith addr nonce = true ↔ ∃ key d, e.LogsIn addr key nonce d := by
  obtain ⟨t, op, r⟩ := e
  unfold Event.logsInWith Event.LogsIn
  split
  · next sg a k n d h1 h2 =>
    simp only at h1 h2
    subst h1; subst h2
    simp only [Bool.and_eq_true, beq_iff_eq, Op.login.injEq, Reply.loggedIn.injEq]
    constructor
    · rintro ⟨rfl, rfl⟩; exact ⟨k, d, ⟨sg, rfl, rfl, rfl, rfl⟩, rfl⟩
    · rintro ⟨_, _, ⟨_, _, rfl, _, rfl⟩, _⟩; exact ⟨rfl, rfl⟩
  · next h =>
    simp only [Bool.false_eq_true, false_iff, not_exists, not_and]
    rintro k d ⟨sg, rfl⟩ rfl
    exact h _ _ _ _ _ rfl rfl

/-- 1 if a message is stored under the key. -/
def stored {E : Env} (st : State E) (k : Hash) : Nat := if (st.lib.messages.lookup k).isSome then 1 else 0

theorem stored_le {E : Env} {st st' : State E} {k : Hash}
    (h : ∀ m, st'.lib.messages.lookup k = some m → st.lib.messages.lookup k = some m) : stored st' k ≤ stored st k := by
  unfold stored
  cases h' : st'.lib.messages.lookup k with
  | none => simp
  | some m => rw [h m h']

theorem replay_count (E : Env) (h : History) {addr bs nonce : Bytes} (ha : IsAddress E.keccak addr) (hl : bs.length = 20)
    (hb : Spells (addr.drop 2) bs)
    (hnc : ∀ e ∈ trace E h, ∀ addr' nonce' text, e.Issues addr' nonce' text → ¬KeyCollision E addr nonce addr' nonce') :
    (trace E h).countP (Event.logsInWith addr nonce) + stored (stateAfter E h) (storeKey E bs nonce) ≤
      (trace E h).countP (Event.issuesTo addr nonce) := by
  induction h using history_induction with
  | nil => simp [trace, traceFrom, stored, stateAfter, run, State.fresh, LibState.initial]
  | snoc h now op ih =>
    have e1 : trace E (h ++ [(now, op)]) = trace E h ++ [⟨now, op, (step (stateAfter E h) now op).2⟩] := traceFrom_snoc _ _ _ _
    have e2 : stateAfter E (h ++ [(now, op)]) = (step (stateAfter E h) now op).1 := run_snoc _ _ _ _
    rw [e1] at hnc ⊢
    rw [e2]
    have ih := ih fun e he => hnc e (List.mem_append_left _ he)
    have hnc := hnc ⟨now, op, (step (stateAfter E h) now op).2⟩ (by simp)
    have hi := inv_stateAfter E h
    simp only [List.countP_append, List.countP_singleton]
    have carry : ∀ st' : State E, (∀ m, st'.lib.messages.lookup (storeKey E bs nonce) = some m →
          (stateAfter E h).lib.messages.lookup (storeKey E bs nonce) = some m) →
        stored st' (storeKey E bs nonce) ≤ stored (stateAfter E h) (storeKey E bs nonce) := fun _ h => stored_le h
    have noLog : (¬∃ key d, Event.LogsIn ⟨now, op, (step (stateAfter E h) now op).2⟩ addr key nonce d) →
        Event.logsInWith addr nonce ⟨now, op, (step (stateAfter E h) now op).2⟩ = false := by
      intro h; rw [← logsInWith_iff] at h; simpa using h
    cases effect hi now op with
    | reset i s p g1 g2 _ _ _ _ g5 =>
      rw [noLog (by rintro ⟨k, d, ⟨sg, h1⟩, _⟩; simp only at h1; rw [h1] at g1; rcases g1 with g1 | g1 <;> cases g1)]
      have := carry (step (stateAfter E h) now op).1 (by rw [g5]; intro m hm; cases hm)
      simp only [Bool.false_eq_true, if_false]
      omega
    | same g1 g2 g3 g4 _ _ g5 =>
      rw [noLog (by rintro ⟨k, d, ⟨sg, h1⟩, h2⟩; exact g4 d h2)]
      have := carry (step (stateAfter E h) now op).1 (by rw [g5]; exact fun m hm => hm)
      simp only [Bool.false_eq_true, if_false]
      omega
    | issued addr' bs' nonce' text s g1 g2 g3 g4 g5 _ _ _ _ g9 =>
      rw [noLog (by rintro ⟨k, d, ⟨sg, h1⟩, h2⟩; simp only at h1; rw [h1] at g4; cases g4)]
      simp only [Bool.false_eq_true, if_false]
      by_cases hk : storeKey E bs nonce = storeKey E bs' nonce'
      · rcases storeKey_inj ha g1 hb g3 hl g2 hk with ⟨rfl, rfl⟩ | hc
        · rw [(issuesTo_iff _ _ _).mpr ⟨text, g4, g5⟩]
          have : stored (step (stateAfter E h) now op).1 (storeKey E bs nonce') ≤ 1 := by unfold stored; split <;> omega
          simp only [if_true]
          omega
        · exact absurd hc (hnc _ _ _ ⟨g4, g5⟩)
      · have := carry (step (stateAfter E h) now op).1 (by rw [g9, if_neg hk]; exact fun m hm => hm)
        omega
    | attempted sig addr' key nonce' bs' g1 g2 g3 g4 g5 _ _ g7 g8 =>
      have hle := carry (step (stateAfter E h) now op).1 (fun m hm => ((g7 _ m).mp hm).1)
      by_cases hs : Event.logsInWith addr nonce ⟨now, op, (step (stateAfter E h) now op).2⟩ = true
      · rw [hs]
        obtain ⟨k, d, ⟨sg, h1⟩, h2⟩ := (logsInWith_iff _ _ _).mp hs
        simp only at h1 h2
        rw [h1] at g5
        obtain ⟨rfl, rfl, rfl, rfl⟩ := Op.login.inj g5
        have hbs : bs' = bs := spells_unique g4 hb
        subst hbs
        -- the message was there, and is not any more
        have hd := C14_decision E h now sg addr k nonce
        rw [h1] at h2
        rw [h2] at hd
        cases hd with
        | success m txt s seed _ _ _ h3 =>
          have hp := (pending_iff hl hb).mp h3.1
          have z1 : stored (stateAfter E h) (storeKey E bs' nonce) = 1 := by unfold stored; rw [hp]; rfl
          have z2 : stored (step (stateAfter E h) now op).1 (storeKey E bs' nonce) = 0 := by
            unfold stored
            cases hq : (step (stateAfter E h) now op).1.lib.messages.lookup (storeKey E bs' nonce) with
            | none => rfl
            | some m' => exact absurd rfl ((g7 _ m').mp hq).2.2
          rw [z2]
          simp only [if_true]
          omega
      · rw [Bool.not_eq_true] at hs
        rw [hs]
        simp only [Bool.false_eq_true, if_false]
        omega

/-- C16: for every address and nonce, logins never outnumber issued messages, or the storage keys of an issued message
exhibit a SHA-256 collision. -/
theorem C16_no_replay (E : Env) (h : History) (addr nonce : Bytes) :
    (trace E h).countP (Event.logsInWith addr nonce) ≤ (trace E h).countP (Event.issuesTo addr nonce) ∨
    ∃ e ∈ trace E h, ∃ addr' nonce' text, e.Issues addr' nonce' text ∧ KeyCollision E addr nonce addr' nonce' := by
  by_cases ha : IsAddress E.keccak addr
  · obtain ⟨bs, hl, hb⟩ := address_spelled ha
    by_cases hc : ∃ e ∈ trace E h, ∃ addr' nonce' text, e.Issues addr' nonce' text ∧ KeyCollision E addr nonce addr' nonce'
    · exact .inr hc
    · left
      have := replay_count E h ha hl hb (nonce := nonce) fun e he a n t hi hk => hc ⟨e, he, a, n, t, hi, hk⟩
      omega
  · left
    have : (trace E h).countP (Event.logsInWith addr nonce) = 0 := by
      rw [List.countP_eq_zero]
      intro e he hl
      obtain ⟨k, d, ⟨sg, h1⟩, h2⟩ := (logsInWith_iff _ _ _).mp hl
      obtain ⟨before, after, hb⟩ := List.append_of_mem he
      obtain ⟨h1', h2', _, _, e3, _⟩ := traceFrom_split hb
      rw [h1, h2] at e3
      have hd := C14_decision E h1' e.time sg addr k nonce
      rw [show (step (stateAfter E h1') e.time (.login sg addr k nonce)).2 = .loggedIn d from e3.symm] at hd
      cases hd with
      | success _ _ _ _ _ g => exact ha g
    omega

theorem attempt_spent (E : Env) (h1 h2 : History) (t : UInt64) (sig addr key nonce : Bytes) (m : SiweMessage)
    (ha : IsAddress E.keccak addr) (hs : HexString 130 sig)
    (hp : Pending (stateAfter E (h1 ++ (t, .login sig addr key nonce) :: h2)) addr nonce m) :
    ∃ e ∈ traceFrom (stateAfter E (h1 ++ [(t, .login sig addr key nonce)])) h2, ∃ addr' nonce' text,
      e.Issues addr' nonce' text ∧ ((addr' = addr ∧ nonce' = nonce) ∨ KeyCollision E addr nonce addr' nonce') := by
  have hi := inv_stateAfter E h1
  obtain ⟨bs, hl, hb, hp⟩ := hp
  have e1 : stateAfter E (h1 ++ (t, .login sig addr key nonce) :: h2) =
      (run (stateAfter E (h1 ++ [(t, .login sig addr key nonce)])) h2).1 := by
    rw [show h1 ++ (t, Op.login sig addr key nonce) :: h2 = (h1 ++ [(t, .login sig addr key nonce)]) ++ h2 by simp]
    exact run_append _ _ _
  rw [e1] at hp
  rcases pending_origin (inv_stateAfter E _) h2 _ m hp with ⟨_, g⟩ |
    ⟨before, e, after, addr', nonce', text, bs', s', g1, g2, g3, g4, g5, g6, g7, _⟩
  · exfalso
    have e2 : stateAfter E (h1 ++ [(t, .login sig addr key nonce)]) =
      (step (stateAfter E h1) t (.login sig addr key nonce)).1 := run_snoc _ _ _ _
    rw [e2] at g
    cases effect hi t (.login sig addr key nonce) with
    | reset _ _ _ g1 => rcases g1 with g1 | g1 <;> cases g1
    | same _ _ g3 => exact g3 _ _ _ _ rfl ha hs
    | issued _ _ _ _ _ _ _ _ g4 => cases g4
    | attempted _ _ _ _ bs' _ _ g3 g4 g5 _ _ g7 =>
      cases g5
      obtain ⟨_, _, hne⟩ := (g7 _ m).mp g
      rw [spells_unique g4 hb] at hne
      exact hne rfl
  · exact ⟨e, by rw [g1]; simp, addr', nonce', text, g3, storeKey_inj ha g4 hb g6 hl g5 g7⟩

/-- C16: after any login attempt with a well-formed address and signature, whatever its outcome, a login with the same
address and nonce succeeds only if a new message was issued in between (for them, or with a colliding storage key). -/
theorem C16_one_attempt (E : Env) (h1 h2 : History) (t now : UInt64) (sig sig' addr key key' nonce : Bytes)
    (d : LoginDetails) (ha : IsAddress E.keccak addr) (hs : HexString 130 sig)
    (hr : (step (stateAfter E (h1 ++ (t, .login sig addr key nonce) :: h2)) now (.login sig' addr key' nonce)).2 =
      .loggedIn d) :
    ∃ e ∈ traceFrom (stateAfter E (h1 ++ [(t, .login sig addr key nonce)])) h2, ∃ addr' nonce' text,
      e.Issues addr' nonce' text ∧ ((addr' = addr ∧ nonce' = nonce) ∨ KeyCollision E addr nonce addr' nonce') := by
  have hd := C14_decision E (h1 ++ (t, .login sig addr key nonce) :: h2) now sig' addr key' nonce
  rw [hr] at hd
  cases hd with
  | success m txt s seed _ _ _ h3 => exact attempt_spent E h1 h2 t sig addr key nonce m ha hs h3.1

/-- Non-vacuity: after the login the same nonce fails; after a failed attempt too. -/
example : ((trace Toy.env Ex.loggedIn).countP (Event.logsInWith Ex.alice (Ex.nonce 3)) = 1) ∧
    (step (stateAfter Toy.env Ex.loggedIn) 101 (.login Ex.aliceSig Ex.alice Ex.key (Ex.nonce 3))).2 =
      .err (.login .messageNotFound) ∧
    (step (stateAfter Toy.env (Ex.prepared ++ [(50, .login Ex.bobSig Ex.alice Ex.key (Ex.nonce 3))])) 101
      (.login Ex.aliceSig Ex.alice Ex.key (Ex.nonce 3))).2 = .err (.login .messageNotFound) := by
  decide +kernel

/-! ### C17 -/

/-- C17: a login attempt for a message whose time is up is answered "message not found", and the message is gone. -/
theorem C17_expired_never_logs_in (E : Env) (h : History) (now : UInt64) (sig addr key nonce : Bytes) (m : SiweMessage)
    (ha : IsAddress E.keccak addr) (hs : HexString 130 sig) (hp : Pending (stateAfter E h) addr nonce m)
    (hx : m.expirationTime.toNat ≤ now.toNat) :
    (step (stateAfter E h) now (.login sig addr key nonce)).2 = .err (.login .messageNotFound) ∧
      ∀ m', ¬Pending (step (stateAfter E h) now (.login sig addr key nonce)).1 addr nonce m' := by
  constructor
  · refine C14_one_answer _ _ _ _ _ _ _ _ (C14_decision E h now sig addr key nonce) (.notFound ha hs ?_)
    rintro ⟨m', txt, hp', hlt, _⟩
    obtain ⟨bs, hl, hb, h1⟩ := hp
    have := (pending_iff hl hb).mp hp'
    rw [storeKey, h1] at this
    cases this
    omega
  · rintro m' ⟨bs, hl, hb, h1⟩
    cases effect (inv_stateAfter E h) now (.login sig addr key nonce) with
    | reset _ _ _ g1 => rcases g1 with g1 | g1 <;> cases g1
    | same _ _ g3 => exact g3 _ _ _ _ rfl ha hs
    | issued _ _ _ _ _ _ _ _ g4 => cases g4
    | attempted _ _ _ _ bs' _ _ g3 g4 g5 _ _ g7 =>
      cases g5
      obtain ⟨_, _, hne⟩ := (g7 _ m').mp h1
      rw [spells_unique g4 hb] at hne
      exact hne rfl

/-- C17: no well-formed login attempt leaves any expired message behind. -/
theorem C17_expired_removed (E : Env) (h : History) (now : UInt64) (sig addr key nonce addr' nonce' : Bytes)
    (m : SiweMessage) (ha : IsAddress E.keccak addr) (hs : HexString 130 sig)
    (hp : Pending (step (stateAfter E h) now (.login sig addr key nonce)).1 addr' nonce' m) :
    now.toNat < m.expirationTime.toNat := by
  obtain ⟨bs, hl, hb, h1⟩ := hp
  cases effect (inv_stateAfter E h) now (.login sig addr key nonce) with
  | reset _ _ _ g1 => rcases g1 with g1 | g1 <;> cases g1
  | same _ _ g3 => exact (g3 _ _ _ _ rfl ha hs).elim
  | issued _ _ _ _ _ _ _ _ g4 => cases g4
  | attempted _ _ _ _ bs' _ _ g3 g4 g5 _ _ g7 => exact ((g7 _ m).mp h1).2.1

theorem pending_of_toy {st : State Toy.env} {addr nonce : Bytes} {bs : Bytes} {m : SiweMessage}
    (h1 : hexDecode (addr.drop 2) = .ok bs) (h2 : bs.length = 20)
    (h3 : st.lib.messages.lookup (Toy.env.sha256 (pendingKey bs nonce)) = some m) : Pending st addr nonce m :=
  ⟨bs, h2, (hexDecode_ok_iff _ _).mp h1, h3⟩

/-- The message stored for the first address of the example. -/
def Ex.message : SiweMessage :=
  SiweMessage.new (SettingsBuilder.new (ascii "a.com") (ascii "http://a.com") (ascii "s")) 5 ⟨Ex.alice⟩ (Ex.nonce 3)

theorem Ex.pending : Pending (stateAfter Toy.env Ex.prepared) Ex.alice (Ex.nonce 3) Ex.message :=
  pending_of_toy (bs := List.replicate 20 0x11) (by decide +kernel) (by decide) (by decide +kernel)

theorem Ex.aliceOk (E : Env) : IsAddress E.keccak Ex.alice := (isAddress_of_new (addressOnes_valid E)).1
theorem Ex.bobOk (E : Env) : IsAddress E.keccak Ex.bob := (isAddress_of_new (addressTwos_valid E)).1
theorem Ex.aliceSigOk : HexString 130 Ex.aliceSig :=
  ((ethSignature_new_ok_iff Ex.aliceSig ⟨Ex.aliceSig⟩).mp (by decide +kernel)).1

example : IsAddress Toy.env.keccak Ex.alice ∧ HexString 130 Ex.aliceSig ∧
    Pending (stateAfter Toy.env Ex.prepared) Ex.alice (Ex.nonce 3) Ex.message ∧
    Ex.message.expirationTime = 300000000005 :=
  ⟨Ex.aliceOk _, Ex.aliceSigOk, Ex.pending, by decide +kernel⟩

/-! ### C18 -/

/-- C18: a login call that does not succeed adds no signature and changes no mapping and no certified data. -/
theorem C18_failure_grants_nothing (E : Env) (h : History) (now : UInt64) (sig addr key nonce : Bytes)
    (hf : ∀ d, (step (stateAfter E h) now (.login sig addr key nonce)).2 ≠ .loggedIn d) :
    let after := (step (stateAfter E h) now (.login sig addr key nonce)).1
    (∀ s d, Holds after.sigMap s d → Holds (stateAfter E h).sigMap s d) ∧
    after.principalAddress = (stateAfter E h).principalAddress ∧
    after.addressPrincipal = (stateAfter E h).addressPrincipal ∧
    after.certifiedData = (stateAfter E h).certifiedData := by
  have hi := inv_stateAfter E h
  generalize stateAfter E h = st at hi hf ⊢
  have hc := step_case hi now (.login sig addr key nonce)
  generalize (step st now (.login sig addr key nonce)).1 = st' at hc ⊢
  generalize (step st now (.login sig addr key nonce)).2 = r at hc hf
  cases hc with
  | found _ _ _ _ bs m txt st'' r' _ _ _ _ _ _ _ hf' =>
    cases hf' with
    | badSignature e _ => exact ⟨fun _ _ h => h, rfl, rfl, rfl⟩
    | badKey s n sm e _ _ hp _ =>
      obtain ⟨_, sm1, h1, _, _, h4⟩ := SigMap.ok_prune LoginError hi.sigs now maxSigsToPrune
      rw [hp] at h1; cases h1
      exact ⟨fun s d h => ((h4 s d).mp h).1, rfl, rfl, rfl⟩
    | success s n sm sm' d dh => exact absurd rfl (hf _)
  | _ => exact ⟨fun _ _ h => h, rfl, rfl, rfl⟩

/-- C18: an unexpired pending message of another address or nonce survives any login call, or the storage keys exhibit
a SHA-256 collision. -/
theorem C18_others_keep_their_messages (E : Env) (h : History) (now : UInt64) (sig addr key nonce addr' nonce' : Bytes)
    (m : SiweMessage) (hp : Pending (stateAfter E h) addr' nonce' m) (ha : IsAddress E.keccak addr')
    (hlt : now.toNat < m.expirationTime.toNat) (hne : ¬(addr = addr' ∧ nonce = nonce')) :
    Pending (step (stateAfter E h) now (.login sig addr key nonce)).1 addr' nonce' m ∨
      KeyCollision E addr' nonce' addr nonce := by
  obtain ⟨bs, hl, hb, h1⟩ := hp
  cases effect (inv_stateAfter E h) now (.login sig addr key nonce) with
  | reset _ _ _ g1 => rcases g1 with g1 | g1 <;> cases g1
  | same _ _ _ _ _ _ g5 => left; exact ⟨bs, hl, hb, by rw [g5]; exact h1⟩
  | issued _ _ _ _ _ _ _ _ g4 => cases g4
  | attempted _ _ _ _ bs' g1 g2 g3 g4 g5 _ _ g7 =>
    cases g5
    by_cases hk : storeKey E bs nonce' = storeKey E bs' nonce
    · exact .inr ((storeKey_inj ha g1 hb g4 hl g3 hk).resolve_left hne)
    · exact .inl ⟨bs, hl, hb, (g7 _ m).mpr ⟨h1, hlt, hk⟩⟩

example : (∀ d, (step (stateAfter Toy.env Ex.loggedIn) 100 (.login Ex.aliceSig Ex.bob Ex.key (Ex.nonce 4))).2 ≠
      .loggedIn d) ∧ Pending (stateAfter Toy.env Ex.prepared) Ex.alice (Ex.nonce 3) Ex.message ∧
    (100 : UInt64).toNat < Ex.message.expirationTime.toNat := by
  refine ⟨?_, Ex.pending, by decide +kernel⟩
  rw [show (step (stateAfter Toy.env Ex.loggedIn) 100 (.login Ex.aliceSig Ex.bob Ex.key (Ex.nonce 4))).2 =
    .err (.login .addressMismatch) by decide +kernel]
  simp

/-! ### C19 -/

/-- C19: the returned expiration is the issue time of the used message plus the configured session time (at most the
largest time), and if times do not decrease it is at most the login time plus the session time. -/
theorem C19_expiration (E : Env) (h : History) (now : UInt64) (sig addr key nonce : Bytes) (d : LoginDetails)
    (hr : (step (stateAfter E h) now (.login sig addr key nonce)).2 = .loggedIn d) :
    ∃ before e after addr' nonce' text s p, trace E h = before ++ e :: after ∧ SameModule after ∧
      e.Issues addr' nonce' text ∧ ((addr' = addr ∧ nonce' = nonce) ∨ KeyCollision E addr nonce addr' nonce') ∧
      InForce E (trace E h) s p ∧
      d.expiration.toNat = min (e.time.toNat + s.sessionExpiresIn.toNat) (2 ^ 64 - 1) ∧
      ((∀ x ∈ trace E h, x.time.toNat ≤ now.toNat) → d.expiration.toNat ≤ now.toNat + s.sessionExpiresIn.toNat) := by
  obtain ⟨_, _, before, e, after, addr', nonce', text, s, _, _, g1, g2, g3, g4, g5, _, _, g6, g7, g8, _⟩ := login_success hr
  refine ⟨before, e, after, addr', nonce', text, s, _, g1, g2, g3, g4, g5, g8, fun hm => ?_⟩
  have := hm e (by rw [g1]; simp)
  omega

example : ∃ d, (step (stateAfter Toy.env Ex.prepared) 100 (.login Ex.aliceSig Ex.alice Ex.key (Ex.nonce 3))).2 =
    .loggedIn d ∧ d.expiration = 1800000000005 := by
  exact ⟨⟨1800000000005,
    createUserCanisterPubkey Toy.env.canisterId (Toy.env.sha256 (identityString (ascii "s") Ex.alice none)).bytes⟩,
    by decide +kernel, rfl⟩

/-! ### C20 -/

/-- Sessions of seven nanoseconds. -/
def Ex.shortSessions : History :=
  [(1, .install { Ex.input with sessionExpiresIn := some 7 }), (2, .rngSeeded [1, 2, 3]), (5, .prepareLogin Ex.alice)]

/-- C20 is false of the code: accepted settings, and a login at time 100 that returns a delegation that expired at
time 12. -/
theorem C20_expired_delegation_granted : ∃ (E : Env) (h : History) (now : UInt64) (sig addr key nonce : Bytes)
    (d : LoginDetails), (step (stateAfter E h) now (.login sig addr key nonce)).2 = .loggedIn d ∧
      d.expiration.toNat < now.toNat := by
  refine ⟨Toy.env, Ex.shortSessions, 100, Ex.aliceSig, Ex.alice, Ex.key, Ex.nonce 3,
    ⟨12, createUserCanisterPubkey Toy.env.canisterId (Toy.env.sha256 (identityString (ascii "s") Ex.alice none)).bytes⟩,
    by decide +kernel, by decide⟩

/-- C20, when sessions are configured to last at least as long as sign-ins.  Missing: other configurations, which are
accepted and for which it is false (`C20_expired_delegation_granted`). -/
theorem C20_unexpired_partial (E : Env) (h : History) (now : UInt64) (sig addr key nonce : Bytes) (d : LoginDetails)
    (hr : (step (stateAfter E h) now (.login sig addr key nonce)).2 = .loggedIn d)
    (hc : ∀ s p, InForce E (trace E h) s p → s.signInExpiresIn.toNat ≤ s.sessionExpiresIn.toNat) :
    now.toNat < d.expiration.toNat := by
  obtain ⟨_, _, before, e, after, addr', nonce', text, s, _, _, g1, g2, g3, g4, g5, _, _, g6, g7, g8, _⟩ := login_success hr
  have := hc s _ g5
  omega

example : (∃ d, (step (stateAfter Toy.env Ex.prepared) 100 (.login Ex.aliceSig Ex.alice Ex.key (Ex.nonce 3))).2 =
      .loggedIn d) ∧
    ∀ s p, InForce Toy.env (trace Toy.env Ex.prepared) s p → s.signInExpiresIn.toNat ≤ s.sessionExpiresIn.toNat := by
  refine ⟨⟨⟨1800000000005,
    createUserCanisterPubkey Toy.env.canisterId (Toy.env.sha256 (identityString (ascii "s") Ex.alice none)).bytes⟩,
    by decide +kernel⟩, fun s p hf => ?_⟩
  have h1 := (inForce_state hf).1
  have h2 : (stateAfter Toy.env Ex.prepared).lib.settings =
    some (SettingsBuilder.new (ascii "a.com") (ascii "http://a.com") (ascii "s")) := by decide +kernel
  rw [h2] at h1
  cases h1
  decide

/-! ### C21 -/

/-- C21: two successful logins for one address, in any histories, whose settings in force agree on salt, on the URI
feature, and with the feature on the URI, return the same public key. -/
theorem C21_same_address_same_identity (E : Env) (h h' : History) (now now' : UInt64) (sig sig' addr key key' nonce nonce' : Bytes)
    (d d' : LoginDetails) (s s' : Settings) (p p' : ProviderSettings)
    (hr : (step (stateAfter E h) now (.login sig addr key nonce)).2 = .loggedIn d)
    (hr' : (step (stateAfter E h') now' (.login sig' addr key' nonce')).2 = .loggedIn d')
    (hs : InForce E (trace E h) s p) (hs' : InForce E (trace E h') s' p')
    (salt : s.salt = s'.salt) (feature : UsesUri s ↔ UsesUri s') (uri : UsesUri s → s.uri = s'.uri) :
    d.userCanisterPubkey = d'.userCanisterPubkey := by
  obtain ⟨_, _, _, _, _, _, _, _, s1, _, _, _, _, _, _, _, k1, _, _, _, _, _, _, e1⟩ := login_success hr
  obtain ⟨_, _, _, _, _, _, _, _, s2, _, _, _, _, _, _, _, k2, _, _, _, _, _, _, e2⟩ := login_success hr'
  rw [(inForce_state hs).1] at k1
  rw [(inForce_state hs').1] at k2
  cases k1; cases k2
  rw [e1, e2]
  by_cases hu : UsesUri s
  · exact C24_with_feature E s s' _ hu (feature.mp hu) salt (uri hu)
  · exact C24_without_feature E s s' _ hu (fun h => hu (feature.mpr h)) salt

/-- C22, as users see it: two successful logins for different addresses, in any histories, whose settings in force agree on salt, on the
URI feature, and with the feature on the URI, return different public keys with different principals, or exhibit a collision of SHA-256
on the two identity strings, or of SHA-224 on the two keys. -/
theorem C22_logins_differ (E : Env) (h h' : History) (now now' : UInt64) (sig sig' addr addr' key key' nonce nonce' : Bytes)
    (d d' : LoginDetails) (s s' : Settings) (p p' : ProviderSettings) (hne : addr ≠ addr')
    (hr : (step (stateAfter E h) now (.login sig addr key nonce)).2 = .loggedIn d)
    (hr' : (step (stateAfter E h') now' (.login sig' addr' key' nonce')).2 = .loggedIn d')
    (hs : InForce E (trace E h) s p) (hs' : InForce E (trace E h') s' p')
    (salt : s.salt = s'.salt) (feature : UsesUri s ↔ UsesUri s') (uri : UsesUri s → s.uri = s'.uri) :
    (∃ x y, IdentityInput s addr x ∧ IdentityInput s addr' y ∧ Collision E.sha256 x y) ∨
    d.userCanisterPubkey ≠ d'.userCanisterPubkey ∧
      (principalOfKey E d.userCanisterPubkey ≠ principalOfKey E d'.userCanisterPubkey ∨
        Collision E.sha224 d.userCanisterPubkey d'.userCanisterPubkey) := by
  obtain ⟨a1, _, _, _, _, _, _, _, s1, _, _, _, _, _, _, _, k1, _, _, _, _, _, _, e1⟩ := login_success hr
  obtain ⟨a2, _, _, _, _, _, _, _, s2, _, _, _, _, _, _, _, k2, _, _, _, _, _, _, e2⟩ := login_success hr'
  rw [(inForce_state hs).1] at k1
  rw [(inForce_state hs').1] at k2
  cases k1; cases k2
  have e3 : generateSeed E s' ⟨addr'⟩ = generateSeed E s ⟨addr'⟩ := by
    have hi : identityUri s' = identityUri s := by
      unfold identityUri
      by_cases hu : UsesUri s
      · rw [if_pos hu, if_pos (feature.mp hu), uri hu]
      · rw [if_neg hu, if_neg fun g => hu (feature.mpr g)]
    unfold generateSeed
    rw [seedInput_eq, seedInput_eq, hi, salt]
  rw [e3] at e2
  have b1 : EthAddress.new E addr = .ok ⟨addr⟩ := (ethAddress_new_ok_iff E addr ⟨addr⟩).mpr ⟨a1, rfl⟩
  have b2 : EthAddress.new E addr' = .ok ⟨addr'⟩ := (ethAddress_new_ok_iff E addr' ⟨addr'⟩).mpr ⟨a2, rfl⟩
  by_cases hc : ∃ x y, IdentityInput s addr x ∧ IdentityInput s addr' y ∧ Collision E.sha256 x y
  · exact .inl hc
  refine .inr ⟨fun g => ?_, ?_⟩
  · rw [e1, e2] at g
    rcases C22_keys_differ E s ⟨addr⟩ ⟨addr'⟩ b1 b2 g with g | g
    · exact hne (EthAddress.mk.inj g)
    · exact hc g
  · by_cases g : principalOfKey E d.userCanisterPubkey = principalOfKey E d'.userCanisterPubkey
    · rw [e1, e2] at g ⊢
      rcases C22_principals_differ E s ⟨addr⟩ ⟨addr'⟩ b1 b2 g with g | g | g
      · exact absurd (EthAddress.mk.inj g) hne
      · exact .inr g
      · exact absurd g hc
    · exact .inl g

/-- Other chain, other session key, other time, other history: the same key. -/
def Ex.otherHistory : History :=
  [(1, .install { Ex.input with chainId := some 10, domain := ascii "b.com" }), (2, .rngSeeded [1]),
   (50, .prepareLogin Ex.bob), (60, .prepareLogin Ex.alice)]

example : (step (stateAfter Toy.env Ex.prepared) 100 (.login Ex.aliceSig Ex.alice Ex.key (Ex.nonce 3))).2 =
      .loggedIn ⟨1800000000005, createUserCanisterPubkey Toy.env.canisterId
        (Toy.env.sha256 (identityString (ascii "s") Ex.alice none)).bytes⟩ ∧
    (step (stateAfter Toy.env Ex.otherHistory) 100 (.login Ex.aliceSig Ex.alice [48, 9] (Ex.nonce 2))).2 =
      .loggedIn ⟨1800000000060, createUserCanisterPubkey Toy.env.canisterId
        (Toy.env.sha256 (identityString (ascii "s") Ex.alice none)).bytes⟩ := by
  decide +kernel

/-! ### C49 -/

theorem pending_survives {E : Env} {s0 : State E} (hi : Inv s0) (h' : History) (addr nonce : Bytes) (m : SiweMessage)
    (ha : IsAddress E.keccak addr) (hp : Pending s0 addr nonce m) (hm : SameModule (traceFrom s0 h'))
    (ho : ∀ e ∈ traceFrom s0 h', ¬e.Concerns addr nonce) (ht : ∀ e ∈ traceFrom s0 h', e.time.toNat < m.expirationTime.toNat) :
    Pending (run s0 h').1 addr nonce m ∨
      ∃ e ∈ traceFrom s0 h', ∃ addr' nonce', e.Concerns addr' nonce' ∧ KeyCollision E addr nonce addr' nonce' := by
  induction h' using history_induction with
  | nil => exact .inl hp
  | snoc h' now op ih =>
    rw [traceFrom_snoc] at *
    rw [run_snoc]
    have lift : ∀ {P : Event → Prop} {es : List Event} {e : Event}, (∃ x ∈ es, P x) → ∃ x ∈ es ++ [e], P x :=
      fun ⟨x, hx, h⟩ => ⟨x, List.mem_append_left _ hx, h⟩
    rcases ih (fun e he => hm e (List.mem_append_left _ he)) (fun e he => ho e (List.mem_append_left _ he))
      (fun e he => ht e (List.mem_append_left _ he)) with hp' | hc
    · have hm := hm ⟨now, op, (step (run s0 h').1 now op).2⟩ (by simp)
      have ho := ho ⟨now, op, (step (run s0 h').1 now op).2⟩ (by simp)
      have ht := ht ⟨now, op, (step (run s0 h').1 now op).2⟩ (by simp)
      obtain ⟨bs, hl, hb, h1⟩ := hp'
      cases effect (inv_run hi h') now op with
      | reset i _ _ g1 g2 => exact absurd ⟨i, g1, g2⟩ hm
      | same _ _ _ _ _ _ g5 => exact .inl ⟨bs, hl, hb, by rw [g5]; exact h1⟩
      | issued addr' bs' nonce' text s g1 g2 g3 g4 g5 _ _ _ _ g9 =>
        by_cases hk : storeKey E bs nonce = storeKey E bs' nonce'
        · rcases storeKey_inj ha g1 hb g3 hl g2 hk with ⟨rfl, rfl⟩ | hc
          · exact absurd (.inl ⟨text, g4, g5⟩) ho
          · exact .inr ⟨⟨now, op, (step (run s0 h').1 now op).2⟩, by simp, addr', nonce', .inl ⟨text, g4, g5⟩, hc⟩
        · exact .inl ⟨bs, hl, hb, by rw [show E.sha256 (pendingKey bs nonce) = storeKey E bs nonce from rfl, g9, if_neg hk]; exact h1⟩
      | attempted sig addr' key nonce' bs' g1 g2 g3 g4 g5 _ _ g7 =>
        by_cases hk : storeKey E bs nonce = storeKey E bs' nonce'
        · rcases storeKey_inj ha g1 hb g4 hl g3 hk with ⟨rfl, rfl⟩ | hc
          · exact absurd (.inr ⟨sig, key, g5⟩) ho
          · exact .inr ⟨⟨now, op, (step (run s0 h').1 now op).2⟩, by simp, addr', nonce', .inr ⟨sig, key, g5⟩, hc⟩
        · exact .inl ⟨bs, hl, hb, (g7 _ m).mpr ⟨h1, ht, hk⟩⟩
    · exact .inr (lift hc)

/-- C49: calls that neither use nor reissue an address's pending message leave it in place as long as it is unexpired
(no reinstallation), or one of them exhibits a SHA-256 collision of storage keys. -/
theorem C49_others_do_not_interfere (E : Env) (h h' : History) (addr nonce : Bytes) (m : SiweMessage)
    (ha : IsAddress E.keccak addr) (hp : Pending (stateAfter E h) addr nonce m)
    (hm : SameModule (traceFrom (stateAfter E h) h'))
    (ho : ∀ e ∈ traceFrom (stateAfter E h) h', ¬e.Concerns addr nonce)
    (ht : ∀ e ∈ traceFrom (stateAfter E h) h', e.time.toNat < m.expirationTime.toNat) :
    Pending (stateAfter E (h ++ h')) addr nonce m ∨
      ∃ e ∈ traceFrom (stateAfter E h) h', ∃ addr' nonce', e.Concerns addr' nonce' ∧ KeyCollision E addr nonce addr' nonce' := by
  rw [show stateAfter E (h ++ h') = (run (stateAfter E h) h').1 from run_append _ _ _]
  exact pending_survives (inv_stateAfter E h) h' addr nonce m ha hp hm ho ht

/-- C49: and the address can still log in with it. -/
theorem C49_still_usable (E : Env) (h h' : History) (addr nonce : Bytes) (m : SiweMessage) (txt : Bytes)
    (ha : IsAddress E.keccak addr) (hp : Pending (stateAfter E h) addr nonce m)
    (hm : SameModule (traceFrom (stateAfter E h) h'))
    (ho : ∀ e ∈ traceFrom (stateAfter E h) h', ¬e.Concerns addr nonce)
    (ht : ∀ e ∈ traceFrom (stateAfter E h) h', e.time.toNat < m.expirationTime.toNat)
    (now : UInt64) (sig key : Bytes) (hn : now.toNat < m.expirationTime.toNat) (hs : HexString 130 sig)
    (htxt : (m.text : Res Empty Bytes) = .ok txt) (hsig : Signs E sig txt addr) (hk : key ≠ []) (hder : E.derOk key = true) :
    (∃ d, (step (stateAfter E (h ++ h')) now (.login sig addr key nonce)).2 = .loggedIn d) ∨
      ∃ e ∈ traceFrom (stateAfter E h) h', ∃ addr' nonce', e.Concerns addr' nonce' ∧ KeyCollision E addr nonce addr' nonce' := by
  rcases C49_others_do_not_interfere E h h' addr nonce m ha hp hm ho ht with hp' | hc
  · exact .inl ((C14_success_iff E (h ++ h') now sig addr key nonce).mpr ⟨ha, hs, ⟨m, txt, ⟨hp', hn, htxt⟩, hsig⟩, hk, hder⟩)
  · exact .inr hc

/-- C49: calls that do not issue a message to the address with the nonce do not create one for it. -/
theorem C49_cannot_create (E : Env) (h h' : History) (addr nonce : Bytes) (m : SiweMessage) (ha : IsAddress E.keccak addr)
    (hp : Pending (stateAfter E (h ++ h')) addr nonce m)
    (ho : ∀ e ∈ traceFrom (stateAfter E h) h', ∀ text, ¬e.Issues addr nonce text) :
    Pending (stateAfter E h) addr nonce m ∨
      ∃ e ∈ traceFrom (stateAfter E h) h', ∃ addr' nonce' text, e.Issues addr' nonce' text ∧
        KeyCollision E addr nonce addr' nonce' := by
  rw [show stateAfter E (h ++ h') = (run (stateAfter E h) h').1 from run_append _ _ _] at hp
  obtain ⟨bs, hl, hb, h1⟩ := hp
  rcases pending_origin (inv_stateAfter E h) h' _ m h1 with ⟨_, g⟩ |
      ⟨before, e, after, addr', nonce', text, bs', s', g1, g2, g3, g4, g5, g6, g7, _⟩
  · exact .inl ⟨bs, hl, hb, g⟩
  · have he : e ∈ traceFrom (stateAfter E h) h' := by rw [g1]; simp
    rcases storeKey_inj ha g4 hb g6 hl g5 g7 with ⟨rfl, rfl⟩ | hc
    · exact absurd g3 (ho e he text)
    · exact .inr ⟨e, he, addr', nonce', text, g3, hc⟩

/-- Non-vacuity: another user's calls after the example history, all hypotheses met. -/
def Ex.others : History :=
  [(7, .prepareLogin Ex.bob), (8, .login Ex.bobSig Ex.bob Ex.key (Ex.nonce 4)), (9, .login Ex.bobSig Ex.bob Ex.key (Ex.nonce 3))]

example : SameModule (traceFrom (stateAfter Toy.env Ex.prepared) Ex.others) ∧
    (∀ e ∈ traceFrom (stateAfter Toy.env Ex.prepared) Ex.others, ¬e.Concerns Ex.alice (Ex.nonce 3)) ∧
    (∀ e ∈ traceFrom (stateAfter Toy.env Ex.prepared) Ex.others, e.time.toNat < Ex.message.expirationTime.toNat) ∧
    ∃ d, (step (stateAfter Toy.env (Ex.prepared ++ Ex.others)) 10 (.login Ex.aliceSig Ex.alice Ex.key (Ex.nonce 3))).2 =
      .loggedIn d := by
  have hne : Ex.bob ≠ Ex.alice := by decide +kernel
  refine ⟨?_, ?_, ?_, ⟨⟨1800000000005,
    createUserCanisterPubkey Toy.env.canisterId (Toy.env.sha256 (identityString (ascii "s") Ex.alice none)).bytes⟩,
    by decide +kernel⟩⟩
  · intro e he
    simp only [Ex.others, traceFrom, List.mem_cons, List.not_mem_nil, or_false] at he
    rcases he with rfl | rfl | rfl <;> simp [Event.Reinstalls]
  · intro e he
    simp only [Ex.others, traceFrom, List.mem_cons, List.not_mem_nil, or_false] at he
    rcases he with rfl | rfl | rfl <;> simp [Event.Concerns, Event.Issues, Event.Attempts, hne]
  · intro e he
    rw [show Ex.message.expirationTime.toNat = 300000000005 by decide +kernel]
    simp only [Ex.others, traceFrom, List.mem_cons, List.not_mem_nil, or_false] at he
    rcases he with rfl | rfl | rfl <;> simp

end Siwe
