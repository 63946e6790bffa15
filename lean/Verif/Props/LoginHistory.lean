import Verif.Props.Nonces
import Verif.Props.Delegations
import Verif.Spec.Awaiting
/-
C91: what `siwe_login` answers, told from the calls answered so far.
-/
namespace Siwe
open Spec

/-- A message stored under the key survives the call. -/
def SparesKey (E : Env) (k : Hash) (m : SiweMessage) (x : Event) : Prop :=
  (∀ a n t bs, x.Issues a n t → IsAddress E.keccak a → bs.length = 20 → Spells (a.drop 2) bs → k ≠ storeKey E bs n) ∧
  ∀ a n bs, x.Tries E a n → bs.length = 20 → Spells (a.drop 2) bs →
    k ≠ storeKey E bs n ∧ x.time.toNat < m.expirationTime.toNat

/-- The call stored the message under the key, and it survives the calls after. -/
def StoredBy (E : Env) (s : Settings) (k : Hash) (m : SiweMessage) (text : Bytes) (e : Event) (after : List Event) : Prop :=
  SameModule after ∧ (∃ addr nonce bs, e.Issues addr nonce text ∧ IsAddress E.keccak addr ∧ bs.length = 20 ∧ Spells (addr.drop 2) bs ∧
    k = storeKey E bs nonce ∧ m = SiweMessage.new s e.time ⟨addr⟩ nonce) ∧ ∀ x ∈ after, SparesKey E k m x

theorem split_snoc {α : Type} (P : List α → α → List α → Prop) (es : List α) (x : α) :
    (∃ before e after, es ++ [x] = before ++ e :: after ∧ P before e after) ↔
      P es x [] ∨ ∃ before e after, es = before ++ e :: after ∧ P before e (after ++ [x]) := by
  constructor
  · rintro ⟨before, e, after, h, hp⟩
    rcases List.eq_nil_or_concat after with rfl | ⟨l, y, rfl⟩
    · have := List.append_inj' h rfl
      obtain ⟨rfl, h2⟩ := this
      cases h2
      exact .inl hp
    · rw [List.concat_eq_append, ← List.cons_append, ← List.append_assoc] at h
      obtain ⟨rfl, h2⟩ := List.append_inj' h rfl
      cases h2
      exact .inr ⟨before, e, l, rfl, by simpa using hp⟩
  · rintro (hp | ⟨before, e, after, rfl, hp⟩)
    · exact ⟨es, x, [], rfl, hp⟩
    · exact ⟨before, e, after ++ [x], by simp, hp⟩

theorem storedBy_snoc {E : Env} {s : Settings} {k : Hash} {m : SiweMessage} {text : Bytes} {e x : Event} {after : List Event} :
    StoredBy E s k m text e (after ++ [x]) ↔ StoredBy E s k m text e after ∧ ¬x.Reinstalls ∧ SparesKey E k m x := by
  constructor
  · rintro ⟨h1, h2, h3⟩
    exact ⟨⟨fun y hy => h1 y (List.mem_append_left _ hy), h2, fun y hy => h3 y (List.mem_append_left _ hy)⟩,
      h1 x (by simp), h3 x (by simp)⟩
  · rintro ⟨⟨h1, h2, h3⟩, h4, h5⟩
    refine ⟨sameModule_snoc h1 h4, h2, fun y hy => ?_⟩
    rcases List.mem_append.mp hy with hy | hy
    · exact h3 y hy
    · rw [List.mem_singleton] at hy; rwa [hy]

/-- What is stored, told from the calls answered so far. -/
theorem stored_iff (E : Env) (h : History) (k : Hash) (m : SiweMessage) (text : Bytes) :
    ((stateAfter E h).lib.messages.lookup k = some m ∧ ∀ ε, m.text (ε := ε) = .ok text) ↔
      ∃ s, (stateAfter E h).lib.settings = some s ∧
        ∃ before e after, trace E h = before ++ e :: after ∧ StoredBy E s k m text e after := by
  unfold stateAfter trace
  induction h using history_induction with
  | nil =>
    constructor
    · rintro ⟨h, _⟩; cases h
    · rintro ⟨s, _, before, e, after, h, _⟩; simp [traceFrom] at h
  | snoc h now op ih =>
    have hi : Inv (run (State.fresh E) h).1 := inv_stateAfter E h
    rw [run_snoc, traceFrom_snoc]
    simp only [split_snoc (fun _ e after => StoredBy E _ k m text e after), storedBy_snoc]
    generalize (run (State.fresh E) h).1 = st at hi ih ⊢
    generalize traceFrom (State.fresh E) h = es at ih ⊢
    have keep : ∀ {st' : State E} {x : Event}, st'.lib.settings = st.lib.settings → ¬x.Reinstalls →
        (∀ s, ¬StoredBy E s k m text x []) →
        (st'.lib.messages.lookup k = some m ↔ st.lib.messages.lookup k = some m ∧ SparesKey E k m x) →
        ((st'.lib.messages.lookup k = some m ∧ ∀ ε, m.text (ε := ε) = .ok text) ↔
          ∃ s, st'.lib.settings = some s ∧ (StoredBy E s k m text x [] ∨ ∃ before e after, es = before ++ e :: after ∧
            StoredBy E s k m text e after ∧ ¬x.Reinstalls ∧ SparesKey E k m x)) := by
      intro st' x h1 h2 h3 h4
      rw [h4, h1]
      constructor
      · rintro ⟨⟨g1, g2⟩, g3⟩
        obtain ⟨s, k1, before, e, after, k2, k3⟩ := ih.mp ⟨g1, g3⟩
        exact ⟨s, k1, .inr ⟨before, e, after, k2, k3, h2, g2⟩⟩
      · rintro ⟨s, k1, (k2 | ⟨before, e, after, k2, k3, _, k4⟩)⟩
        · exact absurd k2 (h3 s)
        · obtain ⟨g1, g2⟩ := ih.mpr ⟨s, k1, before, e, after, k2, k3⟩
          exact ⟨⟨g1, k4⟩, g2⟩
    cases effect hi now op with
    | reset i s p h1 h2 _ _ _ _ h5 =>
      rw [h5, h2]
      constructor
      · rintro ⟨h, _⟩; cases h
      · rintro ⟨_, _, (⟨_, ⟨a, n, bs, k2, _⟩, _⟩ | ⟨_, _, _, _, _, k4, _⟩)⟩
        · exact absurd k2.2 (fun h => nomatch h)
        · exact absurd ⟨i, h1, rfl⟩ k4
    | same g1 g2 g3 _ g4 _ g5 _ =>
      refine keep g4 g1 (fun s ⟨_, ⟨a, n, bs, k2, _⟩, _⟩ => g2 _ _ _ k2) ?_
      rw [g5]
      refine ⟨fun hh => ⟨hh, fun a n t _ hx => absurd hx (g2 a n t), ?_⟩, And.left⟩
      rintro a n bs ⟨sig, key, k1, k2, k3⟩ _ _
      exact (g3 _ _ _ _ k1 k2 k3).elim
    | issued addr bs nonce txt s g1 g2 g3 g4 g5 g6 g7 _ g8 g9 _ =>
      have hr : ¬Event.Reinstalls ⟨now, op, (step st now op).2⟩ := by simp [Event.Reinstalls, g4]
      have ht : ∀ a n, ¬Event.Tries E ⟨now, op, (step st now op).2⟩ a n := by
        rintro a n ⟨sig, key, k1, _⟩; simp [g4] at k1
      have hu : ∀ {a n t bs'}, Event.Issues ⟨now, op, (step st now op).2⟩ a n t → Spells (a.drop 2) bs' →
          a = addr ∧ n = nonce ∧ t = txt ∧ bs' = bs := by
        rintro a n t bs' ⟨k1, k2⟩ k3
        rw [g4] at k1; rw [g5] at k2
        cases k1; cases k2
        exact ⟨rfl, rfl, rfl, spells_unique k3 g3⟩
      by_cases hk : k = storeKey E bs nonce
      · rw [g9 k, if_pos hk, g7]
        constructor
        · rintro ⟨h1, h2⟩
          have := Option.some.inj h1
          subst this
          have ht : txt = text := by
            have := (g8 Empty).symm.trans (h2 Empty)
            exact Res.ok.inj this
          subst ht
          exact ⟨s, rfl, .inl ⟨fun e he => by simp at he, ⟨addr, nonce, bs, ⟨g4, g5⟩, g1, g2, g3, hk, rfl⟩,
            fun e he => by simp at he⟩⟩
        · rintro ⟨s', k1, (⟨_, ⟨a, n, bs', k2, _, _, k3, _, k4⟩, _⟩ | ⟨_, _, _, _, _, _, k4⟩)⟩
          · cases k1
            obtain ⟨rfl, rfl, rfl, rfl⟩ := hu k2 k3
            subst k4
            exact ⟨rfl, g8⟩
          · exact absurd hk (k4.1 addr nonce txt bs ⟨g4, g5⟩ g1 g2 g3)
      · refine keep (g7.trans g6.symm) hr ?_ ?_
        · rintro s' ⟨_, ⟨a, n, bs', k2, _, _, k3, k4, _⟩, _⟩
          obtain ⟨rfl, rfl, rfl, rfl⟩ := hu k2 k3
          exact hk k4
        · rw [g9 k, if_neg hk]
          refine ⟨fun hh => ⟨hh, ?_, fun a n _ hx => absurd hx (ht a n)⟩, And.left⟩
          intro a n t bs' k1 _ _ k2
          obtain ⟨rfl, rfl, rfl, rfl⟩ := hu k1 k2
          exact hk
    | attempted sig addr key nonce bs g1 g2 g3 g4 g5 g6 _ g7 _ =>
      refine keep g6 (by simp [Event.Reinstalls, g5]) ?_ ?_
      · rintro s' ⟨_, ⟨a, n, bs', k2, _⟩, _⟩
        simp [Event.Issues, g5] at k2
      · rw [g7 k m]
        constructor
        · rintro ⟨h1, h2, h3⟩
          refine ⟨h1, fun a n t _ hx => by simp [Event.Issues, g5] at hx, ?_⟩
          rintro a n bs' ⟨sig', key', k1, _, _⟩ _ k2
          simp only [g5] at k1
          cases k1
          rw [spells_unique k2 g4]
          exact ⟨h3, h2⟩
        · rintro ⟨h1, _, h2⟩
          obtain ⟨k1, k2⟩ := h2 addr nonce bs ⟨sig, key, g5, g1, g2⟩ g3 g4
          exact ⟨h1, k2, k1⟩

theorem sameSlot_iff {E : Env} {a a' bs bs' n n' : Bytes} (h : IsAddress E.keccak a) (h' : IsAddress E.keccak a')
    (s : Spells (a.drop 2) bs) (s' : Spells (a'.drop 2) bs') (l : bs.length = 20) (l' : bs'.length = 20) :
    SameSlot E a n a' n' ↔ storeKey E bs n = storeKey E bs' n' := by
  constructor
  · rintro (⟨rfl, rfl⟩ | ⟨b1, b2, s1, s2, hc⟩)
    · rw [spells_unique s s']
    · rw [spells_unique s s1, spells_unique s' s2]; exact hc.2
  · exact storeKey_inj h h' s s' l l'

/-- Every message the canister issues goes to an address. -/
theorem issues_address {E : Env} {h : History} {e : Event} (he : e ∈ trace E h) {a n t : Bytes} (hi : e.Issues a n t) :
    IsAddress E.keccak a := by
  obtain ⟨pre, now, op, post, rfl, rfl⟩ : ∃ pre now op post, h = pre ++ (now, op) :: post ∧
      e = ⟨now, op, (step (stateAfter E pre) now op).2⟩ := by
    unfold trace at he
    unfold stateAfter
    induction h using history_induction with
    | nil => simp [traceFrom] at he
    | snoc h now op ih =>
      rw [traceFrom_snoc] at he
      rcases List.mem_append.mp he with he | he
      · obtain ⟨pre, now', op', post, rfl, hh⟩ := ih he
        exact ⟨pre, now', op', post ++ [(now, op)], by simp, hh⟩
      · rw [List.mem_singleton] at he
        exact ⟨h, now, op, [], rfl, he⟩
  obtain ⟨k1, k2⟩ := hi
  simp only at k1 k2
  cases effect (inv_stateAfter E pre) now op with
  | reset i s p h1 h2 => rw [h2] at k2; cases k2
  | same _ g2 => exact absurd ⟨k1, k2⟩ (g2 a n t)
  | issued addr bs nonce txt s g1 g2 g3 g4 g5 => rw [k1] at g4; cases g4; exact g1
  | attempted sig addr key nonce bs g1 g2 g3 g4 g5 => rw [k1] at g5; cases g5

theorem awaits_of_usable {E : Env} {h : History} {now : UInt64} {addr nonce txt : Bytes} {m : SiweMessage}
    (ha : IsAddress E.keccak addr) (hu : Usable (stateAfter E h) now addr nonce m txt) :
    Awaits E (trace E h) now addr nonce m.issuedAt txt := by
  obtain ⟨⟨bs, hl, hs, hk⟩, h1, h2⟩ := hu
  have ht : ∀ ε, m.text (ε := ε) = .ok txt := by
    obtain hp | ⟨_, _, _, _, _, text, _, _, _, _, _, _, _, _, _, _, _, hp⟩ := pending_origin (inv_fresh E) h _ m hk
    · exact absurd hp.2 (fun h => nomatch h)
    · have := Res.ok.inj ((hp Empty).symm.trans h2)
      rw [← this]; exact hp
  obtain ⟨s, g1, before, e, after, g2, g3, ⟨a', n', bs', k1, k2, k3, k4, k5, k6⟩, g4⟩ := (stored_iff E h _ m txt).mp ⟨hk, ht⟩
  have hx : m.expirationTime.toNat = min (m.issuedAt.toNat + s.signInExpiresIn.toNat) (2 ^ 64 - 1) := by
    rw [k6]; exact satAdd_toNat _ _
  refine ⟨before, e, after, a', n', s, _, g2, g3, (C42_settings_in_force E h s _).mpr ⟨g1, rfl⟩, by rw [k6]; rfl, k1,
    (sameSlot_iff ha k2 hs k4 hl k3).mpr k5, hx ▸ h1, fun x hxm => ⟨fun a n t hi hss => ?_, ?_⟩⟩
  · have hA := issues_address (h := h) (by rw [g2]; simp [hxm]) hi
    obtain ⟨b, l, sp⟩ := address_spelled hA
    exact (g4 x hxm).1 a n t b hi hA l sp ((sameSlot_iff ha hA hs sp hl l).mp hss)
  · intro a n hT
    have hA : IsAddress E.keccak a := by obtain ⟨_, _, _, hA, _⟩ := hT; exact hA
    obtain ⟨b, l, sp⟩ := address_spelled hA
    obtain ⟨j1, j2⟩ := (g4 x hxm).2 a n b hT l sp
    exact ⟨fun hss => j1 ((sameSlot_iff ha hA hs sp hl l).mp hss), hx ▸ j2⟩

theorem usable_of_awaits {E : Env} {h : History} {now t : UInt64} {addr nonce txt : Bytes}
    (ha : IsAddress E.keccak addr) (hw : Awaits E (trace E h) now addr nonce t txt) :
    ∃ m, Usable (stateAfter E h) now addr nonce m txt ∧ m.issuedAt = t := by
  obtain ⟨before, e, after, a', n', s, p, h1, h2, h3, h4, h5, h6, h7, h8⟩ := hw
  obtain ⟨bs, hl, hs⟩ := address_spelled ha
  have hA' := issues_address (h := h) (by rw [h1]; simp) h5
  obtain ⟨bs', hl', hs'⟩ := address_spelled hA'
  have hx : (SiweMessage.new s e.time ⟨a'⟩ n').expirationTime.toNat = min (t.toNat + s.signInExpiresIn.toNat) (2 ^ 64 - 1) := by
    rw [← h4]; exact satAdd_toNat _ _
  have key : ∀ x ∈ after, SparesKey E (storeKey E bs nonce) (SiweMessage.new s e.time ⟨a'⟩ n') x := by
    refine fun x hxm => ⟨fun a n t' b g1 g2 g3 g4 g5 => ?_, fun a n b g1 g2 g3 => ?_⟩
    · exact (h8 x hxm).1 a n t' g1 ((sameSlot_iff ha g2 hs g4 hl g3).mpr g5)
    · have hA : IsAddress E.keccak a := by obtain ⟨_, _, _, hA, _⟩ := g1; exact hA
      obtain ⟨j1, j2⟩ := (h8 x hxm).2 a n g1
      exact ⟨fun g5 => j1 ((sameSlot_iff ha hA hs g3 hl g2).mpr g5), hx ▸ j2⟩
  obtain ⟨k1, k2⟩ := (stored_iff E h (storeKey E bs nonce) (SiweMessage.new s e.time ⟨a'⟩ n') txt).mpr
    ⟨s, ((C42_settings_in_force E h s p).mp h3).1, before, e, after, h1, h2, ⟨a', n', bs', h5, hA', hl', hs',
      (sameSlot_iff ha hA' hs hs' hl hl').mp h6, rfl⟩, key⟩
  exact ⟨_, ⟨⟨bs, hl, hs, k1⟩, hx ▸ h7, k2 _⟩, h4⟩

/-- The two accounts of the answer agree. -/
theorem loginAnswer_iff (E : Env) (h : History) (now : UInt64) (sig addr key nonce : Bytes) (r : Reply) :
    LoginAnswer E (trace E h) now sig addr key nonce r ↔ LoginReply (stateAfter E h) now sig addr key nonce r := by
  constructor
  · rintro (⟨e, h1⟩ | ⟨e, h1, h2⟩ | ⟨h1, h2, h3⟩ | ⟨t, txt, e, h1, h2, h3, h4⟩ | ⟨t, txt, pub, h1, h2, h3, h4, h5⟩ |
      ⟨t, txt, e, h1, h2, h3, h4, h5⟩ | ⟨t, txt, s, p, seed, d, h1, h2, h3, h4, h5, h6, h7, h8, h9, h10⟩)
    · exact .badAddress e h1
    · exact .badSignature e h1 h2
    · exact .notFound h1 h2 fun ⟨m, txt, hu⟩ => h3 ⟨_, txt, awaits_of_usable h1 hu⟩
    · obtain ⟨m, hu, _⟩ := usable_of_awaits h1 h3; exact .unrecoverable m txt e h1 h2 hu h4
    · obtain ⟨m, hu, _⟩ := usable_of_awaits h1 h3; exact .otherSigner m txt pub h1 h2 hu h4 h5
    · obtain ⟨m, hu, _⟩ := usable_of_awaits h1 h3; exact .badKey m txt e h1 h2 hu h4 h5
    · obtain ⟨m, hu, rfl⟩ := usable_of_awaits h1 h3
      exact .success m txt s seed d h1 h2 hu h4 h5 h6 ((C42_settings_in_force E h s p).mp h7).1 h8 h9 h10
  · rintro (⟨e, h1⟩ | ⟨e, h1, h2⟩ | ⟨h1, h2, h3⟩ | ⟨m, txt, e, h1, h2, h3, h4⟩ | ⟨m, txt, pub, h1, h2, h3, h4, h5⟩ |
      ⟨m, txt, e, h1, h2, h3, h4, h5⟩ | ⟨m, txt, s, seed, d, h1, h2, h3, h4, h5, h6, h7, h8, h9, h10⟩)
    · exact .badAddress e h1
    · exact .badSignature e h1 h2
    · refine .notFound h1 h2 fun ⟨t, txt, hu⟩ => ?_
      obtain ⟨m, hm, _⟩ := usable_of_awaits h1 hu
      exact h3 ⟨m, txt, hm⟩
    · exact .unrecoverable _ txt e h1 h2 (awaits_of_usable h1 h3) h4
    · exact .otherSigner _ txt pub h1 h2 (awaits_of_usable h1 h3) h4 h5
    · exact .badKey _ txt e h1 h2 (awaits_of_usable h1 h3) h4 h5
    · exact .success _ txt s _ seed d h1 h2 (awaits_of_usable h1 h3) h4 h5 h6
        ((C42_settings_in_force E h s _).mpr ⟨h7, rfl⟩) h8 h9 h10

/-! ### C91 -/

/-- C91: after every history, `siwe_login` answers what the specification says of the calls answered so far. -/
theorem C91_answer (E : Env) (h : History) (now : UInt64) (sig addr key nonce : Bytes) :
    LoginAnswer E (trace E h) now sig addr key nonce (step (stateAfter E h) now (.login sig addr key nonce)).2 :=
  (loginAnswer_iff E h now sig addr key nonce _).mpr (C14_decision E h now sig addr key nonce)

/-- C91: and the specification leaves it no choice: two canisters that have answered the same calls in the same way answer every
login alike. -/
theorem C91_same_calls_same_answer (E : Env) (h h' : History) (ht : trace E h = trace E h') (now : UInt64)
    (sig addr key nonce : Bytes) :
    (step (stateAfter E h) now (.login sig addr key nonce)).2 = (step (stateAfter E h') now (.login sig addr key nonce)).2 := by
  refine C14_one_answer (stateAfter E h) now sig addr key nonce _ _ (C14_decision E h now sig addr key nonce) ?_
  rw [← loginAnswer_iff, ht, loginAnswer_iff]
  exact C14_decision E h' now sig addr key nonce

/-- C91: a reply fits the specification only if it is the one given. -/
theorem C91_only_answer (E : Env) (h : History) (now : UInt64) (sig addr key nonce : Bytes) (r : Reply)
    (hr : LoginAnswer E (trace E h) now sig addr key nonce r) :
    r = (step (stateAfter E h) now (.login sig addr key nonce)).2 :=
  C14_one_answer (stateAfter E h) now sig addr key nonce _ _ ((loginAnswer_iff ..).mp hr) (C14_decision E h now sig addr key nonce)

/-- C91: a login succeeds exactly when its message awaits it, the address's owner signed that text, and the session key is a DER key. -/
theorem C91_success_iff (E : Env) (h : History) (now : UInt64) (sig addr key nonce : Bytes) :
    (∃ d, (step (stateAfter E h) now (.login sig addr key nonce)).2 = .loggedIn d) ↔
      IsAddress E.keccak addr ∧ HexString 130 sig ∧
      (∃ t txt, Awaits E (trace E h) now addr nonce t txt ∧ Signs E sig txt addr) ∧ key ≠ [] ∧ E.derOk key = true := by
  rw [C14_success_iff]
  constructor
  · rintro ⟨h1, h2, ⟨m, txt, h3, h4⟩, h5⟩
    exact ⟨h1, h2, ⟨_, txt, awaits_of_usable h1 h3, h4⟩, h5⟩
  · rintro ⟨h1, h2, ⟨t, txt, h3, h4⟩, h5⟩
    obtain ⟨m, hm, _⟩ := usable_of_awaits h1 h3
    exact ⟨h1, h2, ⟨m, txt, hm, h4⟩, h5⟩

/-- Non-vacuity of C91: Alice's message awaits a login after Bob tried and failed, and no longer after Alice's login. -/
example :
    let h := Ex.prepared ++ [(50, .login Ex.brokenSig Ex.bob Ex.key (Ex.nonce 4))]
    (∃ t txt, Awaits Toy.env (trace Toy.env h) 100 Ex.alice (Ex.nonce 3) t txt ∧ Signs Toy.env Ex.aliceSig txt Ex.alice) ∧
    (¬∃ t txt, Awaits Toy.env (trace Toy.env h) 100 Ex.bob (Ex.nonce 4) t txt) ∧
    ¬∃ t txt, Awaits Toy.env (trace Toy.env (h ++ [(90, .login Ex.aliceSig Ex.alice Ex.key (Ex.nonce 3))])) 100
      Ex.alice (Ex.nonce 3) t txt := by
  have yes : ∀ h now sig addr nonce, (match (step (stateAfter Toy.env h) now (.login sig addr Ex.key nonce)).2 with
      | .loggedIn _ => true | _ => false) = true →
      ∃ t txt, Awaits Toy.env (trace Toy.env h) now addr nonce t txt ∧ Signs Toy.env sig txt addr := by
    intro h now sig addr nonce hh
    refine ((C91_success_iff Toy.env h now sig addr Ex.key nonce).mp ?_).2.2.1
    generalize (step (stateAfter Toy.env h) now (.login sig addr Ex.key nonce)).2 = r at hh ⊢
    cases r <;> simp_all
  have no : ∀ h now sig addr nonce,
      (step (stateAfter Toy.env h) now (.login sig addr Ex.key nonce)).2 = .err (.login .messageNotFound) →
      ¬∃ t txt, Awaits Toy.env (trace Toy.env h) now addr nonce t txt := by
    intro h now sig addr nonce hh
    have ha := C91_answer Toy.env h now sig addr Ex.key nonce
    rw [hh] at ha
    cases ha with
    | notFound _ _ h3 => exact h3
  refine ⟨yes _ _ _ _ _ ?_, no _ _ Ex.bobSig _ _ ?_, no _ _ Ex.aliceSig _ _ ?_⟩
  all_goals decide +kernel

/-! ### C28, in terms of issue times -/

theorem list_split_cases {α : Type} {b b' : List α} {e e' : α} {a a' : List α} (h : b ++ e :: a = b' ++ e' :: a') :
    (b = b' ∧ e = e' ∧ a = a') ∨ (∃ m, b' = b ++ e :: m ∧ a = m ++ e' :: a') ∨ ∃ m, b = b' ++ e' :: m ∧ a' = m ++ e :: a := by
  induction b generalizing b' with
  | nil =>
    cases b' with
    | nil => simp only [List.nil_append, List.cons.injEq] at h; exact .inl ⟨rfl, h⟩
    | cons x b' => simp only [List.nil_append, List.cons_append, List.cons.injEq] at h; exact .inr (.inl ⟨b', by rw [h.1]; rfl, h.2⟩)
  | cons y b ih =>
    cases b' with
    | nil => simp only [List.nil_append, List.cons_append, List.cons.injEq] at h; exact .inr (.inr ⟨b, by rw [h.1]; rfl, h.2.symm⟩)
    | cons x b' =>
      simp only [List.cons_append, List.cons.injEq] at h
      obtain ⟨rfl, h⟩ := h
      rcases ih h with ⟨rfl, rfl, rfl⟩ | ⟨m, rfl, rfl⟩ | ⟨m, rfl, rfl⟩
      · exact .inl ⟨rfl, rfl, rfl⟩
      · exact .inr (.inl ⟨m, rfl, rfl⟩)
      · exact .inr (.inr ⟨m, rfl, rfl⟩)

/-- A successful login in a history, with the message it used. -/
theorem login_used {E : Env} {h : History} {before after : List Event} {e : Event} {addr key nonce : Bytes} {d : LoginDetails}
    (ht : trace E h = before ++ e :: after) (hl : e.LogsIn addr key nonce d) :
    IsAddress E.keccak addr ∧ e.Tries E addr nonce ∧ ∃ t txt s p, Awaits E before e.time addr nonce t txt ∧ InForce E before s p ∧
      d.expiration.toNat = min (t.toNat + s.sessionExpiresIn.toNat) (2 ^ 64 - 1) := by
  obtain ⟨h1, h2, e1, e2, e3, e4⟩ := traceFrom_split ht
  obtain ⟨⟨sig, hcall⟩, hrep⟩ := hl
  have ha := C91_answer E h1 e.time sig addr key nonce
  rw [← hcall, show (step (stateAfter E h1) e.time e.call).2 = e.reply from e3.symm, hrep,
    show trace E h1 = before from e2.symm] at ha
  cases ha with
  | success t txt s p seed d k1 k2 k3 k4 k5 k6 k7 k8 k9 k10 => exact ⟨k1, ⟨sig, key, hcall, k1, k2⟩, t, txt, s, p, k3, k7, k9⟩

theorem inForce_carry {E : Env} {es as : List Event} {s : Settings} {p : ProviderSettings} (h : InForce E es s p) (hm : SameModule as) :
    InForce E (es ++ as) s p := by
  obtain ⟨b, e, a, i, h1, h2, h3⟩ := h
  refine ⟨b, e, a ++ as, i, by rw [h1]; simp, fun x hx => ?_, h3⟩
  rcases List.mem_append.mp hx with hx | hx
  · exact h2 x hx
  · exact hm x hx

/-- C28, proved part, for apps that do not ask for two messages for one account at the same instant: if all messages issued to the
address had different times, the delegation is available strictly less than a minute after the login, whatever other calls were made in
between. The alternatives are collisions of SHA-256. -/
theorem C28_different_times_partial (E : Env) (h : History) (before after : List Event) (e : Event) (addr key nonce : Bytes)
    (d : LoginDetails) (now : UInt64) (cert : Bytes) (ht : trace E h = before ++ e :: after) (hm : SameModule after)
    (hl : e.LogsIn addr key nonce d) (hnow : now.toNat < min (e.time.toNat + minute) (2 ^ 64 - 1))
    (hclock : ∀ y ∈ after, y.time.toNat ≤ now.toNat) (hd : d.expiration.toNat < 2 ^ 64 - 1)
    (htimes : (trace E h).Pairwise fun x y => ∀ n t n' t', x.Issues addr n t → y.Issues addr n' t' → x.time ≠ y.time) :
    (∃ sd, (step (stateAfter E h) now (.getDelegation (some cert) addr key d.expiration)).2 = .delegation sd) ∨
    (∃ x ∈ trace E h, ∃ addr' key' nonce' d' s, x.LogsIn addr' key' nonce' d' ∧
      InForce E (trace E h) s (stateAfter E h).settings ∧
      GrantCollision E s addr key d.expiration addr' key' d'.expiration) ∨
    ∃ x ∈ trace E h, ∃ y ∈ trace E h, ∃ n d' a' n' t', x.Issues a' n' t' ∧ y.LogsIn addr key n d' ∧ KeyCollision E addr n a' n' := by
  by_cases hc : ∃ x ∈ trace E h, ∃ y ∈ trace E h, ∃ n d' a' n' t', x.Issues a' n' t' ∧ y.LogsIn addr key n d' ∧ KeyCollision E addr n a' n'
  · exact .inr (.inr hc)
  suffices honly : ∀ b x a nonce' d', trace E h = b ++ x :: a → SameModule a → x.LogsIn addr key nonce' d' →
      d'.expiration = d.expiration → x = e by
    rcases C28_single_login_partial E h before after e addr key nonce d now cert ht hm hl hnow hclock honly with h | h
    · exact .inl h
    · exact .inr (.inl h)
  -- two logins with one expiration at different places of the history
  have twice : ∀ (b m a : List Event) (x y : Event) (n n' : Bytes) (d d' : LoginDetails), trace E h = b ++ x :: (m ++ y :: a) →
      SameModule (m ++ y :: a) → x.LogsIn addr key n d → y.LogsIn addr key n' d' → d'.expiration = d.expiration →
      d.expiration.toNat < 2 ^ 64 - 1 → False := by
    intro b m a x y n n' d d' g1 g2 g3 g4 g5 g6
    obtain ⟨hA, hT, t, txt, s, p, k1, k2, k3⟩ := login_used g1 g3
    obtain ⟨_, _, t', txt', s', p', j1, j2, j3⟩ := login_used (E := E) (h := h) (before := b ++ x :: m) (e := y) (after := a) (by simp [g1]) g4
    have hs : s = s' := by
      have c1 : InForce E (trace E h) s p := by
        rw [g1]
        refine inForce_carry k2 fun z hz => ?_
        rcases List.mem_cons.mp hz with rfl | hz
        · obtain ⟨⟨sig, hcall⟩, _⟩ := g3
          simp [Event.Reinstalls, hcall]
        · exact g2 z hz
      have c2 : InForce E (trace E h) s' p' := by
        rw [show trace E h = (b ++ x :: m) ++ y :: a by simp [g1]]
        exact inForce_carry j2 fun z hz => g2 z (List.mem_append_right _ hz)
      have := ((C42_settings_in_force E h s p).mp c1).1.symm.trans ((C42_settings_in_force E h s' p').mp c2).1
      exact Option.some.inj this
    subst hs
    have htt : t = t' := by
      apply UInt64.toNat_inj.mp
      rw [g5] at j3
      omega
    subst htt
    obtain ⟨q, i, r, ai, ni, si, pi, l1, l2, l3, l4, l5, l6, l7, l8⟩ := k1
    obtain ⟨q', i', r', ai', ni', si', pi', l1', l2', l3', l4', l5', l6', l7', l8'⟩ := j1
    have nocol : ∀ z ∈ trace E h, ∀ y ∈ trace E h, ∀ {n0 d0 a' n0' t'}, y.LogsIn addr key n0 d0 → z.Issues a' n0' t' →
        SameSlot E addr n0 a' n0' → a' = addr ∧ n0' = n0 := by
      rintro z hz y hy n0 d0 a' n0' t' hyl hzi (hss | hss)
      · exact hss
      · exact absurd ⟨z, hz, y, hy, n0, d0, a', n0', t', hzi, hyl, hss⟩ hc
    obtain ⟨rfl, rfl⟩ := nocol i (by rw [g1, l1]; simp) x (by rw [g1]; simp) g3 l5 l6
    obtain ⟨rfl, rfl⟩ := nocol i' (by rw [show trace E h = (b ++ x :: m) ++ y :: a by simp [g1], l1']; simp) y (by rw [g1]; simp) g4 l5' l6'
    have heq : q ++ i :: (r ++ x :: m) = q' ++ i' :: r' := by rw [← l1', l1]; simp
    rcases list_split_cases heq with ⟨rfl, rfl, rfl⟩ | ⟨mm, rfl, hr⟩ | ⟨mm, rfl, hr⟩
    · have : ni = ni' := by
        have := l5.2.symm.trans l5'.2
        simp only [Reply.prepared.injEq, PrepareLoginOkResponse.mk.injEq] at this
        exact this.2
      subst this
      exact ((l8' x (by simp)).2 _ _ hT).1 (.inl ⟨rfl, rfl⟩)
    · rw [g1, l1, show (q ++ i :: r) ++ x :: (m ++ y :: a) = q ++ i :: ((r ++ x :: m) ++ y :: a) by simp, hr,
        show q ++ i :: ((mm ++ i' :: r') ++ y :: a) = q ++ (i :: (mm ++ i' :: (r' ++ y :: a))) by simp] at htimes
      exact (List.pairwise_cons.mp (List.pairwise_append.mp htimes).2.1).1 i' (by simp) _ _ _ _ l5 l5' (l4.trans l4'.symm)
    · rw [g1, l1] at htimes
      have : i' ∈ q' ++ i' :: mm := by simp
      exact (List.pairwise_append.mp (List.pairwise_append.mp htimes).1).2.2 i' this i (by simp) _ _ _ _ l5' l5 (l4'.trans l4.symm)
  intro b x a nonce' d' g1 g2 g3 g4
  rcases list_split_cases (ht.symm.trans g1) with ⟨_, rfl, _⟩ | ⟨m, rfl, rfl⟩ | ⟨m, rfl, rfl⟩
  · rfl
  · exact (twice before m a e x nonce nonce' d d' ht hm hl g3 g4 hd).elim
  · exact (twice b m after x e nonce' nonce d' d g1 g2 g3 hl g4.symm (g4 ▸ hd)).elim

theorem traceFrom_timesCalls {E : Env} (s : State E) (h : History) : (traceFrom s h).map (fun e => (e.time, e.call)) = h := by
  induction h generalizing s with
  | nil => rfl
  | cons p h ih => obtain ⟨now, op⟩ := p; simp [traceFrom, ih]

/-- A second message for the first account. -/
def Ex.preparedAgain : History := Ex.prepared ++ [(7, .prepareLogin Ex.alice)]

/-- Both are used. -/
def Ex.twoMessages : History :=
  Ex.preparedAgain ++ [(50, .login Ex.aliceSig Ex.alice Ex.key (Ex.nonce 5)), (100, .login Ex.aliceSig Ex.alice Ex.key (Ex.nonce 3))]

/-- Non-vacuity of `C28_different_times_partial`: two messages and two logins of one account with one session key. -/
example : (∃ before e after d, trace Toy.env Ex.twoMessages = before ++ e :: after ∧ after.length = 1 ∧ SameModule after ∧
      e.LogsIn Ex.alice Ex.key (Ex.nonce 5) d ∧ (60000000049 : UInt64).toNat < min (e.time.toNat + minute) (2 ^ 64 - 1) ∧
      (∀ y ∈ after, y.time.toNat ≤ 60000000049) ∧ d.expiration.toNat < 2 ^ 64 - 1) ∧
    (trace Toy.env Ex.twoMessages).Pairwise fun x y => ∀ n t n' t', x.Issues Ex.alice n t → y.Issues Ex.alice n' t' →
      x.time ≠ y.time := by
  constructor
  · have hr : (step (stateAfter Toy.env Ex.preparedAgain) 50 (.login Ex.aliceSig Ex.alice Ex.key (Ex.nonce 5))).2 = .loggedIn
        ⟨1800000000007, createUserCanisterPubkey Toy.env.canisterId
          (Toy.env.sha256 (identityString (ascii "s") Ex.alice none)).bytes⟩ := by decide +kernel
    have hd : (1800000000007 : UInt64).toNat < 2 ^ 64 - 1 := by decide
    have hn : (60000000049 : UInt64).toNat < min ((50 : UInt64).toNat + minute) (2 ^ 64 - 1) := by unfold minute; decide
    have hl : (100 : UInt64).toNat ≤ 60000000049 := by decide
    generalize Toy.env = E at hr ⊢
    unfold stateAfter at hr
    have ht := traceFrom_append (State.fresh E) Ex.preparedAgain
      [(50, .login Ex.aliceSig Ex.alice Ex.key (Ex.nonce 5)), (100, .login Ex.aliceSig Ex.alice Ex.key (Ex.nonce 3))]
    simp only [traceFrom, hr] at ht
    exact ⟨_, _, _, _, ht, rfl, by simp [SameModule, Event.Reinstalls], ⟨⟨Ex.aliceSig, rfl⟩, rfl⟩, hn,
      fun y hy => (List.mem_singleton.mp hy) ▸ hl, hd⟩
  · have h : (Ex.twoMessages).Pairwise fun p q => p.2 = .prepareLogin Ex.alice → q.2 = .prepareLogin Ex.alice → p.1 ≠ q.1 := by
      decide +kernel
    rw [← traceFrom_timesCalls (State.fresh Toy.env) Ex.twoMessages, List.pairwise_map] at h
    exact h.imp fun hxy n t n' t' h1 h2 => hxy h1.1 h2.1

end Siwe
