import Mathlib.Algebra.BigOperators.Intervals
import Mathlib.Algebra.BigOperators.Fin
import Mathlib.Algebra.Order.BigOperators.Group.Finset
import Mathlib.Order.Interval.Finset.Fin
import Verif.Spec.Birthday
import Verif.Props.Guess
import Verif.Props.Nonces
/- C131: nonces do not repeat. -/
namespace Siwe
open Spec

/-- Sequences with a repetition. -/
theorem Birthday.count {α : Type} [Fintype α] {n : Nat} (S : Finset (Fin n → α)) (h : ∀ ω ∈ S, ∃ i j, i < j ∧ ω i = ω j) :
    S.card ≤ n * (n - 1) / 2 * Fintype.card α ^ (n - 1) := by
  classical
  let pairs := (Finset.univ : Finset (Fin n)).sigma fun j => Finset.Iio j
  have hp : pairs.card = n * (n - 1) / 2 := by
    simp only [pairs, Finset.card_sigma, Fin.card_Iio]
    rw [Fin.sum_univ_eq_sum_range (fun i => i) n, Finset.sum_range_id]
  have hsub : S ⊆ pairs.biUnion fun p => Finset.univ.filter fun ω : Fin n → α => ω p.2 = ω p.1 := by
    intro ω hω
    obtain ⟨i, j, hij, he⟩ := h ω hω
    simp only [Finset.mem_biUnion, Finset.mem_filter, Finset.mem_univ, true_and]
    exact ⟨⟨j, i⟩, by simp [pairs, hij], he⟩
  refine (Finset.card_le_card hsub).trans ?_
  rw [← hp]
  refine Finset.card_biUnion_le_card_mul _ _ _ fun p hpm => ?_
  have hlt : p.2 < p.1 := by simpa [pairs] using hpm
  have hc : Fintype.card { k : Fin n // k ≠ p.1 } = n - 1 := by simp
  rw [← hc, ← Fintype.card_fun, ← Finset.card_univ]
  refine Finset.card_le_card_of_injOn (fun ω (k : { k : Fin n // k ≠ p.1 }) => ω k.val) (fun _ _ => Finset.mem_univ _) ?_
  intro ω hω ω' hω' he
  simp only [Finset.coe_filter, Finset.mem_univ, true_and, Set.mem_setOf_eq] at hω hω'
  funext k
  by_cases hk : k = p.1
  · subst hk
    rw [← hω, ← hω']
    exact congrFun he ⟨p.2, ne_of_lt hlt⟩
  · exact congrFun he ⟨k, hk⟩

theorem Birthday.draw_ideal (E : Env) (draws : Bytes → Nat → Draw) (seed : Bytes) (k : Nat) : draw (ideal E draws) seed k = (draws seed k).val := by
  have h : ∀ m, afterDraws (ideal E draws) (draws seed) m = fun i => draws seed (i + m) := by
    intro m
    induction m with
    | zero => rfl
    | succ m ih => simp only [afterDraws, ih]; funext i; show draws seed (i + 1 + m) = _; congr 1; omega
  show ((afterDraws (ideal E draws) (draws seed) k) 0).val = _
  rw [h]; simp

/-- The calls and their replies follow the arrival of the randomness in the canister's history. -/
theorem Birthday.trace_since (E : Env) (draws : Bytes → Nat → Draw) (h : History) (t : UInt64) (seed : Bytes) (everybody : Strategy) (n : Nat)
    (ω : Fin n → Draw) : ∃ g before, trace (ideal E (source draws seed ω)) g = before ++ sinceSeeded E draws h t seed everybody n ω ∧
      ∃ b x, before = b ++ [x] ∧ x.call = .rngSeeded seed := by
  let E' := ideal E (source draws seed ω)
  refine ⟨h ++ [(t, Op.rngSeeded seed)] ++ callsOf everybody (stateAfter E' (h ++ [(t, Op.rngSeeded seed)])) n,
    trace E' (h ++ [(t, Op.rngSeeded seed)]), traceFrom_append (State.fresh E') (h ++ [(t, Op.rngSeeded seed)]) _, trace E' h,
    ⟨t, .rngSeeded seed, (step (stateAfter E' h) t (.rngSeeded seed)).2⟩, traceFrom_snoc (State.fresh E') h t (.rngSeeded seed), rfl⟩

/-- The `i`-th of the elements with a property. -/
theorem Birthday.nth {α : Type} (p : α → Bool) : ∀ (l : List α) (i : Nat), i < l.countP p →
    ∃ a x b, l = a ++ x :: b ∧ p x = true ∧ a.countP p = i
  | [], i, h => by simp at h
  | x :: l, i, h => by
    by_cases hx : p x = true
    · cases i with
      | zero => exact ⟨[], x, l, rfl, hx, rfl⟩
      | succ i =>
        obtain ⟨a, y, b, rfl, h2, h3⟩ := Birthday.nth p l i (by rw [List.countP_cons, if_pos hx] at h; omega)
        exact ⟨x :: a, y, b, rfl, h2, by rw [List.countP_cons, if_pos hx, h3]⟩
    · obtain ⟨a, y, b, rfl, h2, h3⟩ := Birthday.nth p l i (by rw [List.countP_cons, if_neg hx] at h; omega)
      exact ⟨x :: a, y, b, rfl, h2, by rw [List.countP_cons, if_neg hx, h3, Nat.add_zero]⟩

/-- Only `siwe_prepare_login` answers with a message. -/
theorem Birthday.issues {E : Env} {h : History} {e : Event} (he : e ∈ trace E h) (hi : e.issued = true) : ∃ addr nonce text, e.Issues addr nonce text := by
  obtain ⟨b, a, hb⟩ := List.append_of_mem he
  obtain ⟨h1, -, -, -, e3, -⟩ := traceFrom_split (show traceFrom (State.fresh E) h = b ++ e :: a from hb)
  obtain ⟨time, call, rep⟩ := e
  have hc := step_case (inv_stateAfter E h1) time call
  rw [← (show rep = (step (stateAfter E h1) time call).2 from e3)] at hc
  generalize (step (stateAfter E h1) time call).1 = st' at hc
  cases hc with
  | prepared addr bs g s txt => exact ⟨addr, _, txt, rfl, rfl⟩
  | found sig addr key nonce bs m txt st'' r' => cases r' <;> cases hi
  | getDelegation => generalize siweGetDelegation _ _ _ _ _ _ = x at hi; cases x <;> cases hi
  | getAddress => generalize getAddress _ _ = x at hi; cases x <;> cases hi
  | getCallerAddress => generalize getCallerAddress _ _ = x at hi; cases x <;> cases hi
  | getPrincipal => generalize getPrincipal _ _ = x at hi; cases x <;> cases hi
  | _ => cases hi

section
variable (E : Env) (draws : Bytes → Nat → Draw) (h : History) (t : UInt64) (seed : Bytes) (everybody : Strategy)

/-- Two of the messages issued, and the draws for their nonces. -/
theorem Birthday.two (hk : everybody.KeepsSeed) (n : Nat) (ω : Fin n → Draw) {a b c : List Event} {e e' : Event} {addr addr' nonce nonce' text text' : Bytes}
    (h1 : sinceSeeded E draws h t seed everybody n ω = a ++ e :: b ++ e' :: c) (h2 : e.Issues addr nonce text) (h3 : e'.Issues addr' nonce' text') :
    ∃ l1 : issuedIn a < issuedIn (a ++ e :: b), ∃ l2 : issuedIn (a ++ e :: b) < n,
      (nonce = nonce' ↔ ω ⟨issuedIn a, l1.trans l2⟩ = ω ⟨issuedIn (a ++ e :: b), l2⟩) := by
  obtain ⟨g, before, g1, bb, x, rfl, g3⟩ := Birthday.trace_since E draws h t seed everybody n ω
  have hlen : (sinceSeeded E draws h t seed everybody n ω).length = n := Guess.calls_length _ _ _
  have hall : ∀ y ∈ sinceSeeded E draws h t seed everybody n ω, (∀ i, y.call ≠ .install i ∧ y.call ≠ .upgrade i) ∧ ∀ s, y.call ≠ .rngSeeded s := by
    intro y hy
    obtain ⟨rs, hrs⟩ := Guess.calls_from _ _ _ y hy
    have := hk rs
    rw [hrs] at this
    exact this
  rw [h1] at g1 hlen hall
  have hs : SeededWith ((bb ++ [x] ++ a) ++ e :: b) seed (a ++ e :: b) := by
    refine ⟨bb, x, by simp, g3, ?_, fun y hy => (hall y ?_).2⟩
    · rintro y hy ⟨i, hy' | hy', _⟩
      · exact ((hall y (List.mem_append_left _ hy)).1 i).1 hy'
      · exact ((hall y (List.mem_append_left _ hy)).1 i).2 hy'
    · exact List.mem_append_left _ hy
  obtain ⟨q1, q2⟩ := C90_nonces_differ (ideal E (source draws seed ω)) g (bb ++ [x] ++ a) b c e e' seed a addr addr' nonce nonce' text text'
    (by rw [g1]; simp) hs h2 h3
  rw [Birthday.draw_ideal, Birthday.draw_ideal] at q2
  have l1 : issuedIn (a ++ e :: b) ≤ (a ++ e :: b).length := List.countP_le_length
  have l2 : issuedIn (a ++ e :: b) < n := by
    simp only [List.length_append, List.length_cons] at hlen l1
    omega
  refine ⟨q1, l2, ?_⟩
  rw [q2, ← Subtype.ext_iff]
  simp [source, l2, q1.trans l2]

/-- C131: two of the messages issued since the randomness arrived have the same nonce exactly if two of the draws made for them are the same. -/
theorem C131_repeats_iff (hk : everybody.KeepsSeed) (n : Nat) (ω : Fin n → Draw) :
    RepeatsNonce (sinceSeeded E draws h t seed everybody n ω) ↔
      ∃ i j : Fin n, i < j ∧ j < issuedIn (sinceSeeded E draws h t seed everybody n ω) ∧ ω i = ω j := by
  constructor
  · rintro ⟨a, e, b, e', c, addr, addr', nonce, text, text', h1, h2, h3⟩
    obtain ⟨l1, l2, h4⟩ := Birthday.two E draws h t seed everybody hk n ω h1 h2 h3
    refine ⟨_, _, l1, ?_, h4.mp rfl⟩
    show issuedIn (a ++ e :: b) < _
    rw [h1]
    have : e'.issued = true := by simp [Event.issued, h3.2]
    simp only [issuedIn, List.countP_append, List.countP_cons, this, if_true]
    omega
  · rintro ⟨i, j, hij, hj, he⟩
    obtain ⟨d, e', c, h1, h2, h3⟩ := Birthday.nth Event.issued _ j.val hj
    obtain ⟨a, e, b, rfl, h5, h6⟩ := Birthday.nth Event.issued d i.val (by rw [h3]; exact hij)
    obtain ⟨g, before, g1, -⟩ := Birthday.trace_since E draws h t seed everybody n ω
    have hm : ∀ y ∈ sinceSeeded E draws h t seed everybody n ω, y ∈ trace (ideal E (source draws seed ω)) g := fun y hy => by
      rw [g1]; exact List.mem_append_right _ hy
    obtain ⟨addr, nonce, text, k1⟩ := Birthday.issues (hm e (by rw [h1]; simp)) h5
    obtain ⟨addr', nonce', text', k2⟩ := Birthday.issues (hm e' (by rw [h1]; simp)) h2
    obtain ⟨l1, l2, h7⟩ := Birthday.two E draws h t seed everybody hk n ω h1 k1 k2
    have hn : nonce = nonce' := h7.mpr (by
      rw [show (⟨issuedIn a, l1.trans l2⟩ : Fin n) = i from Fin.ext h6, show (⟨issuedIn (a ++ e :: b), l2⟩ : Fin n) = j from Fin.ext h3]
      exact he)
    subst hn
    exact ⟨a, e, b, e', c, addr, addr', nonce, text, text', h1, k1, k2⟩

/-- C131: whatever was called before the randomness arrived, and whatever everybody calls then, choosing each of their `n` calls from all
replies so far: of the `(2 ^ 80) ^ n` sequences of draws, at most `n (n - 1) / 2 * (2 ^ 80) ^ (n - 1)` make two messages have the same nonce.
So with equally likely draws the probability is at most `n (n - 1) / 2 ^ 81`. -/
theorem C131_repeated_nonces (hk : everybody.KeepsSeed) (n : Nat) (S : Finset (Fin n → Draw))
    (hS : ∀ ω ∈ S, RepeatsNonce (sinceSeeded E draws h t seed everybody n ω)) :
    S.card ≤ n * (n - 1) / 2 * (2 ^ 80) ^ (n - 1) := by
  have hfin : Finite Draw := Nat.finite_of_card_ne_zero (by rw [C124_draws]; exact (Nat.two_pow_pos 80).ne')
  let _ : Fintype Draw := Fintype.ofFinite Draw
  rw [← C124_draws, Nat.card_eq_fintype_card]
  refine Birthday.count S fun ω hω => ?_
  obtain ⟨i, j, h1, -, h2⟩ := (C131_repeats_iff E draws h t seed everybody hk n ω).mp (hS ω hω)
  exact ⟨i, j, h1, h2⟩

end

/-- Everybody asks for messages, one after the other. -/
def Ex.asksOnly : Strategy := fun _ => (5, .prepareLogin Ex.alice)

/-- Non-vacuity: with the same draw twice two messages have the same nonce, with different ones they do not. -/
example : Ex.asksOnly.KeepsSeed ∧
    RepeatsNonce (sinceSeeded Toy.env Ex.oneByOne (Ex.prepared.take 1) 2 [1, 2, 3] Ex.asksOnly 2 (fun _ => Ex.oneByOne [] 7)) ∧
    ¬RepeatsNonce (sinceSeeded Toy.env Ex.oneByOne (Ex.prepared.take 1) 2 [1, 2, 3] Ex.asksOnly 2 (fun i => Ex.oneByOne [] i)) := by
  have hk : Ex.asksOnly.KeepsSeed := fun _ => ⟨fun _ => ⟨nofun, nofun⟩, fun _ => nofun⟩
  refine ⟨hk, (C131_repeats_iff _ _ _ _ _ _ hk _ _).mpr ?_, fun h => ?_⟩
  · refine ⟨0, 1, by decide, ?_, rfl⟩
    have : issuedIn (sinceSeeded Toy.env Ex.oneByOne (Ex.prepared.take 1) 2 [1, 2, 3] Ex.asksOnly 2 (fun _ => Ex.oneByOne [] 7)) = 2 := by
      decide +kernel
    rw [this]; decide
  · obtain ⟨i, j, h1, -, h2⟩ := (C131_repeats_iff _ _ _ _ _ _ hk _ _).mp h
    have : ∀ i j : Fin 2, i < j → (Ex.oneByOne [] i).val ≠ (Ex.oneByOne [] j).val := by decide +kernel
    exact this i j h1 (congrArg _ h2)

end Siwe
