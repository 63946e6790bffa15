import Verif.Model.PrincipalText
import Verif.Spec.PrincipalText
import Verif.Lemmas.Hex
import Mathlib.RingTheory.AdjoinRoot
import Mathlib.Algebra.CharP.Two
import Mathlib.Algebra.CharP.Algebra
import Mathlib.Tactic.ComputeDegree
import Mathlib.Algebra.Field.ZMod
/- CRC-32: the bitwise computation against the polynomials of its definition. -/
namespace Siwe.PrincipalText
open Polynomial Spec

theorem polynomialOf_append (l l' : List Bool) :
    polynomialOf (l ++ l') = polynomialOf l * X ^ l'.length + polynomialOf l' := by
  induction l with
  | nil => simp [polynomialOf]
  | cons b l ih =>
    rw [List.cons_append, polynomialOf, polynomialOf, ih, List.length_append, pow_add, add_mul, add_assoc]
    cases b <;> simp

theorem polynomialOf_xor (l l' : List Bool) (h : l.length = l'.length) :
    polynomialOf (List.zipWith xor l l') = polynomialOf l + polynomialOf l' := by
  induction l generalizing l' with
  | nil => cases l' with | nil => simp [polynomialOf] | cons => simp at h
  | cons b l ih =>
    cases l' with
    | nil => simp at h
    | cons b' l' =>
      have h' : l.length = l'.length := by simpa using h
      rw [List.zipWith_cons_cons, polynomialOf, polynomialOf, polynomialOf, ih _ h', List.length_zipWith, ← h']
      have two : ∀ p : (ZMod 2)[X], p + p = 0 := fun p => CharTwo.add_self_eq_zero p
      cases b <;> cases b' <;> simp [add_assoc, add_left_comm]
      have := two (X ^ l.length)
      linear_combination -this

theorem polynomialOf_degree (l : List Bool) : (polynomialOf l).degree < l.length := by
  induction l with
  | nil => simp [polynomialOf]
  | cons b l ih =>
    rw [polynomialOf, List.length_cons]
    have hl : (l.length : WithBot ℕ) < ((l.length + 1 : ℕ) : WithBot ℕ) := by exact_mod_cast Nat.lt_succ_self _
    refine lt_of_le_of_lt (degree_add_le _ _) (max_lt ?_ (ih.trans hl))
    cases b
    · simp
    · simpa using hl

theorem polynomialOf_inj (l l' : List Bool) (h : l.length = l'.length) (he : polynomialOf l = polynomialOf l') : l = l' := by
  induction l generalizing l' with
  | nil => cases l' with | nil => rfl | cons => simp at h
  | cons b l ih =>
    cases l' with
    | nil => simp at h
    | cons b' l' =>
      have h' : l.length = l'.length := by simpa using h
      have c1 : (polynomialOf l).coeff l.length = 0 := coeff_eq_zero_of_degree_lt (polynomialOf_degree l)
      have c2 : (polynomialOf l').coeff l.length = 0 := h' ▸ coeff_eq_zero_of_degree_lt (polynomialOf_degree l')
      have hb : b = b' := by
        have := congrArg (fun p => p.coeff l.length) he
        simp only [polynomialOf, coeff_add, c1, c2, ← h'] at this
        cases b <;> cases b' <;> simp_all
      subst hb
      simp only [polynomialOf, h'] at he
      rw [ih l' h' (add_left_cancel he)]

theorem lowFirst_length (k n : Nat) : (lowFirst k n).length = k := by simp [lowFirst]

theorem lowFirst_xor (k a b : Nat) : lowFirst k (a ^^^ b) = List.zipWith xor (lowFirst k a) (lowFirst k b) := by
  simp [lowFirst, List.zipWith_map, List.zipWith_self, Nat.testBit_xor]

theorem lowFirst_succ (k n : Nat) : lowFirst (k + 1) n = (n % 2 == 1) :: lowFirst k (n / 2) := by
  simp [lowFirst, List.range_succ_eq_map, Function.comp_def, Nat.testBit_succ, Nat.testBit_zero]
  rcases Nat.mod_two_eq_zero_or_one n with h | h <;> rw [h] <;> rfl

theorem lowFirst_last (k n : Nat) (h : n < 2 ^ k) : lowFirst (k + 1) n = lowFirst k n ++ [false] := by
  simp [lowFirst, List.range_succ, Nat.testBit_lt_two_pow h]

/-- The polynomial of a state of the computation. -/
noncomputable def statePoly (c : Nat) : (ZMod 2)[X] := polynomialOf (lowFirst 32 c)

theorem statePoly_xor (a b : Nat) : statePoly (a ^^^ b) = statePoly a + statePoly b := by
  rw [statePoly, lowFirst_xor, polynomialOf_xor _ _ (by simp [lowFirst_length])]; rfl

theorem statePoly_half (c : Nat) (h : c < 2 ^ 32) :
    statePoly (c / 2) = X * statePoly c + (if c % 2 = 1 then X ^ 32 else 0) := by
  have h2 : c / 2 < 2 ^ 31 := by omega
  rw [statePoly, statePoly, lowFirst_last 31 _ h2, lowFirst_succ 31 c, polynomialOf_append, polynomialOf.eq_2 (c % 2 == 1), lowFirst_length]
  have two : (X ^ 32 : (ZMod 2)[X]) + X ^ 32 = 0 := CharTwo.add_self_eq_zero _
  rcases Nat.mod_two_eq_zero_or_one c with h | h
  · simp [h, polynomialOf, mul_comm]
  · simp only [h, polynomialOf]
    simp
    linear_combination -two

theorem statePoly_constant : statePoly 0xedb88320 = crcPolynomial + X ^ 32 := by
  have two : (X ^ 32 : (ZMod 2)[X]) + X ^ 32 = 0 := CharTwo.add_self_eq_zero _
  have : lowFirst 32 0xedb88320 = [false, false, false, false, false, true, false, false, true, true, false, false, false, false,
    false, true, false, false, false, true, true, true, false, true, true, false, true, true, false, true, true, true] := by
    decide
  rw [statePoly, this, crcPolynomial]
  simp [polynomialOf]
  linear_combination -two

theorem crcBit_poly (c : Nat) (h : c < 2 ^ 32) :
    AdjoinRoot.mk crcPolynomial (statePoly (crcBit c)) = AdjoinRoot.mk crcPolynomial (X * statePoly c) := by
  have two : (X ^ 32 : (ZMod 2)[X]) + X ^ 32 = 0 := CharTwo.add_self_eq_zero _
  unfold crcBit
  split
  · next h1 =>
    rw [statePoly_xor, statePoly_half c h, if_pos h1, statePoly_constant]
    have : X * statePoly c + X ^ 32 + (crcPolynomial + X ^ 32) = X * statePoly c + crcPolynomial := by
      linear_combination two
    rw [this, map_add, AdjoinRoot.mk_self, add_zero]
  · next h1 => rw [statePoly_half c h, if_neg h1, add_zero]

theorem crcBit_lt (c : Nat) (h : c < 2 ^ 32) : crcBit c < 2 ^ 32 := by
  unfold crcBit
  split
  · exact Nat.xor_lt_two_pow (by omega) (by decide)
  · omega

theorem byte_lt (b : UInt8) : b.toNat < 2 ^ 32 := Nat.lt_trans b.toNat_lt (by decide)

theorem crcByte_lt (c : Nat) (h : c < 2 ^ 32) (b : UInt8) : crcByte c b < 2 ^ 32 := by
  unfold crcByte
  iterate 8 refine crcBit_lt _ ?_
  exact Nat.xor_lt_two_pow h (byte_lt b)

theorem statePoly_byte (b : UInt8) : statePoly b.toNat = X ^ 24 * polynomialOf (lowFirst 8 b.toNat) := by
  have : lowFirst 32 b.toNat = lowFirst 8 b.toNat ++ List.replicate 24 false := by
    revert b
    apply u8_all
    decide +kernel
  rw [statePoly, this, polynomialOf_append]
  have : ∀ n, polynomialOf (List.replicate n false) = 0 := by
    intro n
    induction n with
    | zero => rfl
    | succ n ih => rw [List.replicate_succ, polynomialOf, ih]; simp
  rw [this, List.length_replicate, add_zero, mul_comm]

theorem crcByte_poly (c : Nat) (h : c < 2 ^ 32) (b : UInt8) :
    AdjoinRoot.mk crcPolynomial (statePoly (crcByte c b)) =
      AdjoinRoot.mk crcPolynomial (X ^ 8 * statePoly c + X ^ 32 * polynomialOf (lowFirst 8 b.toNat)) := by
  have h0 : c ^^^ b.toNat < 2 ^ 32 := Nat.xor_lt_two_pow h (byte_lt b)
  have e : X ^ 8 * statePoly c + X ^ 32 * polynomialOf (lowFirst 8 b.toNat) = X ^ 8 * statePoly (c ^^^ b.toNat) := by
    rw [statePoly_xor, statePoly_byte]; ring
  rw [e]
  unfold crcByte
  generalize c ^^^ b.toNat = d at h0 ⊢
  have step : ∀ n d, d < 2 ^ 32 → AdjoinRoot.mk crcPolynomial (X ^ n * statePoly (crcBit d)) =
      AdjoinRoot.mk crcPolynomial (X ^ (n + 1) * statePoly d) := by
    intro n d hd
    rw [map_mul, crcBit_poly d hd, ← map_mul, pow_succ, mul_assoc]
  have := step 0
  rw [pow_zero] at this
  simp only [one_mul] at this
  have l1 := crcBit_lt d h0
  have l2 := crcBit_lt _ l1
  have l3 := crcBit_lt _ l2
  have l4 := crcBit_lt _ l3
  have l5 := crcBit_lt _ l4
  have l6 := crcBit_lt _ l5
  have l7 := crcBit_lt _ l6
  rw [this _ l7, step 1 _ l6, step 2 _ l5, step 3 _ l4, step 4 _ l3, step 5 _ l2, step 6 _ l1, step 7 _ h0]

theorem crcFold_lt (m : Bytes) (c : Nat) (h : c < 2 ^ 32) : m.foldl crcByte c < 2 ^ 32 := by
  induction m generalizing c with
  | nil => exact h
  | cons b m ih => exact ih _ (crcByte_lt c h b)

theorem lowBits_length (m : Bytes) : (m.flatMap fun b => lowFirst 8 b.toNat).length = 8 * m.length := by
  induction m with
  | nil => rfl
  | cons b m ih => rw [List.flatMap_cons, List.length_append, ih, lowFirst_length, List.length_cons]; omega

theorem crcFold_poly (m : Bytes) (c : Nat) (h : c < 2 ^ 32) :
    AdjoinRoot.mk crcPolynomial (statePoly (m.foldl crcByte c)) =
      AdjoinRoot.mk crcPolynomial (X ^ (8 * m.length) * statePoly c + X ^ 32 * polynomialOf (m.flatMap fun b => lowFirst 8 b.toNat)) := by
  induction m generalizing c with
  | nil => simp [polynomialOf]
  | cons b m ih =>
    rw [List.foldl_cons, ih _ (crcByte_lt c h b), List.flatMap_cons, polynomialOf_append, lowBits_length, map_add, map_mul,
      crcByte_poly c h b, ← map_mul, ← map_add, List.length_cons]
    generalize statePoly c = s, polynomialOf (lowFirst 8 b.toNat) = B, polynomialOf (m.flatMap _) = M
    have : (X : (ZMod 2)[X]) ^ (8 * (m.length + 1)) = X ^ (8 * m.length) * X ^ 8 := by rw [← pow_add]; rfl
    rw [this]
    generalize (X : (ZMod 2)[X]) ^ (8 * m.length) = A
    exact congrArg _ (by ring)

theorem crc32_lt (m : Bytes) : crc32 m < 2 ^ 32 := Nat.xor_lt_two_pow (crcFold_lt m _ (by decide)) (by decide)

theorem crcPolynomial_degree : crcPolynomial.degree = 32 := by unfold crcPolynomial; compute_degree!

theorem all_ones : ∀ i < 32, Nat.testBit 0xffffffff i = true := by decide

/-- The computed checksum is the one of the definition. -/
theorem isCrc32_iff (m : Bytes) (c : Nat) : IsCrc32 m c ↔ c = crc32 m := by
  have key : crcPolynomial ∣ X ^ (8 * m.length) * polynomialOf (List.replicate 32 true) +
      X ^ 32 * polynomialOf (m.flatMap fun b => lowFirst 8 b.toNat) + polynomialOf ((lowFirst 32 (crc32 m)).map (! ·)) := by
    have h1 : (lowFirst 32 (crc32 m)).map (! ·) = lowFirst 32 (m.foldl crcByte 0xffffffff) := by
      apply List.ext_getElem (by simp [lowFirst_length])
      intro i h _
      have : Nat.testBit 0xffffffff i = true := by
        have : i < 32 := by simpa [lowFirst_length] using h
        exact all_ones i this
      simp [lowFirst, crc32, Nat.testBit_xor, this]
    have h2 : List.replicate 32 true = lowFirst 32 0xffffffff := by decide
    rw [h1, h2]
    have := crcFold_poly m 0xffffffff (by decide)
    rw [← AdjoinRoot.mk_eq_zero, map_add]
    show _ + AdjoinRoot.mk crcPolynomial (statePoly _) = 0
    rw [this]
    show AdjoinRoot.mk crcPolynomial _ + AdjoinRoot.mk crcPolynomial _ = 0
    rw [← map_add]
    show AdjoinRoot.mk crcPolynomial (_ + _) = 0
    have : ∀ p : (ZMod 2)[X], p + p = 0 := fun p => CharTwo.add_self_eq_zero p
    erw [this, map_zero]
  constructor
  · rintro ⟨hc, h⟩
    have hd := dvd_sub h key
    rw [add_sub_add_left_eq_sub] at hd
    have hz := Polynomial.eq_zero_of_dvd_of_degree_lt hd (by
      rw [crcPolynomial_degree]
      refine lt_of_le_of_lt (degree_sub_le _ _) (max_lt ?_ ?_) <;>
        exact lt_of_lt_of_le (polynomialOf_degree _) (by simp [lowFirst_length]))
    have hl := polynomialOf_inj _ _ (by simp [lowFirst_length]) (sub_eq_zero.1 hz)
    apply Nat.eq_of_testBit_eq
    intro i
    by_cases hi : i < 32
    · have := congrArg (fun l => l[i]?) hl
      simpa [lowFirst, hi] using this
    · have hp : 2 ^ 32 ≤ 2 ^ i := Nat.pow_le_pow_right (by decide) (by omega)
      rw [Nat.testBit_lt_two_pow (by omega), Nat.testBit_lt_two_pow (Nat.lt_of_lt_of_le (crc32_lt m) hp)]
  · rintro rfl
    exact ⟨crc32_lt m, key⟩

end Siwe.PrincipalText
