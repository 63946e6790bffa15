import Verif.Model.Secp256k1
import Mathlib.NumberTheory.LucasPrimality
import Mathlib.Tactic.NormNum.Prime
import Mathlib.Data.Nat.Prime.Basic
import Mathlib.Algebra.BigOperators.Associated
/-
The field size and the group order of secp256k1 are prime: certificates of Pratt, checked by the kernel.
-/
namespace Siwe.Secp

/-- The number with the given binary digits. -/
def valBits (e : List Bool) : Nat := e.foldl (fun acc b => 2 * acc + if b then 1 else 0) 0

theorem valBits_append (e : List Bool) (b : Bool) : valBits (e ++ [b]) = 2 * valBits e + if b then 1 else 0 := by
  simp [valBits]

theorem powMod_append (m b : Nat) (e : List Bool) (x : Bool) :
    powMod m b (e ++ [x]) = if x then powMod m b e * powMod m b e % m * b % m else powMod m b e * powMod m b e % m := by
  simp [powMod]

theorem bitsOf_succ (k n : Nat) : bitsOf (k + 1) n = bitsOf k (n / 2) ++ [n.testBit 0] := by
  unfold bitsOf
  rw [List.range_succ_eq_map]
  simp only [List.reverse_cons, List.map_append, List.map_cons, List.map_nil, List.append_cancel_right_eq]
  rw [← List.map_reverse, List.map_map]
  apply List.map_congr_left
  intro i _
  simp only [Function.comp, Nat.succ_eq_add_one, Nat.testBit_succ]

theorem valBits_bitsOf (k : Nat) : ∀ n, n < 2 ^ k → valBits (bitsOf k n) = n := by
  induction k with
  | zero => intro n h; simp [bitsOf, valBits] at *; omega
  | succ k ih =>
    intro n h
    rw [bitsOf_succ, valBits_append, ih (n / 2) (by rw [Nat.pow_succ] at h; omega)]
    have := Nat.div_add_mod n 2
    rcases Nat.mod_two_eq_zero_or_one n with h0 | h0 <;> simp [Nat.testBit_zero, h0] <;> omega

theorem powMod_cast (m b : Nat) (e : List Bool) : ((powMod m b e : Nat) : ZMod m) = (b : ZMod m) ^ valBits e := by
  induction e using List.reverseRecOn with
  | nil => simp [powMod, valBits]
  | append_singleton e x ih =>
    rw [powMod_append, valBits_append]
    cases x
    · simp [ZMod.natCast_mod, ih, pow_mul, pow_two, mul_pow]
    · simp only [if_true, ZMod.natCast_mod, Nat.cast_mul, ih]
      rw [pow_add, pow_mul, pow_two, pow_one, mul_pow]

/-- The check of a certificate: the factors multiply to `p - 1` and `a` has order `p - 1`. -/
def certified (p a : Nat) (fs : List Nat) : Bool :=
  decide (1 < p) && decide (p < 2 ^ 256) && fs.prod == p - 1 && powMod p a (bitsOf 256 (p - 1)) == 1 &&
    fs.all fun f => powMod p a (bitsOf 256 ((p - 1) / f)) != 1 && decide (powMod p a (bitsOf 256 ((p - 1) / f)) < p)

theorem prime_of_certified (p a : Nat) (fs : List Nat) (hf : ∀ f ∈ fs, f.Prime) (h : certified p a fs = true) :
    p.Prime := by
  simp only [certified, Bool.and_eq_true, decide_eq_true_eq, beq_iff_eq, List.all_eq_true, bne_iff_ne] at h
  obtain ⟨⟨⟨⟨h1, hlt⟩, hprod⟩, hpow⟩, hall⟩ := h
  have val : ∀ k, k ≤ p → valBits (bitsOf 256 k) = k := fun k hk => valBits_bitsOf 256 k (by omega)
  refine lucas_primality p (a : ZMod p) ?_ ?_
  · rw [← val (p - 1) (by omega), ← powMod_cast, hpow, Nat.cast_one]
  · intro q hq hd
    rw [← hprod, Prime.dvd_prod_iff hq.prime] at hd
    obtain ⟨f, hfm, hqf⟩ := hd
    have hqf' : q = f := (Nat.prime_dvd_prime_iff_eq hq (hf f hfm)).1 hqf
    subst hqf'
    obtain ⟨hne, hl⟩ := hall q hfm
    intro hc
    rw [← val ((p - 1) / q) (Nat.le_trans (Nat.div_le_self _ _) (by omega)), ← powMod_cast] at hc
    have : ((powMod p a (bitsOf 256 ((p - 1) / q)) : Nat) : ZMod p) = ((1 : Nat) : ZMod p) := by rw [hc, Nat.cast_one]
    rw [ZMod.natCast_eq_natCast_iff', Nat.mod_eq_of_lt hl, Nat.mod_eq_of_lt h1] at this
    exact hne this

theorem prime_1206781 : Nat.Prime 1206781 := by
  refine prime_of_certified _ 10 [2, 2, 3, 5, 20113] ?_ (by decide +kernel)
  intro f hf
  fin_cases hf
  · norm_num
  · norm_num
  · norm_num
  · norm_num
  · norm_num

theorem prime_7240687 : Nat.Prime 7240687 := by
  refine prime_of_certified _ 3 [2, 3, 1206781] ?_ (by decide +kernel)
  intro f hf
  fin_cases hf
  · norm_num
  · norm_num
  · exact prime_1206781

theorem prime_107590001 : Nat.Prime 107590001 := by
  refine prime_of_certified _ 3 [2, 2, 2, 2, 5, 5, 5, 5, 7, 29, 53] ?_ (by decide +kernel)
  intro f hf
  fin_cases hf
  · norm_num
  · norm_num
  · norm_num
  · norm_num
  · norm_num
  · norm_num
  · norm_num
  · norm_num
  · norm_num
  · norm_num
  · norm_num

theorem prime_large3 : Nat.Prime 255515944373312847190720520512484175977 := by
  refine prime_of_certified _ 3 [2, 2, 2, 7, 7, 11, 1627, 2657, 4423, 41201, 96557, 7240687, 107590001] ?_ (by decide +kernel)
  intro f hf
  fin_cases hf
  · norm_num
  · norm_num
  · norm_num
  · norm_num
  · norm_num
  · norm_num
  · norm_num
  · norm_num
  · norm_num
  · norm_num
  · norm_num
  · exact prime_7240687
  · exact prime_107590001

theorem prime_13331831 : Nat.Prime 13331831 := by
  refine prime_of_certified _ 13 [2, 5, 971, 1373] ?_ (by decide +kernel)
  intro f hf
  fin_cases hf
  · norm_num
  · norm_num
  · norm_num
  · norm_num

theorem prime_large5 : Nat.Prime 173378833005251801 := by
  refine prime_of_certified _ 6 [2, 2, 2, 5, 5, 2621, 24809, 13331831] ?_ (by decide +kernel)
  intro f hf
  fin_cases hf
  · norm_num
  · norm_num
  · norm_num
  · norm_num
  · norm_num
  · norm_num
  · norm_num
  · exact prime_13331831

theorem prime_large6 : Nat.Prime 22149492674086928081353 := by
  refine prime_of_certified _ 5 [2, 2, 2, 3, 5323, 173378833005251801] ?_ (by decide +kernel)
  intro f hf
  fin_cases hf
  · norm_num
  · norm_num
  · norm_num
  · norm_num
  · norm_num
  · exact prime_large5

theorem prime_large7 : Nat.Prime 132896956044521568488119 := by
  refine prime_of_certified _ 6 [2, 3, 22149492674086928081353] ?_ (by decide +kernel)
  intro f hf
  fin_cases hf
  · norm_num
  · norm_num
  · exact prime_large6

theorem prime_large8 : Nat.Prime 205115282021455665897114700593932402728804164701536103180137503955397371 := by
  refine prime_of_certified _ 10 [2, 3, 5, 29, 29, 31, 7723, 255515944373312847190720520512484175977, 132896956044521568488119] ?_ (by decide +kernel)
  intro f hf
  fin_cases hf
  · norm_num
  · norm_num
  · norm_num
  · norm_num
  · norm_num
  · norm_num
  · norm_num
  · exact prime_large3
  · exact prime_large7

theorem fieldP_prime : Nat.Prime fieldP := by
  refine prime_of_certified _ 3 [2, 3, 7, 13441, 205115282021455665897114700593932402728804164701536103180137503955397371] ?_ (by decide +kernel)
  intro f hf
  fin_cases hf
  · norm_num
  · norm_num
  · norm_num
  · norm_num
  · exact prime_large8

theorem prime_4681609 : Nat.Prime 4681609 := by
  refine prime_of_certified _ 23 [2, 2, 2, 3, 97, 2011] ?_ (by decide +kernel)
  intro f hf
  fin_cases hf
  · norm_num
  · norm_num
  · norm_num
  · norm_num
  · norm_num
  · norm_num

theorem prime_large11 : Nat.Prime 107361793816595537 := by
  refine prime_of_certified _ 3 [2, 2, 2, 2, 16699, 85831, 4681609] ?_ (by decide +kernel)
  intro f hf
  fin_cases hf
  · norm_num
  · norm_num
  · norm_num
  · norm_num
  · norm_num
  · norm_num
  · exact prime_4681609

theorem prime_44706919 : Nat.Prime 44706919 := by
  refine prime_of_certified _ 6 [2, 3, 797, 9349] ?_ (by decide +kernel)
  intro f hf
  fin_cases hf
  · norm_num
  · norm_num
  · norm_num
  · norm_num

theorem prime_large13 : Nat.Prime 174723607534414371449 := by
  refine prime_of_certified _ 3 [2, 2, 2, 17, 59, 4051, 120233, 44706919] ?_ (by decide +kernel)
  intro f hf
  fin_cases hf
  · norm_num
  · norm_num
  · norm_num
  · norm_num
  · norm_num
  · norm_num
  · norm_num
  · exact prime_44706919

theorem prime_545358713 : Nat.Prime 545358713 := by
  refine prime_of_certified _ 5 [2, 2, 2, 41, 59, 28181] ?_ (by decide +kernel)
  intro f hf
  fin_cases hf
  · norm_num
  · norm_num
  · norm_num
  · norm_num
  · norm_num
  · norm_num

theorem prime_1627771 : Nat.Prime 1627771 := by
  refine prime_of_certified _ 3 [2, 3, 5, 29, 1871] ?_ (by decide +kernel)
  intro f hf
  fin_cases hf
  · norm_num
  · norm_num
  · norm_num
  · norm_num
  · norm_num

theorem prime_297159362677 : Nat.Prime 297159362677 := by
  refine prime_of_certified _ 2 [2, 2, 3, 3, 11, 461, 1627771] ?_ (by decide +kernel)
  intro f hf
  fin_cases hf
  · norm_num
  · norm_num
  · norm_num
  · norm_num
  · norm_num
  · norm_num
  · exact prime_1627771

theorem prime_large17 : Nat.Prime 29047611873442575647497758179 := by
  refine prime_of_certified _ 2 [2, 293, 305873, 545358713, 297159362677] ?_ (by decide +kernel)
  intro f hf
  fin_cases hf
  · norm_num
  · norm_num
  · norm_num
  · exact prime_545358713
  · exact prime_297159362677

theorem prime_large18 : Nat.Prime 341948486974166000522343609283189 := by
  refine prime_of_certified _ 2 [2, 2, 3, 3, 3, 109, 29047611873442575647497758179] ?_ (by decide +kernel)
  intro f hf
  fin_cases hf
  · norm_num
  · norm_num
  · norm_num
  · norm_num
  · norm_num
  · norm_num
  · exact prime_large17

theorem orderN_prime : Nat.Prime orderN := by
  refine prime_of_certified _ 7 [2, 2, 2, 2, 2, 2, 3, 149, 631, 107361793816595537, 174723607534414371449, 341948486974166000522343609283189] ?_ (by decide +kernel)
  intro f hf
  fin_cases hf
  · norm_num
  · norm_num
  · norm_num
  · norm_num
  · norm_num
  · norm_num
  · norm_num
  · norm_num
  · norm_num
  · exact prime_large11
  · exact prime_large13
  · exact prime_large18

end Siwe.Secp
