import Verif.Lemmas.Hex
/- Helper lemmas about decimal notation. -/
namespace Siwe
open Spec

/-- value of a digit string -/
def decVal (ds : Bytes) : Nat := ds.foldl (fun a c => 10 * a + (c.toNat - 48)) 0

theorem decVal_snoc (ds : Bytes) (c : UInt8) : decVal (ds ++ [c]) = 10 * decVal ds + (c.toNat - 48) := by
  simp [decVal]

theorem decVal_cons_aux (ds : Bytes) (a : Nat) :
    ds.foldl (fun a c => 10 * a + (c.toNat - 48)) a = a * 10 ^ ds.length + decVal ds := by
  induction ds generalizing a with
  | nil => simp [decVal]
  | cons c cs ih =>
    have h0 := ih (10 * 0 + (c.toNat - 48))
    simp only [List.foldl_cons, List.length_cons, decVal] at *
    rw [ih, h0, Nat.pow_succ, Nat.add_mul]
    simp only [Nat.mul_zero, Nat.zero_add]
    have : 10 * a * 10 ^ cs.length = a * (10 ^ cs.length * 10) := by
      rw [Nat.mul_comm 10 a, Nat.mul_assoc, Nat.mul_comm 10]
    omega

theorem decVal_append (a b : Bytes) : decVal (a ++ b) = decVal a * 10 ^ b.length + decVal b := by
  simp only [decVal, List.foldl_append]
  exact decVal_cons_aux b _

theorem digit_toNat {k : Nat} (h : k < 10) : (UInt8.ofNat (48 + k)).toNat = 48 + k := by
  rw [UInt8.toNat_ofNat']; omega

theorem digit_range {k : Nat} (h : k < 10) : 48 ≤ UInt8.ofNat (48 + k) ∧ UInt8.ofNat (48 + k) ≤ 57 := by
  have := digit_toNat h
  constructor
  · rw [UInt8.le_iff_toNat_le, this]; simp
  · rw [UInt8.le_iff_toNat_le, this]; simp; omega

theorem decimalGo_spec : ∀ (fuel n : Nat), n < fuel →
    decimalGo fuel n ≠ [] ∧ (∀ c ∈ decimalGo fuel n, 48 ≤ c ∧ c ≤ 57) ∧
    (1 < (decimalGo fuel n).length → (decimalGo fuel n).head? ≠ some 48) ∧
    decVal (decimalGo fuel n) = n ∧ (0 < n → (decimalGo fuel n).head? ≠ some 48)
  | 0, n, h => by omega
  | fuel + 1, n, h => by
    rw [decimalGo]
    by_cases hn : n < 10
    · rw [if_pos hn]
      refine ⟨by simp, ?_, by simp, ?_, ?_⟩
      · intro c hc
        simp only [List.mem_singleton] at hc
        subst hc; exact digit_range hn
      · simp only [decVal, List.foldl_cons, List.foldl_nil]
        rw [digit_toNat hn]; omega
      · intro h0 hc
        simp only [List.head?_cons, Option.some.injEq] at hc
        have := congrArg UInt8.toNat hc
        rw [digit_toNat hn] at this
        simp at this; omega
    · rw [if_neg hn]
      obtain ⟨h1, h2, h3, h4, h5⟩ := decimalGo_spec fuel (n / 10) (by omega)
      have hm : n % 10 < 10 := Nat.mod_lt _ (by omega)
      have hhead : (decimalGo fuel (n / 10) ++ [UInt8.ofNat (48 + n % 10)]).head? =
          (decimalGo fuel (n / 10)).head? := by
        cases hd : decimalGo fuel (n / 10) with
        | nil => exact absurd hd h1
        | cons a as => simp
      refine ⟨by simp, ?_, ?_, ?_, ?_⟩
      · intro c hc
        simp only [List.mem_append, List.mem_singleton] at hc
        rcases hc with hc | rfl
        · exact h2 c hc
        · exact digit_range hm
      · intro _; rw [hhead]; exact h5 (by omega)
      · rw [decVal_snoc, h4, digit_toNat hm]; omega
      · intro _; rw [hhead]; exact h5 (by omega)

theorem decimal_spec (n : Nat) : IsDecimal n (decimal n) := by
  obtain ⟨h1, h2, h3, h4, _⟩ := decimalGo_spec (n + 1) n (by omega)
  exact ⟨h1, h2, h3, h4⟩

theorem decVal_lt : ∀ (ds : Bytes), (∀ c ∈ ds, 48 ≤ c ∧ c ≤ 57) → decVal ds < 10 ^ ds.length
  | [], _ => by simp [decVal]
  | c :: cs, h => by
    have ih := decVal_lt cs fun d hd => h d (by simp [hd])
    have hc := h c (by simp)
    have h1 : decVal (c :: cs) = (c.toNat - 48) * 10 ^ cs.length + decVal cs := by
      have := decVal_append [c] cs
      simpa [decVal] using this
    have hc2 : c.toNat - 48 ≤ 9 := by
      have := UInt8.le_iff_toNat_le.mp hc.2
      simp at this; omega
    have : (c.toNat - 48) * 10 ^ cs.length ≤ 9 * 10 ^ cs.length := Nat.mul_le_mul_right _ hc2
    rw [h1, List.length_cons, Nat.pow_succ]; omega

/-- equal-length digit strings with equal value are equal -/
theorem decVal_inj : ∀ {a b : Bytes}, (∀ c ∈ a, 48 ≤ c ∧ c ≤ 57) → (∀ c ∈ b, 48 ≤ c ∧ c ≤ 57) →
    a.length = b.length → decVal a = decVal b → a = b
  | [], [], _, _, _, _ => rfl
  | x :: xs, y :: ys, ha, hb, hl, hv => by
    have hl' : xs.length = ys.length := by simpa using hl
    have h1 : decVal (x :: xs) = (x.toNat - 48) * 10 ^ xs.length + decVal xs := by
      simpa [decVal] using decVal_append [x] xs
    have h2 : decVal (y :: ys) = (y.toNat - 48) * 10 ^ ys.length + decVal ys := by
      simpa [decVal] using decVal_append [y] ys
    have l1 := decVal_lt xs fun d hd => ha d (by simp [hd])
    have l2 := decVal_lt ys fun d hd => hb d (by simp [hd])
    rw [h1, h2, hl'] at hv
    rw [hl'] at l1
    have hx := ha x (by simp)
    have hy := hb y (by simp)
    have hq : x.toNat - 48 = y.toNat - 48 := by
      have e1 := Nat.add_mul_div_right (decVal xs) (x.toNat - 48) (Nat.pos_of_lt_mul_right (by
        rw [Nat.mul_one]; exact Nat.lt_of_le_of_lt (Nat.zero_le _) l1) : 0 < 10 ^ ys.length)
      have e2 := Nat.add_mul_div_right (decVal ys) (y.toNat - 48) (Nat.pos_of_lt_mul_right (by
        rw [Nat.mul_one]; exact Nat.lt_of_le_of_lt (Nat.zero_le _) l1) : 0 < 10 ^ ys.length)
      rw [Nat.div_eq_of_lt l1] at e1
      rw [Nat.div_eq_of_lt l2] at e2
      rw [Nat.add_comm] at e1 e2
      rw [hv] at e1
      omega
    have hv' : decVal xs = decVal ys := by rw [hq] at hv; omega
    have hxy : x = y := by
      apply UInt8.toNat_inj.mp
      have h3 := UInt8.le_iff_toNat_le.mp hx.1
      have h4 := UInt8.le_iff_toNat_le.mp hy.1
      simp at h3 h4; omega
    rw [hxy, decVal_inj (fun d hd => ha d (by simp [hd])) (fun d hd => hb d (by simp [hd])) hl' hv']
  | [], _ :: _, _, _, hl, _ => by simp at hl
  | _ :: _, [], _, _, hl, _ => by simp at hl

/-- a digit string with non-zero first digit is at least a power of ten -/
theorem decVal_ge {c : UInt8} {cs : Bytes} (h : ∀ d ∈ c :: cs, 48 ≤ d ∧ d ≤ 57) (hc : c ≠ 48) :
    10 ^ cs.length ≤ decVal (c :: cs) := by
  have h1 : decVal (c :: cs) = (c.toNat - 48) * 10 ^ cs.length + decVal cs := by
    simpa [decVal] using decVal_append [c] cs
  have : 1 ≤ c.toNat - 48 := by
    have h3 := UInt8.le_iff_toNat_le.mp (h c (by simp)).1
    have : c.toNat ≠ 48 := fun e => hc (UInt8.toNat_inj.mp (by simpa using e))
    simp at h3; omega
  calc 10 ^ cs.length = 1 * 10 ^ cs.length := (Nat.one_mul _).symm
    _ ≤ (c.toNat - 48) * 10 ^ cs.length := Nat.mul_le_mul_right _ this
    _ ≤ _ := by omega

/-- decimal notation is unique -/
theorem isDecimal_unique {n : Nat} {a b : Bytes} (ha : IsDecimal n a) (hb : IsDecimal n b) : a = b := by
  obtain ⟨a1, a2, a3, a4⟩ := ha
  obtain ⟨b1, b2, b3, b4⟩ := hb
  have key : ∀ {x y : Bytes}, x ≠ [] → (∀ c ∈ x, 48 ≤ c ∧ c ≤ 57) → (∀ c ∈ y, 48 ≤ c ∧ c ≤ 57) →
      (1 < y.length → y.head? ≠ some 48) → decVal x = decVal y → y.length ≤ x.length := by
    intro x y hx hx2 hy2 hy3 hxy
    by_cases hl : y.length ≤ x.length
    · exact hl
    · exfalso
      cases y with
      | nil => simp at hl
      | cons c cs =>
        have hxl : 0 < x.length := List.length_pos_iff.mpr hx
        simp only [List.length_cons] at hl hy3
        have hc : c ≠ 48 := by
          have := hy3 (by omega)
          simpa using this
        have h1 := decVal_ge hy2 hc
        have h2 := decVal_lt x hx2
        have h3 : 10 ^ x.length ≤ 10 ^ cs.length := Nat.pow_le_pow_right (by omega) (by omega)
        omega
  have hv : decVal a = decVal b := a4.trans b4.symm
  exact decVal_inj a2 b2 (Nat.le_antisymm (key b1 b2 a2 a3 hv.symm) (key a1 a2 b2 b3 hv)) hv

theorem decimal_length_mono {m n : Nat} (h : m ≤ n) : (decimal m).length ≤ (decimal n).length := by
  obtain ⟨a1, a2, a3, a4⟩ := decimal_spec m
  obtain ⟨b1, b2, b3, b4⟩ := decimal_spec n
  by_cases hl : (decimal m).length ≤ (decimal n).length
  · exact hl
  · exfalso
    have hn : 0 < (decimal n).length := List.length_pos_iff.mpr b1
    cases hm : decimal m with
    | nil => exact a1 hm
    | cons c cs =>
      rw [hm] at hl a2 a3 a4
      simp only [List.length_cons] at hl a3
      have hc : c ≠ 48 := by have := a3 (by omega); simpa using this
      have h1 := decVal_ge a2 hc
      have h2 := decVal_lt _ b2
      have h3 : 10 ^ (decimal n).length ≤ 10 ^ cs.length := Nat.pow_le_pow_right (by omega) (by omega)
      have e1 : decVal (c :: cs) = m := a4
      have e2 : decVal (decimal n) = n := b4
      omega

theorem decimal_inj {m n : Nat} (h : decimal m = decimal n) : m = n := by
  have h1 : decVal (decimal m) = m := (decimal_spec m).2.2.2
  have h2 : decVal (decimal n) = n := (decimal_spec n).2.2.2
  rw [← h1, ← h2, h]

end Siwe
