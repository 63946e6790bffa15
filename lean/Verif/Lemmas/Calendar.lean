import Verif.Lemmas.Decimal
import Verif.Model.Time
import Verif.Spec.Time
/- Helper lemmas about calendar arithmetic. -/
namespace Siwe
open Spec

theorem leap_eq (y : Nat) : isLeapYear y = leapYear y := by
  unfold isLeapYear leapYear
  have h : (y % 4 = 0 ∧ (y % 25 ≠ 0 ∨ y % 16 = 0)) ↔ (y % 4 = 0 ∧ (y % 100 ≠ 0 ∨ y % 400 = 0)) := by omega
  rw [Bool.eq_iff_iff]
  simp only [Bool.and_eq_true, beq_iff_eq, Bool.or_eq_true, bne_iff_ne]
  exact h

theorem daysToYear_closed (k : Nat) :
    daysToYear k + 477 + (1969 + k) / 100 = 365 * k + (1969 + k) / 4 + (1969 + k) / 400 := by
  induction k with
  | zero => rfl
  | succ k ih =>
    rw [daysToYear]
    cases h : leapYear (1970 + k)
    · have : ¬((1970 + k) % 4 = 0 ∧ ((1970 + k) % 100 ≠ 0 ∨ (1970 + k) % 400 = 0)) := by
        intro hc
        rw [show leapYear (1970 + k) = true by simpa [leapYear] using hc] at h
        cases h
      simp only [Bool.false_eq_true, if_false]
      omega
    · have : ((1970 + k) % 4 = 0 ∧ ((1970 + k) % 100 ≠ 0 ∨ (1970 + k) % 400 = 0)) := by
        simpa [leapYear] using h
      simp only [if_true]
      omega

/-- One day of the 400-year cycle `A`, century `j`, year `4 q + s` of the cycle. -/
theorem ordinal_core (A j q s r y' o' : Nat) (hj : j < 4) (hs : s < 4)
    (hlo : 146097 * j + 1 ≤ 4 * r) (hhi : 4 * r ≤ 146097 * (j + 1))
    (hYlo : 1461 * (4 * q + s) + 1 ≤ 4 * (j + r)) (hYhi : 4 * (j + r) ≤ 1461 * (4 * q + s + 1))
    (hA : 4 ≤ A)
    (h : (s = 0 ∧ (q ≠ 25 * j ∨ j = 0) ∧
            ((y' = 400 * A + (4 * q + s) + 1 ∧ o' + 366 = j + r - (1461 * q + 365 * s) + 60 ∧
                367 ≤ j + r - (1461 * q + 365 * s) + 60) ∨
              (y' = 400 * A + (4 * q + s) ∧ o' = j + r - (1461 * q + 365 * s) + 60 ∧
                j + r - (1461 * q + 365 * s) + 60 < 367))) ∨
         (¬(s = 0 ∧ (q ≠ 25 * j ∨ j = 0)) ∧
            ((y' = 400 * A + (4 * q + s) + 1 ∧ o' + 365 = j + r - (1461 * q + 365 * s) + 59 ∧
                366 ≤ j + r - (1461 * q + 365 * s) + 59) ∨
              (y' = 400 * A + (4 * q + s) ∧ o' = j + r - (1461 * q + 365 * s) + 59 ∧
                j + r - (1461 * q + 365 * s) + 59 < 366)))) :
    1 ≤ o' ∧ o' ≤ (if isLeapYear y' then 366 else 365) ∧
      365 * y' + (y' - 1) / 4 + (y' - 1) / 400 + o' =
        146097 * A + r + 59 + (y' - 1) / 100 := by
  have hq : 25 * j ≤ q ∧ q ≤ 25 * j + 24 := by omega
  have leapT : isLeapYear y' = true ↔ (y' % 4 = 0 ∧ (y' % 100 ≠ 0 ∨ y' % 400 = 0)) := by
    rw [leap_eq]; simp [leapYear]
  have hl : ∃ e, (if isLeapYear y' then 366 else 365) = 365 + e ∧
      ((e = 1 ∧ y' % 4 = 0 ∧ (y' % 100 ≠ 0 ∨ y' % 400 = 0)) ∨
       (e = 0 ∧ ¬(y' % 4 = 0 ∧ (y' % 100 ≠ 0 ∨ y' % 400 = 0)))) := by
    cases hL : isLeapYear y'
    · exact ⟨0, rfl, Or.inr ⟨rfl, by rw [← leapT, hL]; simp⟩⟩
    · exact ⟨1, rfl, Or.inl ⟨rfl, leapT.mp hL⟩⟩
  obtain ⟨e, he, hle⟩ := hl
  rw [he]
  clear leapT he
  have hj' : j = 0 ∨ j = 1 ∨ j = 2 ∨ j = 3 := by omega
  have hs' : s = 0 ∨ s = 1 ∨ s = 2 ∨ s = 3 := by omega
  rcases hj' with rfl | rfl | rfl | rfl <;> rcases hs' with rfl | rfl | rfl | rfl <;>
    rcases h with ⟨h0, h1, h2 | h2⟩ | ⟨h1, h2 | h2⟩ <;> obtain ⟨rfl, h3, h4⟩ := h2 <;> omega

end Siwe
