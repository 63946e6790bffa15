import Verif.Model.Utf8
import Verif.Spec.Utf8
/- Helper lemmas: texts in UTF-8. -/
namespace Siwe
open Spec

theorem continues_iff (b : UInt8) : continues b = true ↔ ∃ v, Continues b v := by
  simp only [continues, Continues, Bool.and_eq_true, decide_eq_true_eq, UInt8.le_iff_toNat_le]
  have := b.toNat_lt
  constructor
  · rintro ⟨h1, h2⟩
    exact ⟨b.toNat - 128, by simp at h1 h2; omega, by simp at h2; omega⟩
  · rintro ⟨v, h1, h2⟩
    simp
    omega

theorem isUtf8_sound : ∀ (k : Nat) (b : Bytes), b.length ≤ k → isUtf8 b = true → IsUtf8 b := by
  intro k
  induction k with
  | zero =>
    intro b h _
    cases List.length_eq_zero_iff.1 (Nat.le_zero.1 h)
    exact .nil
  | succ k ih =>
    intro s hl h
    unfold isUtf8 at h
    cases s with
    | nil => exact .nil
    | cons a s =>
      simp only [List.length_cons] at hl
      simp only at h
      split at h
      · rename_i ha
        rw [UInt8.lt_iff_toNat_lt] at ha
        simp at ha
        exact .cons (c := [a]) (n := a.toNat) (.inl (by omega)) (.inl ⟨a, rfl, rfl, by omega⟩) (ih s (by omega) h)
      · cases s with
        | nil => exact nomatch h
        | cons b s =>
          simp only [List.length_cons] at hl
          simp only at h
          split at h
          · rename_i ha
            rw [Bool.and_eq_true, continues_iff] at h
            obtain ⟨⟨v, hv⟩, h⟩ := h
            simp only [UInt8.le_iff_toNat_le] at ha
            simp at ha
            have hv' := hv
            unfold Continues at hv'
            refine .cons (c := [a, b]) (n := 64 * (a.toNat - 192) + v) (.inl (by omega)) (.inr (.inl ⟨a, b, a.toNat - 192, v, rfl,
              by omega, by omega, hv, rfl, by omega⟩)) (ih s (by omega) h)
          · cases s with
            | nil => exact nomatch h
            | cons c s =>
              simp only [List.length_cons] at hl
              simp only at h
              split at h
              · rename_i ha
                rw [Bool.and_eq_true, Bool.and_eq_true, continues_iff] at h
                obtain ⟨⟨hb, w, hw⟩, h⟩ := h
                have hw' := hw
                unfold Continues at hw'
                simp only [continues, Bool.or_eq_true, Bool.and_eq_true, decide_eq_true_eq, UInt8.le_iff_toNat_le, ← UInt8.toNat_inj] at hb ha
                simp at hb ha
                refine .cons (c := [a, b, c]) (n := 64 * (64 * (a.toNat - 224) + (b.toNat - 128)) + w) ?_
                  (.inr (.inr (.inl ⟨a, b, c, a.toNat - 224, b.toNat - 128, w, rfl, by omega, by omega, ⟨by omega, by omega⟩, hw, rfl, by omega⟩)))
                  (ih s (by omega) h)
                unfold ScalarValue
                omega
              · cases s with
                | nil => exact nomatch h
                | cons d s =>
                  simp only [List.length_cons] at hl
                  simp only at h
                  rw [Bool.and_eq_true, Bool.and_eq_true, Bool.and_eq_true, continues_iff, continues_iff] at h
                  obtain ⟨⟨⟨hb, w, hw⟩, u, hu⟩, h⟩ := h
                  have hw' := hw
                  have hu' := hu
                  unfold Continues at hw' hu'
                  simp only [continues, Bool.or_eq_true, Bool.and_eq_true, decide_eq_true_eq, UInt8.le_iff_toNat_le, ← UInt8.toNat_inj] at hb
                  simp at hb
                  refine .cons (c := [a, b, c, d]) (n := 64 * (64 * (64 * (a.toNat - 240) + (b.toNat - 128)) + w) + u) ?_
                    (.inr (.inr (.inr ⟨a, b, c, d, a.toNat - 240, b.toNat - 128, w, u, rfl, by omega, by omega, ⟨by omega, by omega⟩, hw, hu,
                      rfl, by omega⟩))) (ih s (by omega) h)
                  unfold ScalarValue
                  omega

theorem isUtf8_complete {b : Bytes} (h : IsUtf8 b) : isUtf8 b = true := by
  induction h with
  | nil => rfl
  | cons hs hu _ ih =>
    rename_i n c s
    unfold ScalarValue at hs
    rcases hu with ⟨a, rfl, h1, h2⟩ | ⟨a, b, x, y, rfl, h1, h2, h3, h5, h6⟩ |
      ⟨a, b, c, x, y, z, rfl, h1, h2, h3, h5, h7, h8⟩ |
      ⟨a, b, c, d, x, y, z, w, rfl, h1, h2, h3, h5, h7, h9, h10⟩
    · simp only [List.cons_append, List.nil_append]
      unfold isUtf8
      rw [if_pos (by rw [UInt8.lt_iff_toNat_lt]; simp; omega)]
      exact ih
    · simp only [List.cons_append, List.nil_append]
      have hc := (continues_iff b).2 ⟨_, h3⟩
      unfold Continues at h3
      unfold isUtf8
      simp only
      rw [if_neg (by rw [UInt8.lt_iff_toNat_lt]; simp; omega), if_pos (by simp only [UInt8.le_iff_toNat_le]; simp; omega), hc, ih]
      rfl
    · simp only [List.cons_append, List.nil_append]
      have hc := (continues_iff c).2 ⟨_, h5⟩
      unfold Continues at h3 h5
      unfold isUtf8
      simp only
      rw [if_neg (by rw [UInt8.lt_iff_toNat_lt]; simp; omega), if_neg (by simp only [UInt8.le_iff_toNat_le]; simp; omega),
        if_pos (by simp only [UInt8.le_iff_toNat_le]; simp; omega), hc, ih]
      simp only [continues, Bool.or_eq_true, Bool.and_eq_true, decide_eq_true_eq, UInt8.le_iff_toNat_le, ← UInt8.toNat_inj, and_true]
      simp
      omega
    · simp only [List.cons_append, List.nil_append]
      have hc := (continues_iff c).2 ⟨_, h5⟩
      have hd := (continues_iff d).2 ⟨_, h7⟩
      unfold Continues at h3 h5 h7
      unfold isUtf8
      simp only
      rw [if_neg (by rw [UInt8.lt_iff_toNat_lt]; simp; omega), if_neg (by simp only [UInt8.le_iff_toNat_le]; simp; omega),
        if_neg (by simp only [UInt8.le_iff_toNat_le]; simp; omega), hc, hd, ih]
      simp only [continues, Bool.or_eq_true, Bool.and_eq_true, decide_eq_true_eq, UInt8.le_iff_toNat_le, ← UInt8.toNat_inj, and_true]
      simp
      omega

theorem isUtf8_iff (b : Bytes) : isUtf8 b = true ↔ IsUtf8 b := ⟨isUtf8_sound _ b (Nat.le_refl _), isUtf8_complete⟩

theorem utf8_append {a b : Bytes} (ha : IsUtf8 a) (hb : IsUtf8 b) : IsUtf8 (a ++ b) := by
  induction ha with
  | nil => exact hb
  | cons h1 h2 _ ih =>
    rw [List.append_assoc]
    exact .cons h1 h2 ih

theorem utf8_ascii : ∀ b : Bytes, (∀ c ∈ b, UInt8.toNat c < 128) → IsUtf8 b
  | [], _ => .nil
  | c :: b, h => by
    have hc := h c (by simp)
    exact .cons (c := [c]) (.inl (by omega)) (.inl ⟨c, rfl, rfl, by omega⟩) (utf8_ascii b fun x hx => h x (by simp [hx]))

end Siwe
