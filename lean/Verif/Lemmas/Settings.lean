import Verif.Spec.Settings
/- Sorting and deduplication of targets, and the validators against their requirements. -/
namespace Siwe
open Spec

theorem principalLe_total (a b : Bytes) : (principalLe a b || principalLe b a) = true := by
  unfold principalLe
  by_cases h1 : a.length < b.length
  · simp [h1]
  · by_cases h2 : b.length < a.length
    · simp [h2]
    · simp only [h1, h2, if_false, Bool.or_eq_true]
      have := Std.OrientedOrd.eq_swap (a := a) (b := b)
      cases h : compare b a <;> simp_all [Ordering.isLE]

theorem principalLe_trans (a b c : Bytes) (h1 : principalLe a b = true) (h2 : principalLe b c = true) :
    principalLe a c = true := by
  unfold principalLe at *
  by_cases hac : a.length < c.length
  · simp [hac]
  · by_cases hab : a.length < b.length
    · by_cases hbc : b.length < c.length
      · omega
      · rw [if_neg hbc] at h2
        have : c.length < b.length := by omega
        simp [this] at h2
    · rw [if_neg hab] at h1
      by_cases hba : b.length < a.length
      · simp [hba] at h1
      · rw [if_neg hba] at h1
        by_cases hbc : b.length < c.length
        · omega
        · rw [if_neg hbc] at h2
          by_cases hcb : c.length < b.length
          · simp [hcb] at h2
          · rw [if_neg hcb] at h2
            have : ¬ c.length < a.length := by omega
            rw [if_neg hac, if_neg this]
            exact Std.TransCmp.isLE_trans h1 h2

theorem principalLe_antisymm {a b : Bytes} (h1 : principalLe a b = true) (h2 : principalLe b a = true) :
    a = b := by
  unfold principalLe at *
  by_cases hab : a.length < b.length
  · simp [hab, show ¬ b.length < a.length by omega] at h2
  · by_cases hba : b.length < a.length
    · simp [hab, hba] at h1
    · simp only [hab, hba, if_false] at h1 h2
      have := Std.OrientedOrd.eq_swap (a := a) (b := b)
      have he : compare a b = .eq := by
        cases h : compare a b <;> cases h' : compare b a <;> simp_all [Ordering.isLE]
      exact Std.LawfulEqOrd.eq_of_compare he

theorem dedup_length_le : ∀ l : List Bytes, (dedupConsecutive l).length ≤ l.length
  | [] => by simp [dedupConsecutive]
  | [a] => by simp [dedupConsecutive]
  | a :: b :: rest => by
    have := dedup_length_le (b :: rest)
    rw [dedupConsecutive]
    split
    · simp only [List.length_cons] at *; omega
    · simp only [List.length_cons] at *; omega

theorem dedup_length_eq : ∀ (l : List Bytes), l.Pairwise (fun a b => principalLe a b = true) →
    ((dedupConsecutive l).length = l.length ↔ l.Nodup)
  | [], _ => by simp [dedupConsecutive]
  | [a], _ => by simp [dedupConsecutive]
  | a :: b :: rest, h => by
    have hr := dedup_length_eq (b :: rest) (List.Pairwise.of_cons h)
    have hl := dedup_length_le (b :: rest)
    rw [dedupConsecutive]
    split
    · next e =>
      subst e
      simp only [List.length_cons] at *
      simp only [List.nodup_cons, List.mem_cons, true_or, not_true, false_and, iff_false]
      omega
    · next ne =>
      rw [List.length_cons, List.length_cons, Nat.add_right_cancel_iff, hr, List.nodup_cons (a := a)]
      refine ⟨fun hn => ⟨?_, hn⟩, fun hn => hn.2⟩
      intro hm
      rcases List.mem_cons.mp hm with rfl | hm
      · exact ne rfl
      · have h1 := (List.pairwise_cons.mp h).1 b (by simp)
        have h2 := (List.pairwise_cons.mp (List.Pairwise.of_cons h)).1 a hm
        exact ne (principalLe_antisymm h1 h2)

theorem dedup_sort_nodup (ts : List Bytes) :
    (dedupConsecutive (sortBy principalLe ts)).length = ts.length ↔ ts.Nodup := by
  have hs := sortBy_pairwise principalLe_total principalLe_trans ts
  have hp := sortBy_perm principalLe ts
  rw [← hp.length_eq, dedup_length_eq _ hs, hp.nodup_iff]

/-- Outcome of a check against a requirement. -/
def Checks (r : Res SettingsError Unit) (p : Prop) (e : SettingsError) : Prop :=
  (p → r = .ok ()) ∧ (¬p → r = .err e)

theorem checks_uri (E : Env) (s : Settings) : Checks (validateUri E s.uri) (UriOk E s) .invalidUri := by
  unfold Checks validateUri UriOk
  cases h : E.urlParse s.uri with
  | none => simp
  | some u =>
    obtain ⟨a, host⟩ := u
    cases host <;> simp

theorem salt_graphic (salt : Bytes) :
    (salt.any (fun c => !isAsciiGraphic c) = true) ↔ ¬ ∀ c ∈ salt, 33 ≤ c.toNat ∧ c.toNat ≤ 126 := by
  simp only [List.any_eq_true, isAsciiGraphic, Bool.not_eq_true', Bool.and_eq_false_iff,
    decide_eq_false_iff_not, UInt8.le_iff_toNat_le, Classical.not_forall]
  constructor
  · rintro ⟨x, hx, h⟩
    exact ⟨x, hx, by simp at h; omega⟩
  · rintro ⟨x, hx, h⟩
    exact ⟨x, hx, by simp; omega⟩

end Siwe
