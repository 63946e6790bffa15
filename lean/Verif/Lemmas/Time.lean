import Verif.Lemmas.Calendar
import Mathlib.Tactic.ByContra
import Mathlib.Tactic.SplitIfs
/- Helper lemmas about RFC 3339 rendering. -/
namespace Siwe
open Spec

theorem yo_decomp (d : Nat) (hd : d < 213504) : ∃ A j r, 719469 + d = 146097 * A + r ∧ j < 4 ∧ 146097 * j + 1 ≤ 4 * r ∧
      4 * r ≤ 146097 * (j + 1) ∧ 4 ≤ A ∧ A ≤ 6 := by
  have hr : (719469 + d - 1) % 146097 < 146097 := Nat.mod_lt _ (by omega)
  refine ⟨(719469 + d - 1) / 146097, (4 * ((719469 + d - 1) % 146097) + 3) / 146097,
      (719469 + d - 1) % 146097 + 1, ?_, ?_, ?_, ?_, ?_, ?_⟩ <;> omega

theorem yo_year (j r : Nat) : 1 ≤ j + r → ∃ q s, s < 4 ∧ 1461 * (4 * q + s) + 1 ≤ 4 * (j + r) ∧ 4 * (j + r) ≤ 1461 * (4 * q + s + 1) := by
  intro h
  refine ⟨(4 * (j + r) - 1) / 1461 / 4, (4 * (j + r) - 1) / 1461 % 4, ?_, ?_, ?_⟩ <;> omega

theorem yo_leap (A j q s : Nat) (hj : j < 4) (hs : s < 4) (hq : 25 * j ≤ q ∧ q ≤ 25 * j + 24) :
    isLeapYear (400 * A + (4 * q + s)) = true ↔ (s = 0 ∧ (q ≠ 25 * j ∨ j = 0)) := by
  rw [leap_eq]
  simp only [leapYear, Bool.and_eq_true, beq_iff_eq, Bool.or_eq_true, bne_iff_ne]
  have hj' : j = 0 ∨ j = 1 ∨ j = 2 ∨ j = 3 := by omega
  rcases hj' with rfl | rfl | rfl | rfl <;> omega

theorem yo_eq (A j q s r d : Nat) (hzr : 719469 + d = 146097 * A + r) (hj : j < 4) (hs : s < 4)
    (hlo : 146097 * j + 1 ≤ 4 * r) (hhi : 4 * r ≤ 146097 * (j + 1))
    (hYlo : 1461 * (4 * q + s) + 1 ≤ 4 * (j + r)) (hYhi : 4 * (j + r) ≤ 1461 * (4 * q + s + 1)) :
  yearOrdinal (2440588 + d) =
      if isLeapYear (400 * A + (4 * q + s)) then
        if j + r - (1461 * q + 365 * s) + 60 ≥ 367 then
          (400 * A + (4 * q + s) + 1, j + r - (1461 * q + 365 * s) + 60 - 366)
        else (400 * A + (4 * q + s), j + r - (1461 * q + 365 * s) + 60)
      else
        if j + r - (1461 * q + 365 * s) + 59 ≥ 366 then
          (400 * A + (4 * q + s) + 1, j + r - (1461 * q + 365 * s) + 59 - 365)
        else (400 * A + (4 * q + s), j + r - (1461 * q + 365 * s) + 59) := by
  have hz : 2440588 + d - 1721119 = 146097 * A + r := by omega
  have hg : 100 * (146097 * A + r) - 25 = 25 * (4 * (146097 * A + r) - 1) := by omega
  have ha : 25 * (4 * (146097 * A + r) - 1) / 3652425 = 4 * A + j := by omega
  have hb : (4 * A + j) - (4 * A + j) / 4 = 3 * A + j := by omega
  have hyear : (100 * (3 * A + j) + 25 * (4 * (146097 * A + r) - 1)) / 36525 = 400 * A + (4 * q + s) := by omega
  have hfl : 36525 * (400 * A + (4 * q + s)) / 100 = 146100 * A + (1461 * q + 365 * s) := by omega
  have hord : 3 * A + j + (146097 * A + r) - (146100 * A + (1461 * q + 365 * s)) =
      j + r - (1461 * q + 365 * s) := by omega
  unfold yearOrdinal
  rw [hz]
  simp only []
  rw [hg, ha, hb, hyear, hfl, hord]

theorem yo_final (A q s r d Y O D : Nat) (hzr : 719469 + d = 146097 * A + r) (hO : 1 ≤ O) (hO2 : O ≤ 366) (hO3 : Y = 1969 → O ≤ 365)
    (hY : 400 * A + (4 * q + s) ≤ Y) (hY2 : Y ≤ 400 * A + (4 * q + s) + 1)
    (c : 365 * Y + (Y - 1) / 4 + (Y - 1) / 400 + O = 146097 * A + r + 59 + (Y - 1) / 100)
    (hc : 1970 ≤ Y → D + 477 + (Y - 1) / 100 = 365 * (Y - 1970) + (Y - 1) / 4 + (Y - 1) / 400) :
    1970 ≤ Y ∧ D + (O - 1) = d := by
  have h : 1970 ≤ Y := by
    by_contra hn
    by_cases h9 : Y = 1969
    · have := hO3 h9
      subst h9
      omega
    · have : (Y - 1) / 4 ≤ 491 := by omega
      have : (Y - 1) / 400 ≤ 4 := by omega
      have : 25 * ((Y - 1) / 100) + 24 ≥ (Y - 1) / 4 := by omega
      omega
  have := hc h
  omega

theorem yearOrdinal_spec (d : Nat) (hd : d < 213504) :
    1970 ≤ (yearOrdinal (2440588 + d)).1 ∧ (yearOrdinal (2440588 + d)).1 ≤ 9999 ∧
      1 ≤ (yearOrdinal (2440588 + d)).2 ∧
      (yearOrdinal (2440588 + d)).2 ≤ (if isLeapYear (yearOrdinal (2440588 + d)).1 then 366 else 365) ∧
      daysToYear ((yearOrdinal (2440588 + d)).1 - 1970) + ((yearOrdinal (2440588 + d)).2 - 1) = d := by
  obtain ⟨A, j, r, hzr, hj, hlo, hhi, hA, hA6⟩ := yo_decomp d hd
  obtain ⟨q, s, hs, hYlo, hYhi⟩ := yo_year j r (by omega)
  have hq : 25 * j ≤ q ∧ q ≤ 25 * j + 24 := by omega
  have hleap := yo_leap A j q s hj hs hq
  have hyo := yo_eq A j q s r d hzr hj hs hlo hhi hYlo hYhi
  rw [hyo]
  generalize hX : j + r - (1461 * q + 365 * s) = X
  have hY : ∀ Y O : Nat, (if isLeapYear (400 * A + (4 * q + s)) then
        if X + 60 ≥ 367 then
          (400 * A + (4 * q + s) + 1, X + 60 - 366)
        else (400 * A + (4 * q + s), X + 60)
      else
        if X + 59 ≥ 366 then
          (400 * A + (4 * q + s) + 1, X + 59 - 365)
        else (400 * A + (4 * q + s), X + 59)) = (Y, O) →
      1970 ≤ Y ∧ Y ≤ 9999 ∧ 1 ≤ O ∧ O ≤ (if isLeapYear Y then 366 else 365) ∧
      daysToYear (Y - 1970) + (O - 1) = d := by
    intro Y O h
    have core := ordinal_core A j q s r Y O hj hs hlo hhi hYlo hYhi hA
    rw [hX] at core
    have hval := core (by
      split at h
      · rename_i hL
        obtain ⟨h1, h2⟩ := hleap.mp hL
        refine Or.inl ⟨h1, h2, ?_⟩
        split at h <;> simp only [Prod.mk.injEq] at h <;> omega
      · rename_i hL
        refine Or.inr ⟨fun h => hL (hleap.mpr h), ?_⟩
        split at h <;> simp only [Prod.mk.injEq] at h <;> omega)
    have hr : 400 * A + (4 * q + s) ≤ Y ∧ Y ≤ 400 * A + (4 * q + s) + 1 := by
      split at h <;> split at h <;> simp only [Prod.mk.injEq] at h <;> omega
    obtain ⟨c1, c2, c3⟩ := hval
    have c2' : O ≤ 366 := by
      refine Nat.le_trans c2 ?_; split <;> omega
    have hc := daysToYear_closed (Y - 1970)
    obtain ⟨f1, f2⟩ := yo_final A q s r d Y O _ hzr c1 c2' (fun h => by subst h; simpa [isLeapYear] using c2) hr.1 hr.2 c3 (fun hY => by
      rw [show 1969 + (Y - 1970) = Y - 1 by omega] at hc
      exact hc)
    exact ⟨f1, by omega, c1, c2, f2⟩
  exact hY _ _ rfl

/-- the month table, for both kinds of year -/
theorem monthDayGo_table : ∀ leap : Bool, ∀ o : Fin 367, 1 ≤ o.val → o.val ≤ (if leap then 366 else 365) →
    let md := monthDayGo o.val (cumulativeDays leap).reverse 12
    let ml := [31, if leap then 29 else 28, 31, 30, 31, 30, 31, 31, 30, 31, 30, 31]
    1 ≤ md.1 ∧ md.1 ≤ 12 ∧ 1 ≤ md.2 ∧ (∃ n ∈ ml[md.1 - 1]?, md.2 ≤ n) ∧
      (ml.take (md.1 - 1)).sum + (md.2 - 1) = o.val - 1 := by
  decide +kernel

theorem monthDay_spec (y o : Nat) (h1 : 1 ≤ o) (h2 : o ≤ (if isLeapYear y then 366 else 365)) :
    1 ≤ (monthDay y o).1 ∧ (monthDay y o).1 ≤ 12 ∧ 1 ≤ (monthDay y o).2 ∧
      (∃ n, (monthLengths y)[(monthDay y o).1 - 1]? = some n ∧ (monthDay y o).2 ≤ n) ∧
      ((monthLengths y).take ((monthDay y o).1 - 1)).sum + ((monthDay y o).2 - 1) = o - 1 := by
  have ho : o < 367 := by
    refine Nat.lt_of_le_of_lt h2 ?_; split <;> omega
  have := monthDayGo_table (isLeapYear y) ⟨o, ho⟩ h1 h2
  unfold monthDay monthLengths
  rw [← leap_eq]
  simp only at this
  obtain ⟨a, b, c, ⟨n, hn, hd⟩, e⟩ := this
  exact ⟨a, b, c, ⟨n, hn, hd⟩, e⟩

theorem decVal_zeros (k : Nat) (ds : Bytes) : decVal (List.replicate k 48 ++ ds) = decVal ds := by
  rw [decVal_append]
  have : decVal (List.replicate k 48) = 0 := by
    induction k with
    | zero => rfl
    | succ k ih => rw [List.replicate_succ', decVal_snoc, ih]; rfl
  simp [this]

theorem decimal_length_le {w n : Nat} (hw : 1 ≤ w) (h : n < 10 ^ w) : (decimal n).length ≤ w := by
  obtain ⟨h1, h2, h3, h4⟩ := decimal_spec n
  by_cases hl : 1 < (decimal n).length
  · have hh := h3 hl
    cases hd : decimal n with
    | nil => simp
    | cons c cs =>
      rw [hd] at hh h2 h4
      by_contra hc
      have hcl : w ≤ cs.length := by simp only [List.length_cons] at hc; omega
      have hc0 : c.toNat - 48 ≠ 0 := by
        intro hz
        apply hh
        have := (h2 c (by simp)).1
        rw [UInt8.le_iff_toNat_le] at this
        have e : c.toNat = 48 := by simp at this; omega
        simp only [List.head?_cons, Option.some.injEq]
        exact UInt8.toNat_inj.mp (by simpa using e)
      have hv : n = (c.toNat - 48) * 10 ^ cs.length + decVal cs := by
        rw [← h4]
        have := decVal_append [c] cs
        simpa [decVal] using this
      have hp : 10 ^ w ≤ 10 ^ cs.length := Nat.pow_le_pow_right (by omega) hcl
      have : 10 ^ cs.length ≤ (c.toNat - 48) * 10 ^ cs.length := Nat.le_mul_of_pos_left _ (by omega)
      omega
  · omega

theorem padZero_spec {w n : Nat} (hw : 1 ≤ w) (h : n < 10 ^ w) : Digits w n (padZero w n) := by
  obtain ⟨h1, h2, h3, h4⟩ := decimal_spec n
  have hl := decimal_length_le hw h
  refine ⟨?_, ?_, ?_⟩
  · simp [padZero]; omega
  · intro c hc
    simp only [padZero, List.mem_append, List.mem_replicate] at hc
    rcases hc with ⟨_, rfl⟩ | hc
    · decide
    · exact h2 c hc
  · have := decVal_zeros (w - (decimal n).length) (decimal n)
    unfold padZero
    have h5 : decVal (List.replicate (w - (decimal n).length) 48 ++ decimal n) = n := this.trans h4
    exact h5

theorem subsecond_spec (n : Nat) (h : n < 1000000000) :
    (subsecond n = [] ∧ n = 0) ∨
      ∃ w m ds, subsecond n = ascii "." ++ ds ∧ 1 ≤ w ∧ w ≤ 9 ∧ Digits w m ds ∧ n = m * 10 ^ (9 - w) := by
  unfold subsecond
  by_cases h0 : n = 0
  · left; rw [if_pos h0]; exact ⟨rfl, h0⟩
  · right
    rw [if_neg h0]
    have hd : (ascii "." : Bytes) = [46] := by decide
    rw [hd]
    have hlt : n / 100000000 < 10 ^ 1 := by omega
    split_ifs with h1 h2 h3 h4 h5 h6 h7 h8
    · exact ⟨9, n, _, rfl, by decide, by decide, padZero_spec (by decide) (by omega), by simp only [Nat.reduceSub, Nat.reducePow]; omega⟩
    · exact ⟨8, (n / 10), _, rfl, by decide, by decide, padZero_spec (by decide) (by omega), by simp only [Nat.reduceSub, Nat.reducePow]; omega⟩
    · exact ⟨7, (n / 100), _, rfl, by decide, by decide, padZero_spec (by decide) (by omega), by simp only [Nat.reduceSub, Nat.reducePow]; omega⟩
    · exact ⟨6, (n / 1000), _, rfl, by decide, by decide, padZero_spec (by decide) (by omega), by simp only [Nat.reduceSub, Nat.reducePow]; omega⟩
    · exact ⟨5, (n / 10000), _, rfl, by decide, by decide, padZero_spec (by decide) (by omega), by simp only [Nat.reduceSub, Nat.reducePow]; omega⟩
    · exact ⟨4, (n / 100000), _, rfl, by decide, by decide, padZero_spec (by decide) (by omega), by simp only [Nat.reduceSub, Nat.reducePow]; omega⟩
    · exact ⟨3, (n / 1000000), _, rfl, by decide, by decide, padZero_spec (by decide) (by omega), by simp only [Nat.reduceSub, Nat.reducePow]; omega⟩
    · exact ⟨2, (n / 10000000), _, rfl, by decide, by decide, padZero_spec (by decide) (by omega), by simp only [Nat.reduceSub, Nat.reducePow]; omega⟩
    · refine ⟨1, n / 100000000, _, rfl, by decide, by decide, padZero_spec (by decide) hlt, ?_⟩
      simp only [Nat.reduceSub, Nat.reducePow]
      simp only [ne_eq, Classical.not_not] at h1 h2 h3 h4 h5 h6 h7 h8
      have e1 : n = 10 * (n / 10) := by omega
      have e2 : n / 10 = 10 * (n / 100) := by clear h1 h3 h4 h5 h6 h7 h8; omega
      have e3 : n / 100 = 10 * (n / 1000) := by clear h1 h2 h4 h5 h6 h7 h8; omega
      have e4 : n / 1000 = 10 * (n / 10000) := by clear h1 h2 h3 h5 h6 h7 h8; omega
      have e5 : n / 10000 = 10 * (n / 100000) := by clear h1 h2 h3 h4 h6 h7 h8; omega
      have e6 : n / 100000 = 10 * (n / 1000000) := by clear h1 h2 h3 h4 h5 h7 h8; omega
      have e7 : n / 1000000 = 10 * (n / 10000000) := by clear h1 h2 h3 h4 h5 h6 h8; omega
      have e8 : n / 10000000 = 10 * (n / 100000000) := by clear h1 h2 h3 h4 h5 h6 h7; omega
      clear h1 h2 h3 h4 h5 h6 h7 h8
      omega

theorem rfc3339_ok (ε : Type) (t : UInt64) (yo md : Nat × Nat)
    (h1 : yearOrdinal (2440588 + t.toNat / 1000000000 / 86400) = yo) (h2 : monthDay yo.1 yo.2 = md)
    (h3 : ¬ yo.1 > 9999) :
    (rfc3339 t : Res ε Bytes) = .ok (padZero 4 yo.1 ++ [45] ++ padZero 2 md.1 ++ [45] ++ padZero 2 md.2 ++ [84]
      ++ padZero 2 (t.toNat / 1000000000 % 86400 / 3600) ++ [58]
      ++ padZero 2 (t.toNat / 1000000000 % 86400 % 3600 / 60) ++ [58]
      ++ padZero 2 (t.toNat / 1000000000 % 86400 % 60)
      ++ subsecond (t.toNat % 1000000000) ++ [90]) := by
  rw [rfc3339, h1, rfc3339Text, if_neg h3, h2]

theorem timestamp_spec (yo md : Nat × Nat) (H M S N day T : Nat)
    (y1 : 1970 ≤ yo.1) (y2 : yo.1 ≤ 9999) (hdays : daysToYear (yo.1 - 1970) + (yo.2 - 1) = day)
    (m1 : 1 ≤ md.1) (m2 : md.1 ≤ 12) (d1 : 1 ≤ md.2)
    (hmd : ∃ n, (monthLengths yo.1)[md.1 - 1]? = some n ∧ md.2 ≤ n)
    (hsum : ((monthLengths yo.1).take (md.1 - 1)).sum + (md.2 - 1) = yo.2 - 1)
    (hH : H < 24) (hM : M < 60) (hS : S < 60) (hN : N < 1000000000)
    (hT : (((day * 24 + H) * 60 + M) * 60 + S) * 1000000000 + N = T) :
    ∃ c : Civil, IsTimestamp (padZero 4 yo.1 ++ [45] ++ padZero 2 md.1 ++ [45] ++ padZero 2 md.2 ++ [84]
      ++ padZero 2 H ++ [58] ++ padZero 2 M ++ [58] ++ padZero 2 S ++ subsecond N ++ [90]) c ∧ c.Valid ∧
      c.toNanos = T := by
  have dash : (ascii "-" : Bytes) = [45] := by decide
  have tee : (ascii "T" : Bytes) = [84] := by decide
  have colon : (ascii ":" : Bytes) = [58] := by decide
  have zed : (ascii "Z" : Bytes) = [90] := by decide
  have hd31 : md.2 ≤ 31 := by
    obtain ⟨n, hn, hle⟩ := hmd
    refine Nat.le_trans hle ?_
    have hmem := List.mem_of_getElem? hn
    simp only [monthLengths, List.mem_cons, List.not_mem_nil, or_false] at hmem
    have : (if leapYear yo.1 then 29 else 28) ≤ 31 := by
      split <;> omega
    omega
  refine ⟨⟨yo.1, md.1, md.2, H, M, S, N⟩, ?_, ?_, ?_⟩
  · refine ⟨_, _, _, _, _, _, _, ?_, padZero_spec (n := yo.1) (by decide) (by omega),
      padZero_spec (n := md.1) (by decide) (by omega),
      padZero_spec (n := md.2) (by decide) (by omega), padZero_spec (n := H) (by decide) (by omega),
      padZero_spec (n := M) (by decide) (by omega),
      padZero_spec (n := S) (by decide) (by omega), subsecond_spec N hN⟩
    rw [dash, tee, colon, zed]
  · exact ⟨y1, y2, m1, m2, d1, hmd, hH, hM, hS, hN⟩
  · simp only [Civil.toNanos]
    rw [← hT, ← hdays, Nat.add_assoc (daysToYear (yo.1 - 1970)), hsum]

theorem split_nanos (T : Nat) : (T / 1000000000 % 86400 / 3600 < 24) ∧
    (T / 1000000000 % 86400 % 3600 / 60 < 60) ∧ (T / 1000000000 % 86400 % 60 < 60) ∧
    (T % 1000000000 < 1000000000) ∧
    ((((T / 1000000000 / 86400) * 24 + T / 1000000000 % 86400 / 3600) * 60 +
      T / 1000000000 % 86400 % 3600 / 60) * 60 + T / 1000000000 % 86400 % 60) * 1000000000 +
      T % 1000000000 = T := by
  have hT : (((T / 1000000000 / 86400) * 24 + T / 1000000000 % 86400 / 3600) * 60 +
      T / 1000000000 % 86400 % 3600 / 60) * 60 + T / 1000000000 % 86400 % 60 =
      T / 1000000000 := by omega
  refine ⟨by omega, by omega, by omega, by omega, ?_⟩
  rw [hT]
  omega

theorem rfc3339_spec (ε : Type) (t : UInt64) : ∃ txt c, (rfc3339 t : Res ε Bytes) = .ok txt ∧ IsTimestamp txt c ∧ c.Valid ∧
    c.toNanos = t.toNat := by
  have hday : t.toNat / 1000000000 / 86400 < 213504 := by
    have ht : t.toNat < 2 ^ 64 := t.toNat_lt
    omega
  obtain ⟨y1, y2, o1, o2, hdays⟩ := yearOrdinal_spec _ hday
  obtain ⟨m1, m2, d1, hmd, hsum⟩ := monthDay_spec _ _ o1 o2
  have hok := rfc3339_ok ε t _ _ rfl rfl (Nat.not_lt.mpr y2)
  obtain ⟨hH, hM, hS, hN, hT⟩ := split_nanos t.toNat
  obtain ⟨c, h1, h2, h3⟩ := timestamp_spec _ _ _ _ _ _ _ _ y1 y2 hdays m1 m2 d1 hmd hsum hH hM hS hN hT
  exact ⟨_, c, hok, h1, h2, h3⟩

end Siwe
