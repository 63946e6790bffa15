import Verif.Model.Host
import Verif.Spec.Host
import Verif.Lemmas.Hex
import Mathlib.Tactic.NormNum
/- The host parser accepts the hosts of the URL standard. -/
namespace Siwe.Host
open Siwe.Spec

theorem hexDigit_val (c : UInt8) : hexDigit c = if isHexDigit c = true then some (digitValue c) else none := by
  revert c; apply u8_all; decide +kernel

theorem hexDigit_isSome (c : UInt8) : (hexDigit c).isSome = isHexDigit c := by
  revert c; apply u8_all; decide +kernel

theorem digitValue_lt (c : UInt8) (h : isHexDigit c = true) : digitValue c < 16 := by
  revert c; apply u8_all; decide +kernel

theorem rfcHex (c : UInt8) : Rfc3986.isHex c = isHexDigit c := by
  revert c; apply u8_all; decide +kernel

theorem isDecDigit_iff (c : UInt8) : isDecDigit c = true ↔ 48 ≤ c ∧ c ≤ 57 := by simp [isDecDigit]

theorem dec_isHex (c : UInt8) (h : 48 ≤ c ∧ c ≤ 57) : isHexDigit c = true := by
  revert c; apply u8_all; decide +kernel

theorem dec_value (c : UInt8) (h : 48 ≤ c ∧ c ≤ 57) : digitValue c = c.toNat - 48 := by
  revert c; apply u8_all; decide +kernel

theorem lower_eq (s : Bytes) : s.map toLower = lowered s := by
  unfold lowered
  apply List.map_congr_left
  intro c hc
  clear hc
  revert c; apply u8_all; decide +kernel

/-! ### Percent decoding -/

theorem spells_two (a b x : UInt8) : Spells [a, b] [x] ↔ ∃ u v, hexDigit a = some u ∧ hexDigit b = some v ∧ x = UInt8.ofNat (u * 16 + v) := by
  simp only [Spells, and_true, hexDigit_val]
  constructor
  · rintro ⟨ha, hb, hx⟩
    refine ⟨digitValue a, digitValue b, by simp [ha], by simp [hb], ?_⟩
    rw [Nat.mul_comm, ← hx]
    simp
  · rintro ⟨u, v, ha, hb, hx⟩
    by_cases h1 : isHexDigit a = true
    · by_cases h2 : isHexDigit b = true
      · simp only [h1, h2, if_true, Option.some.injEq] at ha hb
        subst ha hb
        have := digitValue_lt a h1
        have := digitValue_lt b h2
        refine ⟨h1, h2, ?_⟩
        rw [hx, UInt8.toNat_ofNat']
        omega
      · simp [h2] at hb
    · simp [h1] at ha

theorem percentDecode_spec (s : Bytes) : PercentDecoded s (percentDecode s) := by
  induction h : s.length using Nat.strongRecOn generalizing s with
  | _ n ih =>
    subst h
    cases s with
    | nil => exact .nil
    | cons c rest =>
      unfold percentDecode
      by_cases hc : c = 37
      · subst hc
        simp only [if_true]
        match rest with
        | [] => exact .same (by simp) .nil
        | [a] => exact .same (by simp) (.same (by simp) .nil)
        | a :: b :: rest' =>
          simp only
          cases ha : hexDigit a with
          | none =>
            simp only
            refine .same ?_ (ih _ (by simp) (a :: b :: rest') rfl)
            intro _ a' b' r e h1
            cases e
            rw [← hexDigit_isSome, ha] at h1
            cases h1
          | some u =>
            cases hb : hexDigit b with
            | none =>
              simp only
              refine .same ?_ (ih _ (by simp) (a :: b :: rest') rfl)
              intro _ a' b' r e _ h1
              cases e
              rw [← hexDigit_isSome, hb] at h1
              cases h1
            | some v =>
              simp only
              exact .byte ((spells_two _ _ _).2 ⟨u, v, ha, hb, rfl⟩) (ih _ (by simp; omega) rest' rfl)
      · rw [if_neg hc]
        exact .same (fun h => absurd h hc) (ih _ (by simp) rest rfl)

theorem percentDecoded_unique {s d : Bytes} (h : PercentDecoded s d) : ∀ {d'}, PercentDecoded s d' → d = d' := by
  induction h with
  | nil => intro d' h'; cases h'; rfl
  | @byte a b x s d hs _ ih =>
    intro d' h'
    cases h' with
    | byte hs' h' =>
      obtain ⟨u, v, h1, h2, rfl⟩ := (spells_two _ _ _).1 hs
      obtain ⟨u', v', h1', h2', rfl⟩ := (spells_two _ _ _).1 hs'
      rw [h1] at h1'; rw [h2] at h2'
      cases h1'; cases h2'
      rw [ih h']
    | same hn _ =>
      obtain ⟨h1, h2, _⟩ := hs
      exact (hn rfl _ _ _ rfl h1 h2).elim
  | @same c s d hn _ ih =>
    intro d' h'
    cases h' with
    | byte hs' _ =>
      obtain ⟨h1, h2, _⟩ := hs'
      exact (hn rfl _ _ _ rfl h1 h2).elim
    | same _ h' => rw [ih h']

theorem percentDecoded_iff (s d : Bytes) : PercentDecoded s d ↔ d = percentDecode s :=
  ⟨fun h => percentDecoded_unique h (percentDecode_spec s), fun h => h ▸ percentDecode_spec s⟩

/-! ### Labels -/

theorem splitDots_ne_nil (s : Bytes) : splitDots s ≠ [] := by
  cases s with
  | nil => simp [splitDots]
  | cons c s =>
    unfold splitDots
    split
    · simp
    · split <;> simp

theorem labels_split (s : Bytes) : Labels s (splitDots s) := by
  induction s with
  | nil => exact .one (by simp)
  | cons c s ih =>
    unfold splitDots
    by_cases hc : c = 46
    · subst hc
      simp only [if_true]
      exact .more (l := []) (by simp) ih
    · rw [if_neg hc]
      cases hs : splitDots s with
      | nil => exact absurd hs (splitDots_ne_nil s)
      | cons l ls =>
        rw [hs] at ih
        simp only
        cases ih with
        | one hl => exact .one (by simp [hl, Ne.symm hc])
        | @more l d ls hl hd => exact .more (l := c :: l) (by simp [hl, Ne.symm hc]) hd

theorem labels_unique {s : Bytes} {ls : List Bytes} (h : Labels s ls) : ls = splitDots s := by
  have one : ∀ l : Bytes, 46 ∉ l → splitDots l = [l] := by
    intro l
    induction l with
    | nil => intro _; rfl
    | cons c l ih =>
      intro h
      simp only [List.mem_cons, not_or] at h
      unfold splitDots
      rw [if_neg (fun e => h.1 e.symm), ih h.2]
  induction h with
  | one hl => exact (one _ hl).symm
  | @more l d ls hl _ ih =>
    rw [ih]
    clear ih
    induction l with
    | nil => simp [splitDots]
    | cons c l ih' =>
      simp only [List.mem_cons, not_or] at hl
      rw [List.cons_append]
      conv => rhs; unfold splitDots
      rw [if_neg (fun e => hl.1 e.symm), ← ih' hl.2]

theorem labels_iff (s : Bytes) (ls : List Bytes) : Labels s ls ↔ ls = splitDots s :=
  ⟨labels_unique, fun h => h ▸ labels_split s⟩

theorem labelsOf_iff (s : Bytes) (ls : List Bytes) : LabelsOf s ls ↔ ls = ipv4Parts s := by
  unfold LabelsOf ipv4Parts
  simp only [labels_iff]
  constructor
  · rintro (h | ⟨h, h'⟩)
    · rw [← h]; simp
    · rw [← h, if_neg h']
  · intro h
    split at h
    · rename_i hl
      left
      rw [h]
      have hne := splitDots_ne_nil s
      have := List.dropLast_append_getLast hne
      rw [List.getLast?_eq_some_getLast hne] at hl
      rw [Option.some.inj hl] at this
      exact this
    · rename_i hl
      right
      rw [h]; exact ⟨rfl, hl⟩

/-! ### Numbers -/

theorem radixValue_eq (r : Nat) (ds : Bytes) (h : ∀ c ∈ ds, isHexDigit c = true) : radixValue r ds = radix r ds := by
  unfold radixValue radix
  suffices ∀ a, (ds.filterMap hexDigit).foldl (fun n d => n * r + d) a = ds.foldl (fun n d => n * r + digitValue d) a from this 0
  induction ds with
  | nil => intro a; rfl
  | cons c ds ih =>
    intro a
    have hc := h c (by simp)
    have : hexDigit c = some (digitValue c) := by rw [hexDigit_val, if_pos hc]
    rw [List.filterMap_cons_some this, List.foldl_cons, List.foldl_cons]
    exact ih (fun c hc => h c (List.mem_cons_of_mem _ hc)) _

theorem ipv4Number_eq (s : Bytes) (o : Option Nat) :
    ipv4Number s = some o ↔ ∃ n, Ip4Number s n ∧ o = if n < 4294967296 then some n else none := by
  cases s with
  | nil =>
    simp only [ipv4Number]
    constructor
    · intro h; cases h
    · rintro ⟨n, h, -⟩
      cases h with
      | decimal h => exact absurd rfl h
  | cons c rest =>
    simp only [ipv4Number]
    by_cases h1 : c = 48 ∧ (rest.head? = some 120 ∨ rest.head? = some 88)
    · rw [if_pos h1]
      obtain ⟨rfl, hx'⟩ := h1
      obtain ⟨x, ds, rfl, hx⟩ : ∃ x ds, rest = x :: ds ∧ (x = 120 ∨ x = 88) := by
        cases rest with
        | nil => simp at hx'
        | cons x ds => exact ⟨x, ds, rfl, by simpa using hx'⟩
      clear hx'
      show (if ds.all (fun d => (hexDigit d).isSome) = true then
        some (if radixValue 16 ds < 4294967296 then some (radixValue 16 ds) else none) else none) = some o ↔ _
      have hall : ds.all (fun d => (hexDigit d).isSome) = true ↔ ∀ c ∈ ds, isHexDigit c = true := by
        simp [List.all_eq_true, hexDigit_isSome]
      constructor
      · intro h
        split at h
        · rename_i ha
          have ha := hall.1 ha
          refine ⟨_, .hexadecimal hx ha, ?_⟩
          rw [← radixValue_eq 16 ds ha]
          exact (Option.some.inj h).symm
        · cases h
      · rintro ⟨n, h, ho⟩
        have ha : (∀ c ∈ ds, isHexDigit c = true) ∧ n = radix 16 ds := by
          generalize hs : (48 :: x :: ds : Bytes) = s at h
          cases h with
          | decimal _ hd _ =>
            have := hd x (by rw [← hs]; simp)
            exact absurd this (by rcases hx with rfl | rfl <;> decide)
          | octal _ hd =>
            obtain ⟨-, rfl⟩ := List.cons.inj hs
            have := hd x (by simp)
            exact absurd this (by rcases hx with rfl | rfl <;> decide)
          | hexadecimal _ hd =>
            obtain ⟨-, e⟩ := List.cons.inj hs
            obtain ⟨-, rfl⟩ := List.cons.inj e
            exact ⟨hd, rfl⟩
        rw [if_pos (hall.2 ha.1), ho, ha.2, radixValue_eq 16 ds ha.1]
    · rw [if_neg h1]
      by_cases h2 : c = 48 ∧ rest ≠ []
      · rw [if_pos h2]
        obtain ⟨rfl, hr⟩ := h2
        have hall : rest.all (fun d => decide (48 ≤ d ∧ d ≤ 55)) = true ↔ ∀ c ∈ rest, 48 ≤ c ∧ c ≤ 55 := by
          simp [List.all_eq_true]
        have hex : (∀ c ∈ rest, 48 ≤ c ∧ c ≤ 55) → ∀ c ∈ rest, isHexDigit c = true := by
          intro h c hc
          exact dec_isHex c ⟨(h c hc).1, UInt8.le_trans (h c hc).2 (by decide)⟩
        constructor
        · intro h
          split at h
          · rename_i ha
            have ha := hall.1 ha
            refine ⟨_, .octal hr ha, ?_⟩
            rw [← radixValue_eq 8 rest (hex ha)]
            exact (Option.some.inj h).symm
          · cases h
        · rintro ⟨n, h, ho⟩
          have ha : (∀ c ∈ rest, 48 ≤ c ∧ c ≤ 55) ∧ n = radix 8 rest := by
            generalize hs : (48 :: rest : Bytes) = s at h
            cases h with
            | decimal _ _ hd =>
              have := hd (by rw [← hs]; rfl)
              rw [← hs] at this
              exact absurd (List.length_eq_zero_iff.1 (by simpa using this)) hr
            | octal _ hd =>
              obtain ⟨-, rfl⟩ := List.cons.inj hs
              exact ⟨hd, rfl⟩
            | hexadecimal hx _ =>
              obtain ⟨-, rfl⟩ := List.cons.inj hs
              exact absurd ⟨rfl, by simpa using hx⟩ h1
          rw [if_pos (hall.2 ha.1), ho, ha.2, radixValue_eq 8 rest (hex ha.1)]
      · rw [if_neg h2]
        have hall : (c :: rest).all isDecDigit = true ↔ ∀ d ∈ c :: rest, 48 ≤ d ∧ d ≤ 57 := by
          simp only [List.all_eq_true, isDecDigit_iff]
        constructor
        · intro h
          split at h
          · rename_i ha
            have ha := hall.1 ha
            refine ⟨_, .decimal (by simp) ha ?_, ?_⟩
            · intro e
              simp only [List.head?_cons, Option.some.injEq] at e
              subst e
              by_contra hl
              exact h2 ⟨rfl, by rintro rfl; simp at hl⟩
            · rw [← radixValue_eq 10 _ (fun d hd => dec_isHex d (ha d hd))]
              exact (Option.some.inj h).symm
          · cases h
        · rintro ⟨n, h, ho⟩
          have ha : (∀ d ∈ c :: rest, 48 ≤ d ∧ d ≤ 57) ∧ n = radix 10 (c :: rest) := by
            generalize hs : c :: rest = s at h ⊢
            cases h with
            | decimal _ hd _ => exact ⟨hd, rfl⟩
            | octal hne hd =>
              obtain ⟨rfl, rfl⟩ := List.cons.inj hs
              exact absurd ⟨rfl, hne⟩ h2
            | hexadecimal hx _ =>
              obtain ⟨rfl, rfl⟩ := List.cons.inj hs
              exact absurd ⟨rfl, by simp⟩ h2
          rw [if_pos (hall.2 ha.1), ho, ha.2, radixValue_eq 10 _ (fun d hd => dec_isHex d (ha.1 d hd))]

theorem ipv4Number_isSome (s : Bytes) : (ipv4Number s).isSome = true ↔ ∃ n, Ip4Number s n := by
  constructor
  · intro h
    obtain ⟨o, ho⟩ := Option.isSome_iff_exists.1 h
    obtain ⟨n, hn, -⟩ := (ipv4Number_eq s o).1 ho
    exact ⟨n, hn⟩
  · rintro ⟨n, hn⟩
    rw [(ipv4Number_eq s _).2 ⟨n, hn, rfl⟩]
    rfl

theorem ipv4Number_join (s : Bytes) (n : Nat) : (ipv4Number s).join = some n ↔ Ip4Number s n ∧ n < 4294967296 := by
  constructor
  · intro h
    cases ho : ipv4Number s with
    | none => rw [ho] at h; cases h
    | some o =>
      rw [ho] at h
      obtain ⟨m, hm, e⟩ := (ipv4Number_eq s o).1 ho
      simp only [Option.join_some] at h
      rw [h] at e
      split at e
      · rename_i hlt
        cases e
        exact ⟨hm, hlt⟩
      · cases e
  · rintro ⟨h, hlt⟩
    rw [(ipv4Number_eq s _).2 ⟨n, h, rfl⟩, if_pos hlt]
    rfl

theorem endsInANumber_iff (s : Bytes) : endsInANumber s = true ↔ EndsInNumber s := by
  have hdig : ∀ l : Bytes, ((!l.isEmpty && l.all isDecDigit) || (ipv4Number l).isSome) = true ↔
      (l ≠ [] ∧ ∀ c ∈ l, 48 ≤ c ∧ c ≤ 57) ∨ ∃ n, Ip4Number l n := by
    intro l
    simp only [Bool.or_eq_true, Bool.and_eq_true, ipv4Number_isSome, List.all_eq_true, isDecDigit_iff]
    simp
  unfold endsInANumber EndsInNumber
  simp only [labelsOf_iff, ipv4Parts]
  have hne := splitDots_ne_nil s
  generalize splitDots s = parts at hne ⊢
  rcases List.eq_nil_or_concat parts with rfl | ⟨init, last, rfl⟩
  · exact absurd rfl hne
  · rw [List.concat_eq_append, List.reverse_append]
    simp only [List.reverse_cons, List.reverse_nil, List.nil_append, List.cons_append, List.getLast?_append, List.getLast?_singleton,
      Option.some_or, Option.some.injEq, List.dropLast_concat]
    by_cases hl : last = []
    · subst hl
      simp only [if_true]
      rcases List.eq_nil_or_concat init with rfl | ⟨init', l, rfl⟩
      · simp
      · rw [List.concat_eq_append, List.reverse_append]
        simp only [List.reverse_cons, List.reverse_nil, List.nil_append, List.cons_append, List.head?_cons]
        rw [hdig]
        constructor
        · intro h; exact ⟨init', l, rfl, h⟩
        · rintro ⟨ls, l', e, h⟩
          obtain ⟨-, e⟩ := List.append_inj' e rfl
          cases e
          exact h
    · simp only [if_neg hl]
      rw [hdig]
      constructor
      · intro h; exact ⟨init, last, rfl, h⟩
      · rintro ⟨ls, l', e, h⟩
        obtain ⟨-, e⟩ := List.append_inj' e rfl
        cases e
        exact h

theorem mapM_numbers (ps : List Bytes) (ns : List Nat) :
    ps.mapM (fun p => (ipv4Number p).join) = some ns ↔ List.Forall₂ (fun p n => Ip4Number p n ∧ n < 4294967296) ps ns := by
  induction ps generalizing ns with
  | nil =>
    rw [List.mapM_nil]
    constructor
    · intro h; cases h; exact .nil
    · intro h; cases h; rfl
  | cons p ps ih =>
    rw [List.mapM_cons]
    constructor
    · intro h
      cases hp : (ipv4Number p).join with
      | none => rw [hp] at h; cases h
      | some n =>
        cases hq : ps.mapM (fun p => (ipv4Number p).join) with
        | none => rw [hp, hq] at h; cases h
        | some ms =>
          rw [hp, hq] at h
          cases h
          exact .cons ((ipv4Number_join p n).1 hp) ((ih ms).1 hq)
    · intro h
      cases h with
      | cons h1 h2 =>
        rw [(ipv4Number_join _ _).2 h1, (ih _).2 h2]
        rfl

theorem pow_bound (n k : Nat) (h : k < 4) : n ≤ 4294967295 / 256 ^ k ↔ n < 256 ^ (4 - k) := by
  rcases (by omega : k = 0 ∨ k = 1 ∨ k = 2 ∨ k = 3) with rfl | rfl | rfl | rfl <;> norm_num <;> omega

theorem ipv4Ok_iff (s : Bytes) : ipv4Ok s = true ↔ Ip4Text s := by
  unfold ipv4Ok Ip4Text
  simp only [labelsOf_iff]
  generalize ipv4Parts s = parts
  constructor
  · intro h
    split at h
    · cases h
    · rename_i hlen
      split at h
      · cases h
      · rename_i numbers hn
        have hf := (mapM_numbers _ _).1 hn
        have hl := hf.length_eq
        split at h
        · cases h
        · rename_i last hlast
          rcases List.eq_nil_or_concat numbers with rfl | ⟨init, x, rfl⟩
          · cases hlast
          · rw [List.concat_eq_append] at *
            simp only [List.getLast?_append, List.getLast?_singleton, Option.some_or, Option.some.injEq] at hlast
            subst hlast
            simp only [List.dropLast_concat, Bool.and_eq_true, decide_eq_true_eq, List.all_eq_true, List.length_append,
              List.length_singleton, Nat.add_sub_cancel] at h
            have hi : init.length < 4 := by simp at hl; omega
            refine ⟨parts, init, x, rfl, hf.imp (fun _ _ h => h.1), hi, fun n hn => Nat.lt_succ_of_le (h.2 n hn), ?_⟩
            exact (pow_bound x init.length hi).1 h.1
  · rintro ⟨ls, ns, last, rfl, hf, hlen, hb, hl⟩
    have hbig : 256 ^ (4 - ns.length) ≤ 256 ^ 4 := Nat.pow_le_pow_right (by decide) (by omega)
    have hf' : List.Forall₂ (fun p n => Ip4Number p n ∧ n < 4294967296) ls (ns ++ [last]) := by
      have : ∀ (ps : List Bytes) (ms : List Nat), List.Forall₂ Ip4Number ps ms → (∀ m ∈ ms, m < 4294967296) →
          List.Forall₂ (fun p n => Ip4Number p n ∧ n < 4294967296) ps ms := by
        intro ps ms h
        induction h with
        | nil => intro _; exact .nil
        | cons h1 _ ih =>
          intro h
          exact .cons ⟨h1, h _ (by simp)⟩ (ih fun m hm => h m (List.mem_cons_of_mem _ hm))
      refine this _ _ hf ?_
      intro m hm
      rcases List.mem_append.1 hm with hm | hm
      · have := hb m hm; omega
      · rw [List.mem_singleton.1 hm]; norm_num at hbig; omega
    have hlen' := hf.length_eq
    simp only [List.length_append, List.length_singleton] at hlen'
    rw [if_neg (by omega), (mapM_numbers _ _).2 hf']
    simp only [List.getLast?_append, List.getLast?_singleton, Option.some_or, List.dropLast_concat, List.length_append,
      List.length_singleton, Nat.add_sub_cancel, Bool.and_eq_true, decide_eq_true_eq, List.all_eq_true]
    exact ⟨(pow_bound last ns.length hlen).2 hl, fun n hn => Nat.le_of_lt_succ (hb n hn)⟩

/-! ### IPv6 addresses -/

theorem hexRun_spec (k : Nat) : ∀ s : Bytes, s = (hexRun k s).1 ++ (hexRun k s).2 ∧ (hexRun k s).1.length ≤ k ∧
    (∀ c ∈ (hexRun k s).1, isHexDigit c = true) ∧
    ((hexRun k s).1.length = k ∨ ∀ c r, (hexRun k s).2 = c :: r → isHexDigit c = false) := by
  induction k with
  | zero => intro s; simp [hexRun]
  | succ k ih =>
    intro s
    cases s with
    | nil => simp [hexRun]
    | cons c s =>
      by_cases hc : isHexDigit c = true
      · have e : hexRun (k + 1) (c :: s) = (c :: (hexRun k s).1, (hexRun k s).2) := by
          simp [hexRun, hexDigit_isSome, hc]
        rw [e]
        obtain ⟨h1, h2, h3, h4⟩ := ih s
        refine ⟨?_, ?_, ?_, ?_⟩
        · simp only [List.cons_append]; rw [← h1]
        · simp only [List.length_cons]; omega
        · intro x hx
          rcases List.mem_cons.1 hx with rfl | hx
          · exact hc
          · exact h3 x hx
        · simp only [List.length_cons]
          rcases h4 with h4 | h4
          · left; omega
          · right; exact h4
      · have e : hexRun (k + 1) (c :: s) = ([], c :: s) := by
          simp [hexRun, hexDigit_isSome, hc]
        rw [e]
        refine ⟨rfl, Nat.zero_le _, by simp, .inr ?_⟩
        rintro c' r ⟨⟩
        simpa using hc

/-- A group and a text that does not go on with a digit. -/
theorem hexRun_append (k : Nat) : ∀ (g r : Bytes), g.length ≤ k → (∀ c ∈ g, isHexDigit c = true) →
    (∀ c r', r = c :: r' → isHexDigit c = false) → hexRun k (g ++ r) = (g, r) := by
  induction k with
  | zero =>
    intro g r h _ _
    obtain rfl := List.length_eq_zero_iff.1 (Nat.le_zero.1 h)
    rfl
  | succ k ih =>
    intro g r h hg hr
    cases g with
    | nil =>
      cases r with
      | nil => rfl
      | cons c r => simp [hexRun, hexDigit_isSome, hr c r rfl]
    | cons c g =>
      have := ih g r (by simpa using h) (fun x hx => hg x (List.mem_cons_of_mem _ hx)) hr
      simp [hexRun, hexDigit_isSome, hg c (by simp), this]

theorem octet_nil (v : Option Nat) : octet v [] = some (v, []) := by unfold octet; rfl

theorem octet_stop (v : Option Nat) (c : UInt8) (s : Bytes) (h : isDecDigit c = false) : octet v (c :: s) = some (v, c :: s) := by
  unfold octet; simp [h]

theorem octet_first (c : UInt8) (s : Bytes) (h : isDecDigit c = true) : octet none (c :: s) = octet (some (c.toNat - 48)) s := by
  conv => lhs; unfold octet
  simp [h]

theorem octet_zero (c : UInt8) (s : Bytes) (h : isDecDigit c = true) : octet (some 0) (c :: s) = none := by
  conv => lhs; unfold octet
  simp [h]

theorem octet_next (v : Nat) (hv : v ≠ 0) (c : UInt8) (s : Bytes) (h : isDecDigit c = true) : octet (some v) (c :: s) =
    if 255 < v * 10 + (c.toNat - 48) then none else octet (some (v * 10 + (c.toNat - 48))) s := by
  conv => lhs; unfold octet
  cases v with
  | zero => exact absurd rfl hv
  | succ v => simp [h]
theorem octet_none (s : Bytes) : ∀ v, v ≤ 255 → v ≠ 0 → ∀ w r, octet (some v) s = some (w, r) ↔
    ∃ ds : Bytes, s = ds ++ r ∧ (∀ c ∈ ds, 48 ≤ c ∧ c ≤ 57) ∧ (∀ c r', r = c :: r' → ¬(48 ≤ c ∧ c ≤ 57)) ∧
      w = some (ds.foldl (fun a c => 10 * a + (c.toNat - 48)) v) ∧ ds.foldl (fun a c => 10 * a + (c.toNat - 48)) v ≤ 255 := by
  induction s with
  | nil =>
    intro v hv _ w r
    rw [octet_nil]
    simp only [Option.some.injEq, Prod.mk.injEq]
    constructor
    · rintro ⟨rfl, rfl⟩
      exact ⟨[], rfl, by simp, by simp, rfl, hv⟩
    · rintro ⟨ds, h1, _, _, h4, _⟩
      obtain ⟨rfl, rfl⟩ := List.append_eq_nil_iff.1 h1.symm
      exact ⟨h4.symm, rfl⟩
  | cons c s ih =>
    intro v hv hv0 w r
    have grow : ∀ (ds : Bytes) (a : Nat), a ≤ ds.foldl (fun a c => 10 * a + (c.toNat - 48)) a := by
      intro ds
      induction ds with
      | nil => intro a; exact Nat.le_refl _
      | cons d ds ih => intro a; exact Nat.le_trans (Nat.le_trans (by omega : a ≤ 10 * a) (Nat.le_add_right _ _)) (ih (10 * a + (d.toNat - 48)))
    by_cases hc : 48 ≤ c ∧ c ≤ 57
    · have hd : isDecDigit c = true := (isDecDigit_iff c).2 hc
      rw [octet_next v hv0 c s hd]
      by_cases hb : 255 < v * 10 + (c.toNat - 48)
      · rw [if_pos hb]
        constructor
        · intro h; cases h
        · rintro ⟨ds, h1, h2, h3, h4, h5⟩
          cases ds with
          | nil => exact absurd hc (h3 c s (by simpa using h1.symm))
          | cons d ds =>
            obtain ⟨rfl, -⟩ := List.cons.inj h1
            have := grow ds (10 * v + (c.toNat - 48))
            rw [List.foldl_cons] at h5
            omega
      · rw [if_neg hb, ih _ (by omega) (by omega)]
        constructor
        · rintro ⟨ds, h1, h2, h3, h4, h5⟩
          refine ⟨c :: ds, by rw [h1]; rfl, ?_, h3, ?_, ?_⟩
          · intro x hx
            rcases List.mem_cons.1 hx with rfl | hx
            · exact hc
            · exact h2 x hx
          · rw [h4, List.foldl_cons, Nat.mul_comm 10]
          · rw [List.foldl_cons, Nat.mul_comm 10]; exact h5
        · rintro ⟨ds, h1, h2, h3, h4, h5⟩
          cases ds with
          | nil => exact absurd hc (h3 c s (by simpa using h1.symm))
          | cons d ds =>
            obtain ⟨rfl, h1'⟩ := List.cons.inj h1
            rw [List.foldl_cons, Nat.mul_comm 10] at h4 h5
            exact ⟨ds, h1', fun x hx => h2 x (List.mem_cons_of_mem _ hx), h3, h4, h5⟩
    · have hd : isDecDigit c = false := by
        cases h : isDecDigit c
        · rfl
        · exact absurd ((isDecDigit_iff c).1 h) hc
      rw [octet_stop _ c s hd]
      simp only [Option.some.injEq, Prod.mk.injEq]
      constructor
      · rintro ⟨rfl, rfl⟩
        exact ⟨[], rfl, by simp, (by rintro c' r' ⟨⟩; exact hc), rfl, hv⟩
      · rintro ⟨ds, h1, h2, h3, h4, h5⟩
        cases ds with
        | nil => exact ⟨h4.symm, h1⟩
        | cons d ds =>
          obtain ⟨rfl, -⟩ := List.cons.inj h1
          exact absurd (h2 c (by simp)) hc

/-- A number from 0 to 255 in decimal notation, and a text that does not go on with a digit. -/
theorem octet_iff (s : Bytes) (r : Bytes) : (∃ v, octet none s = some (some v, r)) ↔
    ∃ ds : Bytes, s = ds ++ r ∧ (∃ n ≤ 255, IsDecimal n ds) ∧ ∀ c r', r = c :: r' → ¬(48 ≤ c ∧ c ≤ 57) := by
  cases s with
  | nil =>
    rw [octet_nil]
    constructor
    · rintro ⟨v, h⟩; cases h
    · rintro ⟨ds, h1, ⟨n, _, h2, _⟩, _⟩
      exact absurd (List.append_eq_nil_iff.1 h1.symm).1 h2
  | cons c s =>
    by_cases hc : 48 ≤ c ∧ c ≤ 57
    · have hd : isDecDigit c = true := (isDecDigit_iff c).2 hc
      have hc1 : 48 ≤ c.toNat := hc.1
      have hc2 : c.toNat ≤ 57 := hc.2
      rw [octet_first c s hd]
      by_cases h0 : c = 48
      · subst h0
        have e0 : ∀ w, octet (some ((48 : UInt8).toNat - 48)) s = some w ↔
            (∀ c r', s = c :: r' → ¬(48 ≤ c ∧ c ≤ 57)) ∧ w = (some 0, s) := by
          intro w
          show octet (some 0) s = some w ↔ _
          cases s with
          | nil => rw [octet_nil]; simp [eq_comm]
          | cons d s =>
            by_cases hd : 48 ≤ d ∧ d ≤ 57
            · rw [octet_zero d s ((isDecDigit_iff d).2 hd)]
              constructor
              · intro h; cases h
              · rintro ⟨h, -⟩; exact absurd hd (h d s rfl)
            · have : isDecDigit d = false := by
                cases h : isDecDigit d
                · rfl
                · exact absurd ((isDecDigit_iff d).1 h) hd
              rw [octet_stop _ d s this]
              constructor
              · intro h; cases h; exact ⟨(by rintro c r' ⟨⟩; exact hd), rfl⟩
              · rintro ⟨-, rfl⟩; rfl
        constructor
        · rintro ⟨v, h⟩
          obtain ⟨hh, e⟩ := (e0 _).1 h
          cases e
          exact ⟨[48], rfl, ⟨0, by omega, by simp, by simp, by simp, by simp⟩, hh⟩
        · rintro ⟨ds, h1, ⟨n, hn, h2, h3, h4, h5⟩, h6⟩
          cases ds with
          | nil => exact absurd rfl h2
          | cons d ds =>
            obtain ⟨rfl, h1'⟩ := List.cons.inj h1
            have : ds = [] := by
              by_contra hne
              exact h4 (by simp [List.length_pos_iff.2 hne]) rfl
            subst this
            have h1' : s = r := h1'
            subst h1'
            exact ⟨0, (e0 _).2 ⟨h6, rfl⟩⟩
      · have hv0 : c.toNat - 48 ≠ 0 := by
          intro h
          have : c.toNat = 48 := by omega
          exact h0 (UInt8.toNat_inj.1 this)
        constructor
        · rintro ⟨v, h⟩
          obtain ⟨ds, h1, h2, h3, h4, h5⟩ := (octet_none s _ (by omega) hv0 _ r).1 h
          refine ⟨c :: ds, by rw [h1]; rfl, ⟨_, h5, by simp, ?_, ?_, ?_⟩, h3⟩
          · intro x hx
            rcases List.mem_cons.1 hx with rfl | hx
            · exact hc
            · exact h2 x hx
          · intro _; simpa using h0
          · rw [List.foldl_cons]; simp
        · rintro ⟨ds, h1, ⟨n, hn, h2, h3, h4, h5⟩, h6⟩
          cases ds with
          | nil => exact absurd rfl h2
          | cons d ds =>
            obtain ⟨rfl, h1'⟩ := List.cons.inj h1
            rw [List.foldl_cons] at h5
            simp only [Nat.mul_zero, Nat.zero_add] at h5
            exact ⟨n, (octet_none s _ (by omega) hv0 _ r).2 ⟨ds, h1', fun x hx => h3 x (List.mem_cons_of_mem _ hx), h6,
              by rw [h5], by omega⟩⟩
    · have hd : isDecDigit c = false := by
        cases h : isDecDigit c
        · rfl
        · exact absurd ((isDecDigit_iff c).1 h) hc
      rw [octet_stop _ c s hd]
      constructor
      · rintro ⟨v, h⟩; cases h
      · rintro ⟨ds, h1, ⟨n, hn, h2, h3, _⟩, _⟩
        cases ds with
        | nil => exact absurd rfl h2
        | cons d ds =>
          obtain ⟨rfl, -⟩ := List.cons.inj h1
          exact absurd (h3 c (by simp)) hc

/-- Numbers from 0 to 255, each behind a dot. -/
def Dotted : Nat → Bytes → Prop
  | 0, s => s = []
  | k + 1, s => ∃ ds r, s = 46 :: (ds ++ r) ∧ (∃ n ≤ 255, IsDecimal n ds) ∧ Dotted k r

theorem dotted_head {k : Nat} {s : Bytes} (h : Dotted k s) : ∀ c r, s = c :: r → ¬(48 ≤ c ∧ c ≤ 57) := by
  rintro c r rfl
  cases k with
  | zero => cases h
  | succ k =>
    obtain ⟨ds, r', e, -⟩ := h
    cases e
    decide

theorem ipv4Tail_dotted (k : Nat) : ∀ n seen s, seen + k = 4 → 0 < seen → s.length ≤ n → (ipv4Tail n seen s = true ↔ Dotted k s) := by
  induction k with
  | zero =>
    intro n seen s h _ hn
    cases s with
    | nil =>
      have : seen = 4 := by omega
      subst this
      cases n <;> simp [ipv4Tail, Dotted]
    | cons c s =>
      cases n with
      | zero => simp at hn
      | succ n =>
        have h4 : seen = 4 := by omega
        subst h4
        simp [ipv4Tail, Dotted]
  | succ k ih =>
    intro n seen s h h0 hn
    cases s with
    | nil =>
      have : seen ≠ 4 := by omega
      cases n <;> simp [ipv4Tail, Dotted, this]
    | cons c s =>
      cases n with
      | zero => simp at hn
      | succ n =>
        have hs0 : seen ≠ 0 := by omega
        have hs4 : seen < 4 := by omega
        simp only [List.length_cons, Nat.add_le_add_iff_right] at hn
        constructor
        · intro ht
          simp only [ipv4Tail, hs0, hs4, if_false, true_and] at ht
          by_cases hc : c = 46
          · subst hc
            simp only [if_true] at ht
            cases ho : octet none s with
            | none => rw [ho] at ht; cases ht
            | some p =>
              obtain ⟨v, r⟩ := p
              rw [ho] at ht
              cases v with
              | none => cases ht
              | some v =>
                simp only at ht
                obtain ⟨ds, e, hd, -⟩ := (octet_iff s r).1 ⟨v, ho⟩
                refine ⟨ds, r, by rw [e], hd, (ih n (seen + 1) r (by omega) (by omega) ?_).1 ht⟩
                have := congrArg List.length e
                rw [List.length_append] at this
                omega
          · simp only [hc, if_false] at ht
            cases ht
        · rintro ⟨ds, r, e, hd, hr⟩
          obtain ⟨rfl, e'⟩ := List.cons.inj e
          clear e
          have e := e'
          obtain ⟨v, ho⟩ := (octet_iff s r).2 ⟨ds, e, hd, dotted_head hr⟩
          simp only [ipv4Tail, hs0, hs4, if_false, true_and, if_true, ho]
          refine (ih n (seen + 1) r (by omega) (by omega) ?_).2 hr
          have := congrArg List.length e
          rw [List.length_append] at this
          omega

theorem ip4_dotted (s : Bytes) : Rfc3986.Ip4 s ↔ ∃ ds r, s = ds ++ r ∧ (∃ n ≤ 255, IsDecimal n ds) ∧ Dotted 3 r := by
  constructor
  · rintro ⟨a, b, c, d, e, h⟩
    refine ⟨a, 46 :: (b ++ 46 :: (c ++ 46 :: (d ++ []))), ?_, h a (by simp), b, _, rfl, h b (by simp), c, _, rfl, h c (by simp), d, [], rfl,
      h d (by simp), rfl⟩
    rw [e]; simp
  · rintro ⟨a, r, e, ha, b, r1, rfl, hb, c, r2, rfl, hc, d, r3, rfl, hd, hr⟩
    cases hr
    refine ⟨a, b, c, d, by rw [e]; simp, ?_⟩
    intro x hx
    simp only [List.mem_cons, List.not_mem_nil, or_false] at hx
    rcases hx with rfl | rfl | rfl | rfl <;> assumption

theorem ipv4Tail_iff (n : Nat) (s : Bytes) (hn : s.length ≤ n) : ipv4Tail n 0 s = true ↔ Rfc3986.Ip4 s := by
  rw [ip4_dotted]
  cases s with
  | nil =>
    constructor
    · intro h; cases n <;> simp [ipv4Tail] at h
    · rintro ⟨ds, r, e, ⟨_, _, hd, _⟩, _⟩
      exact absurd (List.append_eq_nil_iff.1 e.symm).1 hd
  | cons c s =>
    cases n with
    | zero => simp at hn
    | succ n =>
      have e : ipv4Tail (n + 1) 0 (c :: s) = match octet none (c :: s) with
          | some (some _, r') => ipv4Tail n 1 r'
          | _ => false := rfl
      rw [e]
      constructor
      · intro ht
        cases ho : octet none (c :: s) with
        | none => rw [ho] at ht; cases ht
        | some p =>
          obtain ⟨v, r⟩ := p
          rw [ho] at ht
          cases v with
          | none => cases ht
          | some v =>
            simp only at ht
            obtain ⟨ds, e, hd, -⟩ := (octet_iff (c :: s) r).1 ⟨v, ho⟩
            refine ⟨ds, r, e, hd, (ipv4Tail_dotted 3 n 1 r rfl (by omega) ?_).1 ht⟩
            have h1 := congrArg List.length e
            rw [List.length_append] at h1
            obtain ⟨_, _, hd, _⟩ := hd
            have := List.length_pos_iff.2 hd
            omega
      · rintro ⟨ds, r, e, hd, hr⟩
        obtain ⟨v, ho⟩ := (octet_iff (c :: s) r).2 ⟨ds, e, hd, dotted_head hr⟩
        rw [ho]
        simp only
        refine (ipv4Tail_dotted 3 n 1 r rfl (by omega) ?_).2 hr
        have h1 := congrArg List.length e
        rw [List.length_append] at h1
        obtain ⟨_, _, hd, _⟩ := hd
        have := List.length_pos_iff.2 hd
        omega

theorem h16_iff (g : Bytes) : Rfc3986.H16 g ↔ g ≠ [] ∧ g.length ≤ 4 ∧ ∀ c ∈ g, isHexDigit c = true := by
  unfold Rfc3986.H16
  simp only [rfcHex]

theorem groups_iff (s : Bytes) (m : Nat) : Rfc3986.Groups s m ↔ (Rfc3986.H16 s ∧ m = 1) ∨ (Rfc3986.Ip4 s ∧ m = 2) ∨
    ∃ g r k, s = g ++ 58 :: r ∧ Rfc3986.H16 g ∧ Rfc3986.Groups r k ∧ m = k + 1 := by
  constructor
  · intro h
    cases h with
    | one h => exact .inl ⟨h, rfl⟩
    | two h => exact .inr (.inl ⟨h, rfl⟩)
    | more h h' => exact .inr (.inr ⟨_, _, _, rfl, h, h', rfl⟩)
  · rintro (⟨h, rfl⟩ | ⟨h, rfl⟩ | ⟨g, r, k, rfl, h, h', rfl⟩)
    · exact .one h
    · exact .two h
    · exact .more h h'

theorem plainGroups_iff (s : Bytes) (m : Nat) : Rfc3986.PlainGroups s m ↔ (Rfc3986.H16 s ∧ m = 1) ∨
    ∃ g r k, s = g ++ 58 :: r ∧ Rfc3986.H16 g ∧ Rfc3986.PlainGroups r k ∧ m = k + 1 := by
  constructor
  · intro h
    cases h with
    | one h => exact .inl ⟨h, rfl⟩
    | more h h' => exact .inr ⟨_, _, _, rfl, h, h', rfl⟩
  · rintro (⟨h, rfl⟩ | ⟨g, r, k, rfl, h, h', rfl⟩)
    · exact .one h
    · exact .more h h'

theorem h16_head {g : Bytes} (h : Rfc3986.H16 g) : ∃ c r, g = c :: r ∧ isHexDigit c = true := by
  rw [h16_iff] at h
  cases g with
  | nil => exact absurd rfl h.1
  | cons c r => exact ⟨c, r, rfl, h.2.2 c (by simp)⟩

/-- A number of an IPv4 address is at most three digits. -/
theorem octet_digits {ds : Bytes} (h : ∃ n ≤ 255, IsDecimal n ds) : ds ≠ [] ∧ ds.length ≤ 4 ∧ ∀ c ∈ ds, isHexDigit c = true := by
  obtain ⟨n, hn, h0, h1, h2, h3⟩ := h
  refine ⟨h0, ?_, fun c hc => dec_isHex c (h1 c hc)⟩
  have ge : ∀ (l : Bytes) (a : Nat), a ≤ l.foldl (fun a c => 10 * a + (c.toNat - 48)) a := by
    intro l
    induction l with
    | nil => intro a; exact Nat.le_refl _
    | cons c l ih => intro a; exact Nat.le_trans (by omega) (ih (10 * a + (c.toNat - 48)))
  match ds, h2, h3, h1 with
  | [], _, _, _ => simp
  | [_], _, _, _ => simp
  | [_, _], _, _, _ => simp
  | [_, _, _], _, _, _ => simp
  | a :: b :: c :: d :: r, h2, h3, h1 =>
    exfalso
    have := ge r (10 * (10 * (10 * (10 * 0 + (a.toNat - 48)) + (b.toNat - 48)) + (c.toNat - 48)) + (d.toNat - 48))
    simp only [List.foldl_cons] at h3
    rw [h3] at this
    have ha : a ≠ 48 := by
      rintro rfl
      exact h2 (by simp) rfl
    have ha1 : 48 ≤ a.toNat := UInt8.le_iff_toNat_le.1 (h1 a (by simp)).1
    have ha2 : a.toNat ≠ 48 := fun h => ha (UInt8.toNat_inj.1 h)
    omega

theorem ip4_head {s : Bytes} (h : Rfc3986.Ip4 s) : ∃ a r, s = a ++ 46 :: r ∧ a ≠ [] ∧ a.length ≤ 4 ∧ ∀ c ∈ a, isHexDigit c = true := by
  obtain ⟨a, b, c, d, e, h⟩ := h
  exact ⟨a, b ++ 46 :: c ++ 46 :: d, by rw [e]; simp, octet_digits (h a (by simp))⟩

theorem groups_head {s : Bytes} {m : Nat} (h : Rfc3986.Groups s m) : 0 < m ∧ ∃ c r, s = c :: r ∧ isHexDigit c = true := by
  have ap : ∀ {a x : Bytes}, a ≠ [] → (∀ c ∈ a, isHexDigit c = true) → ∃ c r, a ++ x = c :: r ∧ isHexDigit c = true := by
    intro a x h h'
    cases a with
    | nil => exact absurd rfl h
    | cons c r => exact ⟨c, r ++ x, rfl, h' c (by simp)⟩
  have h0 := (groups_iff s m).1 h; clear h; rcases h0 with ⟨h, rfl⟩ | ⟨h, rfl⟩ | ⟨g, r, k, rfl, h, -, rfl⟩
  · exact ⟨by omega, h16_head h⟩
  · obtain ⟨a, r, rfl, h1, -, h2⟩ := ip4_head h
    exact ⟨by omega, ap h1 h2⟩
  · rw [h16_iff] at h
    exact ⟨by omega, ap h.1 h.2.2⟩

theorem colon_not_hex (c : UInt8) (h : isHexDigit c = true) : c ≠ 58 := by
  rintro rfl; cases h

theorem ipv6Loop_step (n : Nat) (c : UInt8) (s : Bytes) (pp : Nat) (k : Bool) (hc : c ≠ 58) (hp : pp < 8) :
    ipv6Loop (n + 1) (c :: s) pp k = true ↔
      (Rfc3986.H16 (c :: s) ∧ ipv6Loop n [] (pp + 1) k = true) ∨
      (pp ≤ 6 ∧ Rfc3986.Ip4 (c :: s) ∧ (k = true ∨ pp + 2 = 8)) ∨
      ∃ g r, c :: s = g ++ 58 :: r ∧ Rfc3986.H16 g ∧ r ≠ [] ∧ ipv6Loop n r (pp + 1) k = true := by
  have hp8 : pp ≠ 8 := by omega
  have eq : ipv6Loop (n + 1) (c :: s) pp k =
      match (hexRun 4 (c :: s)).2 with
        | [] => ipv6Loop n [] (pp + 1) k
        | e :: rest' =>
          if e = 46 then
            if (hexRun 4 (c :: s)).1 = [] ∨ 6 < pp then false
            else ipv4Tail (c :: s).length 0 (c :: s) && (k || pp + 2 == 8)
          else if e = 58 then (if rest' = [] then false else ipv6Loop n rest' (pp + 1) k)
          else false := by
    conv => lhs; unfold ipv6Loop
    simp only [hp8, hc, if_false]
    rfl
  rw [eq]
  constructor
  · intro h
    obtain ⟨h1, h2, h3, h4⟩ := hexRun_spec 4 (c :: s)
    cases hr : (hexRun 4 (c :: s)).2 with
    | nil =>
      rw [hr] at h h1
      rw [List.append_nil] at h1
      refine .inl ⟨(h16_iff _).2 ⟨by simp, ?_, ?_⟩, h⟩
      · rw [h1]; exact h2
      · rw [h1]; exact h3
    | cons e rest' =>
      rw [hr] at h h1
      simp only at h
      by_cases he : e = 46
      · simp only [he, if_true] at h
        split at h
        · cases h
        · rename_i hn
          rw [not_or] at hn
          simp only [Bool.and_eq_true, Bool.or_eq_true, beq_iff_eq] at h
          exact .inr (.inl ⟨by omega, (ipv4Tail_iff _ _ (Nat.le_refl _)).1 h.1, h.2⟩)
      · by_cases he' : e = 58
        · subst he'
          simp only [he, if_false, if_true] at h
          split at h
          · cases h
          · rename_i hn
            refine .inr (.inr ⟨_, rest', h1, (h16_iff _).2 ⟨?_, h2, h3⟩, hn, h⟩)
            intro e0
            rw [e0] at h1
            exact hc (List.cons.inj h1).1
        · simp only [he, he', if_false] at h
          cases h
  · rintro (⟨h, h'⟩ | ⟨h6, h, h'⟩ | ⟨g, r, e, h, hr, h'⟩)
    · rw [h16_iff] at h
      have := hexRun_append 4 (c :: s) [] h.2.1 h.2.2 (fun _ _ h => nomatch h)
      rw [List.append_nil] at this
      rw [this]
      exact h'
    · obtain ⟨a, r, e, h1, h2, h3⟩ := ip4_head h
      have := hexRun_append 4 a (46 :: r) h2 h3 (by rintro _ _ ⟨⟩; rfl)
      rw [← e] at this
      rw [this]
      have hn : ¬(a = [] ∨ 6 < pp) := by
        rw [not_or]; exact ⟨h1, by omega⟩
      simp only [hn, if_true, if_false, Bool.and_eq_true, Bool.or_eq_true, beq_iff_eq]
      exact ⟨(ipv4Tail_iff _ _ (Nat.le_refl _)).2 h, h'⟩
    · rw [h16_iff] at h
      have := hexRun_append 4 g (58 :: r) h.2.1 h.2.2 (by rintro _ _ ⟨⟩; rfl)
      rw [← e] at this
      rw [this]
      have : ¬((58 : UInt8) = 46) := by decide
      simp only [this, hr, if_true, if_false]
      exact h'

theorem ipv6Loop_nil (n pp : Nat) (k : Bool) : ipv6Loop n [] pp k = (k || pp == 8) := by cases n <;> rfl

theorem ipv6Loop_true (n : Nat) : ∀ bs pp, bs.length ≤ n → pp ≤ 8 →
    (ipv6Loop n bs pp true = true ↔ bs = [] ∨ ∃ m, Rfc3986.Groups bs m ∧ pp + m ≤ 8) := by
  induction n with
  | zero =>
    intro bs pp hn _
    obtain rfl := List.length_eq_zero_iff.1 (Nat.le_zero.1 hn)
    simp [ipv6Loop]
  | succ n ih =>
    intro bs pp hn hp
    cases bs with
    | nil => simp [ipv6Loop]
    | cons c s =>
      have no : (c :: s = []) ↔ False := by simp
      rw [no, false_or]
      by_cases h8 : pp = 8
      · constructor
        · intro h; unfold ipv6Loop at h; rw [if_pos h8] at h; cases h
        · rintro ⟨m, h, hm⟩
          have := (groups_head h).1
          omega
      · by_cases hc : c = 58
        · constructor
          · intro h; unfold ipv6Loop at h; rw [if_neg h8, if_pos hc] at h; cases h
          · rintro ⟨m, h, hm⟩
            obtain ⟨-, c', r, e, hh⟩ := groups_head h
            cases e
            exact absurd hc (colon_not_hex _ hh)
        · rw [ipv6Loop_step n c s pp true hc (by omega), ipv6Loop_nil]
          have len : ∀ g r : Bytes, c :: s = g ++ 58 :: r → r.length ≤ n := by
            intro g r e
            have := congrArg List.length e
            rw [List.length_append, List.length_cons] at this
            simp only [List.length_cons] at this hn
            omega
          constructor
          · rintro (⟨h, -⟩ | ⟨h6, h, -⟩ | ⟨g, r, e, h, hr, h'⟩)
            · exact ⟨1, .one h, by omega⟩
            · exact ⟨2, .two h, by omega⟩
            · rcases (ih r (pp + 1) (len g r e) (by omega)).1 h' with h0 | ⟨m, h1, hm⟩
              · exact absurd h0 hr
              · exact ⟨m + 1, (groups_iff _ _).2 (.inr (.inr ⟨g, r, m, e, h, h1, rfl⟩)), by omega⟩
          · rintro ⟨m, h, hm⟩
            have h0 := (groups_iff _ _).1 h; clear h; rcases h0 with ⟨h, rfl⟩ | ⟨h, rfl⟩ | ⟨g, r, k, e, h, h', rfl⟩
            · exact .inl ⟨h, rfl⟩
            · exact .inr (.inl ⟨by omega, h, .inl rfl⟩)
            · refine .inr (.inr ⟨g, r, e, h, ?_, (ih r (pp + 1) (len g r e) (by omega)).2 (.inr ⟨k, h', by omega⟩)⟩)
              rintro rfl
              obtain ⟨-, _, _, e, -⟩ := groups_head h'
              cases e

/-- What may follow `::` behind this many pieces (with the one it stands for). -/
def Behind (pp : Nat) (r : Bytes) : Prop := r = [] ∨ ∃ m, Rfc3986.Groups r m ∧ pp + m ≤ 8

theorem ipv6Loop_false (n : Nat) : ∀ bs pp, bs.length ≤ n → pp ≤ 8 →
    (ipv6Loop n bs pp false = true ↔ (bs = [] ∧ pp = 8) ∨ (∃ m, Rfc3986.Groups bs m ∧ pp + m = 8) ∨
      (∃ r, bs = 58 :: r ∧ pp < 8 ∧ Behind (pp + 1) r) ∨
      ∃ l r k, bs = l ++ 58 :: 58 :: r ∧ Rfc3986.PlainGroups l k ∧ pp + k < 8 ∧ Behind (pp + k + 1) r) := by
  induction n with
  | zero =>
    intro bs pp hn _
    obtain rfl := List.length_eq_zero_iff.1 (Nat.le_zero.1 hn)
    rw [ipv6Loop_nil]
    constructor
    · intro h; exact .inl ⟨rfl, by simpa using h⟩
    · rintro (⟨-, h⟩ | ⟨m, h, -⟩ | ⟨r, h, -⟩ | ⟨l, r, k, h, -⟩)
      · simp [h]
      · obtain ⟨-, _, _, e, -⟩ := groups_head h
        cases e
      · cases h
      · simp at h
  | succ n ih =>
    intro bs pp hn hp
    cases bs with
    | nil =>
      rw [ipv6Loop_nil]
      constructor
      · intro h; exact .inl ⟨rfl, by simpa using h⟩
      · rintro (⟨-, h⟩ | ⟨m, h, -⟩ | ⟨r, h, -⟩ | ⟨l, r, k, h, -⟩)
        · simp [h]
        · obtain ⟨-, _, _, e, -⟩ := groups_head h
          cases e
        · cases h
        · simp at h
    | cons c s =>
      have plainHead : ∀ {l k}, Rfc3986.PlainGroups l k → 0 < k ∧ ∃ c r, l = c :: r ∧ isHexDigit c = true := by
        intro l k h
        have h0 := (plainGroups_iff l k).1 h; clear h; rcases h0 with ⟨h, rfl⟩ | ⟨g, r, k, rfl, h, -, rfl⟩
        · exact ⟨by omega, h16_head h⟩
        · obtain ⟨c, r', rfl, hc⟩ := h16_head h
          exact ⟨by omega, c, r' ++ 58 :: r, rfl, hc⟩
      have hn' : s.length ≤ n := by simpa using hn
      by_cases h8 : pp = 8
      · constructor
        · intro h; unfold ipv6Loop at h; rw [if_pos h8] at h; cases h
        · rintro (⟨h, -⟩ | ⟨m, h, hm⟩ | ⟨r, -, h, -⟩ | ⟨l, r, k, -, h, h', -⟩)
          · cases h
          · have := (groups_head h).1
            omega
          · omega
          · omega
      · by_cases hc : c = 58
        · subst hc
          have e : ipv6Loop (n + 1) (58 :: s) pp false = ipv6Loop n s (pp + 1) true := by
            conv => lhs; unfold ipv6Loop
            simp [h8]
          rw [e, ipv6Loop_true n s (pp + 1) hn' (by omega)]
          constructor
          · intro h; exact .inr (.inr (.inl ⟨s, rfl, by omega, h⟩))
          · rintro (⟨h, -⟩ | ⟨m, h, hm⟩ | ⟨r, e, h, h'⟩ | ⟨l, r, k, e, h, h', -⟩)
            · cases h
            · obtain ⟨-, c', r, e, hh⟩ := groups_head h
              cases e
              cases hh
            · cases e; exact h'
            · obtain ⟨-, c', r, rfl, hh⟩ := plainHead h
              cases e
              cases hh
        · rw [ipv6Loop_step n c s pp false hc (by omega), ipv6Loop_nil]
          have len : ∀ g r : Bytes, c :: s = g ++ 58 :: r → r.length ≤ n := by
            intro g r e
            have := congrArg List.length e
            rw [List.length_append, List.length_cons] at this
            simp only [List.length_cons] at this hn
            omega
          constructor
          · rintro (⟨h, h'⟩ | ⟨h6, h, h'⟩ | ⟨g, r, e, h, hr, h'⟩)
            · exact .inr (.inl ⟨1, .one h, by simpa using h'⟩)
            · exact .inr (.inl ⟨2, .two h, by simpa using h'⟩)
            · rcases (ih r (pp + 1) (len g r e) (by omega)).1 h' with ⟨h0, -⟩ | ⟨m, h1, hm⟩ | ⟨r', rfl, h1, h2⟩ | ⟨l, r', k, rfl, h1, h2, h3⟩
              · exact absurd h0 hr
              · exact .inr (.inl ⟨m + 1, (groups_iff _ _).2 (.inr (.inr ⟨g, r, m, e, h, h1, rfl⟩)), by omega⟩)
              · exact .inr (.inr (.inr ⟨g, r', 1, e, .one h, h1, h2⟩))
              · refine .inr (.inr (.inr ⟨g ++ 58 :: l, r', k + 1, ?_, .more h h1, by omega, ?_⟩))
                · rw [e]; simp
                · have : pp + (k + 1) + 1 = pp + 1 + k + 1 := by omega
                  rw [this]; exact h3
          · rintro (⟨h, -⟩ | ⟨m, h, hm⟩ | ⟨r, e, -⟩ | ⟨l, r, k, e, h, h', h3⟩)
            · cases h
            · have h0 := (groups_iff _ _).1 h; clear h; rcases h0 with ⟨h, rfl⟩ | ⟨h, rfl⟩ | ⟨g, r, k, e, h, h', rfl⟩
              · exact .inl ⟨h, by simp; omega⟩
              · exact .inr (.inl ⟨by omega, h, .inr (by omega)⟩)
              · refine .inr (.inr ⟨g, r, e, h, ?_, (ih r (pp + 1) (len g r e) (by omega)).2 (.inr (.inl ⟨k, h', by omega⟩))⟩)
                rintro rfl
                obtain ⟨-, _, _, e, -⟩ := groups_head h'
                cases e
            · cases e; exact absurd rfl hc
            · have h0 := (plainGroups_iff _ _).1 h; clear h; rcases h0 with ⟨h, rfl⟩ | ⟨g, r', k, rfl, h, h1, rfl⟩
              · exact .inr (.inr ⟨l, 58 :: r, e, h, by simp,
                  (ih _ (pp + 1) (len _ _ e) (by omega)).2 (.inr (.inr (.inl ⟨r, rfl, by omega, h3⟩)))⟩)
              · have e' : c :: s = g ++ 58 :: (r' ++ 58 :: 58 :: r) := by rw [e]; simp
                refine .inr (.inr ⟨g, _, e', h, by simp,
                  (ih _ (pp + 1) (len _ _ e') (by omega)).2 (.inr (.inr (.inr ⟨r', r, k, rfl, h1, by omega, ?_⟩)))⟩)
                have : pp + 1 + k + 1 = pp + (k + 1) + 1 := by omega
                rw [this]; exact h3

theorem ipv6Ok_iff (s : Bytes) : ipv6Ok s = true ↔ Rfc3986.Ip6 s := by
  have short : ∀ s : Bytes, s.length ≤ 1 → ¬Rfc3986.Ip6 s := by
    rintro s hs (h | ⟨l, r, n, m, rfl, -⟩)
    · have h0 := (groups_iff _ _).1 h; clear h; rcases h0 with ⟨-, h⟩ | ⟨-, h⟩ | ⟨g, r, k, rfl, h, h', hk⟩
      · cases h
      · cases h
      · obtain ⟨_, _, rfl, -⟩ := h16_head h
        simp at hs
    · simp at hs
      omega
  match s with
  | [] => exact ⟨(fun h => by cases h), fun h => absurd h (short _ (by simp))⟩
  | [a] => exact ⟨(fun h => by cases h), fun h => absurd h (short _ (by simp))⟩
  | a :: b :: rest =>
    unfold ipv6Ok
    simp only
    by_cases ha : a = 58
    · subst ha
      rw [if_pos rfl]
      have notGroups : ∀ {x m}, ¬Rfc3986.Groups (58 :: x) m := by
        intro x m h
        obtain ⟨-, c', r, e, hh⟩ := groups_head h
        cases e
        cases hh
      have notPlain : ∀ {x y m}, Rfc3986.PlainGroups x m → ∀ z, 58 :: y ≠ x ++ z := by
        intro x y m h z e
        have h0 := (plainGroups_iff x m).1 h; clear h; rcases h0 with ⟨h, rfl⟩ | ⟨g, r, k, rfl, h, -, rfl⟩
        · obtain ⟨c, r, rfl, hc⟩ := h16_head h
          cases e
          cases hc
        · obtain ⟨c, r, rfl, hc⟩ := h16_head h
          cases e
          cases hc
      by_cases hb : b = 58
      · subst hb
        rw [if_pos rfl, ipv6Loop_true _ _ 1 (Nat.le_refl _) (by omega)]
        constructor
        · rintro (rfl | ⟨m, h, hm⟩)
          · exact .inr ⟨[], [], 0, 0, rfl, .inl ⟨rfl, rfl⟩, .inl ⟨rfl, rfl⟩, by omega⟩
          · exact .inr ⟨[], rest, 0, m, rfl, .inl ⟨rfl, rfl⟩, .inr h, by omega⟩
        · rintro (h | ⟨l, r, n, m, e, h1, h2, h3⟩)
          · exact absurd h notGroups
          · rcases h1 with ⟨rfl, rfl⟩ | h1
            · cases e
              rcases h2 with ⟨rfl, rfl⟩ | h2
              · exact .inl rfl
              · exact .inr ⟨m, h2, by omega⟩
            · exact absurd e (notPlain h1 _)
      · rw [if_neg hb]
        constructor
        · intro h; cases h
        · rintro (h | ⟨l, r, n, m, e, h1, h2, h3⟩)
          · exact absurd h notGroups
          · rcases h1 with ⟨rfl, rfl⟩ | h1
            · cases e
              exact absurd rfl hb
            · exact absurd e (notPlain h1 _)
    · rw [if_neg ha, ipv6Loop_false _ _ 0 (Nat.le_refl _) (by omega)]
      constructor
      · rintro (⟨h, -⟩ | ⟨m, h, hm⟩ | ⟨r, h, -⟩ | ⟨l, r, k, e, h, h', h3⟩)
        · cases h
        · obtain rfl : m = 8 := by omega
          exact .inl h
        · cases h; exact absurd rfl ha
        · rcases h3 with rfl | ⟨m, h3, hm⟩
          · exact .inr ⟨l, [], k, 0, e, .inr h, .inl ⟨rfl, rfl⟩, by omega⟩
          · exact .inr ⟨l, r, k, m, e, .inr h, .inr h3, by omega⟩
      · rintro (h | ⟨l, r, n, m, e, h1, h2, h3⟩)
        · exact .inr (.inl ⟨8, h, rfl⟩)
        · rcases h1 with ⟨rfl, rfl⟩ | h1
          · cases e; exact absurd rfl ha
          · refine .inr (.inr (.inr ⟨l, r, n, e, h1, by omega, ?_⟩))
            rcases h2 with ⟨rfl, rfl⟩ | h2
            · exact .inl rfl
            · exact .inr ⟨m, h2, by omega⟩

/-! ### Hosts -/

theorem invalidDomainChar_iff (c : UInt8) : invalidDomainChar c = true ↔ ForbiddenInDomain c := by
  unfold invalidDomainChar ForbiddenInDomain
  rw [Bool.or_eq_true, Bool.or_eq_true, decide_eq_true_eq, beq_iff_eq, List.contains_iff_mem, UInt8.le_iff_toNat_le, or_assoc]
  exact Iff.rfl

theorem plainName_iff (d : Bytes) : PlainName d ↔
    (d.all (fun c => decide (c < 128)) ∧ (splitDots (d.map toLower)).all (fun l => !(ascii "xn--").isPrefixOf l)) := by
  unfold PlainName
  rw [lower_eq, List.all_eq_true, List.all_eq_true]
  refine and_congr ?_ ?_
  · refine forall_congr' fun c => imp_congr_right fun _ => ?_
    rw [decide_eq_true_eq, UInt8.lt_iff_toNat_lt]
    exact Iff.rfl
  · constructor
    · intro h l hl
      have := h _ ((labels_iff _ _).2 rfl) l hl
      rw [Bool.not_eq_true', ← Bool.not_eq_true, List.isPrefixOf_iff_prefix]
      exact this
    · intro h ls hls l hl
      rw [labels_iff] at hls
      subst hls
      have := h l hl
      rw [Bool.not_eq_true', ← Bool.not_eq_true, List.isPrefixOf_iff_prefix] at this
      exact this

theorem domainToAscii_iff (idna : Bytes → Option Bytes) (d name : Bytes) : domainToAscii idna d = some name ↔ AsciiName idna d name := by
  unfold domainToAscii AsciiName
  split
  · rename_i h
    have h' := (plainName_iff d).2 h
    rw [lower_eq]
    constructor
    · rintro ⟨⟩; exact .inl ⟨h', rfl⟩
    · rintro (⟨-, rfl⟩ | ⟨h, -⟩)
      · rfl
      · exact absurd h' h
  · rename_i h
    have h' : ¬PlainName d := fun x => h ((plainName_iff d).1 x)
    constructor
    · intro e; exact .inr ⟨h', e⟩
    · rintro (⟨h, -⟩ | ⟨-, h⟩)
      · exact absurd h h'
      · exact h

theorem bracketed_iff (s t : Bytes) (h : s.head? = some 91) : bracketed s = some t ↔ t = s ∧ ∃ x, s = 91 :: x ++ [93] ∧ Rfc3986.Ip6 x := by
  have key : (s.getLast? = some 93 ∧ ipv6Ok (s.drop 1).dropLast = true) ↔ ∃ x, s = 91 :: x ++ [93] ∧ Rfc3986.Ip6 x := by
    cases s with
    | nil => cases h
    | cons c r =>
      cases h
      constructor
      · rintro ⟨h1, h2⟩
        rw [ipv6Ok_iff] at h2
        simp only [List.drop_succ_cons, List.drop_zero] at h2
        refine ⟨r.dropLast, ?_, h2⟩
        cases r with
        | nil => simp at h1
        | cons a r =>
          rw [List.getLast?_cons_cons] at h1
          rw [List.cons_append]
          congr 1
          exact (List.dropLast_append_getLast? 93 (by simpa using h1)).symm
      · rintro ⟨x, e, hx⟩
        rw [e]
        refine ⟨by rw [List.getLast?_append]; rfl, ?_⟩
        rw [ipv6Ok_iff]
        simpa using hx
  unfold bracketed
  split
  · rename_i hk
    exact ⟨fun e => ⟨(Option.some.inj e).symm, key.1 hk⟩, fun e => by rw [e.1]⟩
  · rename_i hk
    exact ⟨(fun e => by cases e), fun e => absurd (key.2 e.2) hk⟩

theorem parse_iff (idna : Bytes → Option Bytes) (s t : Bytes) : parse idna s = some t ↔
    (t = s ∧ ∃ x, s = 91 :: x ++ [93] ∧ Rfc3986.Ip6 x) ∨
    (s.head? ≠ some 91 ∧ ∃ d, PercentDecoded s d ∧ AsciiName idna d t ∧ t ≠ [] ∧ (∀ c ∈ t, ¬ForbiddenInDomain c) ∧
      (EndsInNumber t → Ip4Text t)) := by
  unfold parse
  by_cases hb : s.head? = some 91
  · rw [if_pos hb, bracketed_iff s t hb]
    constructor
    · exact .inl
    · rintro (h | ⟨h, -⟩)
      · exact h
      · exact absurd hb h
  · rw [if_neg hb]
    have hno : ¬(t = s ∧ ∃ x, s = 91 :: x ++ [93] ∧ Rfc3986.Ip6 x) := by
      rintro ⟨-, x, rfl, -⟩
      exact hb rfl
    rw [or_iff_right hno, and_iff_right hb]
    simp only [percentDecoded_iff]
    rw [exists_eq_left]
    constructor
    · intro h
      split at h
      · cases h
      · rename_i d hd
        rw [domainToAscii_iff] at hd
        split at h
        · cases h
        · rename_i h0
          split at h
          · cases h
          · rename_i hf
            have hf' : ∀ c ∈ d, ¬ForbiddenInDomain c := by
              intro c hc hF
              exact hf (List.any_eq_true.2 ⟨c, hc, (invalidDomainChar_iff c).2 hF⟩)
            split at h
            · split at h
              · rename_i _ h4
                cases h
                exact ⟨hd, h0, hf', fun _ => (ipv4Ok_iff _).1 h4⟩
              · cases h
            · rename_i hn
              cases h
              exact ⟨hd, h0, hf', fun hE => absurd ((endsInANumber_iff _).2 hE) hn⟩
    · rintro ⟨hd, h0, hf, h4⟩
      rw [(domainToAscii_iff _ _ _).2 hd]
      have hf' : ¬t.any invalidDomainChar = true := by
        intro h
        obtain ⟨c, hc, hF⟩ := List.any_eq_true.1 h
        exact hf c hc ((invalidDomainChar_iff c).1 hF)
      simp only
      rw [if_neg h0, if_neg hf']
      by_cases hE : endsInANumber t = true
      · rw [if_pos hE, if_pos ((ipv4Ok_iff t).2 (h4 ((endsInANumber_iff t).1 hE)))]
      · rw [if_neg hE]

theorem parse_webHost (idna : Bytes → Option Bytes) (s : Bytes) : (parse idna s).isSome = true ↔ WebHost idna s := by
  rw [Option.isSome_iff_exists]
  constructor
  · rintro ⟨t, h⟩
    rcases (parse_iff idna s t).1 h with ⟨-, h⟩ | ⟨h, d, h1, h2⟩
    · exact .inl h
    · exact .inr ⟨h, d, t, h1, h2⟩
  · rintro (h | ⟨h, d, t, h1, h2⟩)
    · exact ⟨s, (parse_iff _ _ _).2 (.inl ⟨rfl, h⟩)⟩
    · exact ⟨t, (parse_iff _ _ _).2 (.inr ⟨h, d, h1, h2⟩)⟩

theorem parseOpaque_iff (s : Bytes) : (parseOpaque s).isSome = true ↔ OpaqueHost s := by
  unfold parseOpaque OpaqueHost
  by_cases hb : s.head? = some 91
  · rw [if_pos hb, Option.isSome_iff_exists]
    constructor
    · rintro ⟨t, h⟩
      exact .inl ((bracketed_iff s t hb).1 h).2
    · rintro (h | ⟨h, -⟩)
      · exact ⟨s, (bracketed_iff s s hb).2 ⟨rfl, h⟩⟩
      · exact absurd hb h
  · rw [if_neg hb]
    have hno : ¬(∃ x, s = 91 :: x ++ [93] ∧ Rfc3986.Ip6 x) := by
      rintro ⟨x, rfl, -⟩
      exact hb rfl
    rw [or_iff_right hno, and_iff_right hb]
    have char : ∀ c, invalidHostChar c = true ↔ ¬(c ≠ 0 ∧ c ≠ 9 ∧ c ≠ 10 ∧ c ≠ 13 ∧ c ∉ ascii " #/:<>?@[\\]^|") := by
      intro c
      unfold invalidHostChar
      simp only [Bool.or_eq_true, beq_iff_eq, List.contains_iff_mem, ne_eq]
      tauto
    split
    · rename_i h
      obtain ⟨c, hc, hF⟩ := List.any_eq_true.1 h
      constructor
      · intro h; cases h
      · intro h; exact absurd (h c hc) ((char c).1 hF)
    · rename_i h
      constructor
      · intro _ c hc
        by_contra hF
        exact h (List.any_eq_true.2 ⟨c, hc, (char c).2 hF⟩)
      · intro _; rfl

theorem parseOpaque_ne_nil (s : Bytes) (h : s ≠ []) : parseOpaque s ≠ some [] := by
  unfold parseOpaque
  split
  · rename_i hb
    intro e
    exact h ((bracketed_iff s [] hb).1 e).1.symm
  · split
    · simp
    · intro e
      cases s with
      | nil => exact h rfl
      | cons c s =>
        unfold encodeControls at e
        split at e <;> cases e

theorem parse_nonempty (idna : Bytes → Option Bytes) (s : Bytes) : (∃ h, parse idna s = some h ∧ h ≠ []) ↔ WebHost idna s := by
  rw [← parse_webHost, Option.isSome_iff_exists]
  refine exists_congr fun h => ⟨And.left, fun e => ⟨e, ?_⟩⟩
  rcases (parse_iff idna s h).1 e with ⟨rfl, x, rfl, -⟩ | ⟨-, d, -, -, h0, -⟩
  · simp
  · exact h0

/-! ### The usual hosts -/

theorem toLower_dot (c : UInt8) : toLower c = 46 ↔ c = 46 := by revert c; apply u8_all; decide +kernel

theorem labels_lowered {s : Bytes} {ls : List Bytes} (h : Labels s ls) : Labels (lowered s) (ls.map lowered) := by
  have dot : ∀ l : Bytes, 46 ∉ l → 46 ∉ lowered l := by
    intro l hl h
    rw [← lower_eq] at h
    obtain ⟨c, hc, e⟩ := List.mem_map.1 h
    rw [(toLower_dot c).1 e] at hc
    exact hl hc
  induction h with
  | one hl => exact .one (dot _ hl)
  | @more l d ls hl _ ih =>
    have : lowered (l ++ 46 :: d) = lowered l ++ 46 :: lowered d := by
      rw [← lower_eq, ← lower_eq, ← lower_eq, List.map_append, List.map_cons]
      rfl
    rw [this]
    exact .more (dot _ hl) ih

theorem percentDecode_plain (s : Bytes) (h : 37 ∉ s) : percentDecode s = s := by
  have : PercentDecoded s s := by
    induction s with
    | nil => exact .nil
    | cons c s ih =>
      refine .same ?_ (ih fun hc => h (List.mem_cons_of_mem _ hc))
      rintro rfl
      exact absurd List.mem_cons_self h
  exact ((percentDecoded_iff s s).1 this).symm

/-- Letters, digits, hyphens and dots. -/
def nameChar (c : UInt8) : Bool :=
  (48 ≤ c && c ≤ 57) || (65 ≤ c && c ≤ 90) || (97 ≤ c && c ≤ 122) || c == 45 || c == 46

theorem nameChar_facts (c : UInt8) (h : nameChar c = true) :
    c ≠ 37 ∧ c ≠ 91 ∧ c.toNat < 128 ∧ invalidDomainChar (toLower c) = false := by
  revert c; apply u8_all; decide +kernel

/-- A text of letters, digits, hyphens and dots is a host exactly if it is an IPv4 address or does not end in a number. -/
theorem webHost_name (idna : Bytes → Option Bytes) (s : Bytes) (h0 : s ≠ []) (h : ∀ c ∈ s, nameChar c = true)
    (hx : ∀ ls, Labels (lowered s) ls → ∀ l ∈ ls, ¬ascii "xn--" <+: l) :
    WebHost idna s ↔ (EndsInNumber (lowered s) → Ip4Text (lowered s)) := by
  have hd : percentDecode s = s := percentDecode_plain s fun h37 => (nameChar_facts _ (h _ h37)).1 rfl
  have hp : PlainName s := ⟨fun c hc => (nameChar_facts c (h c hc)).2.2.1, hx⟩
  have hb : s.head? ≠ some 91 := by
    cases s with
    | nil => simp
    | cons c s =>
      intro e
      cases e
      exact (nameChar_facts 91 (h _ List.mem_cons_self)).2.1 rfl
  have hf : ∀ c ∈ lowered s, ¬ForbiddenInDomain c := by
    intro c hc hF
    rw [← lower_eq] at hc
    obtain ⟨c', hc', rfl⟩ := List.mem_map.1 hc
    rw [← invalidDomainChar_iff, (nameChar_facts c' (h c' hc')).2.2.2] at hF
    cases hF
  have hl0 : lowered s ≠ [] := by
    rw [← lower_eq]
    simpa using h0
  constructor
  · rintro (⟨x, rfl, -⟩ | ⟨-, d, name, h1, h2, -, -, h3⟩)
    · exact absurd rfl hb
    · rw [percentDecoded_iff, hd] at h1
      subst h1
      rcases h2 with ⟨-, rfl⟩ | ⟨h2, -⟩
      · exact h3
      · exact absurd hp h2
  · intro h4
    exact .inr ⟨hb, s, lowered s, (percentDecoded_iff _ _).2 hd.symm, .inl ⟨hp, rfl⟩, hl0, hf, h4⟩

theorem ip4Number_head {l : Bytes} {n : Nat} (h : Ip4Number l n) : ∃ c r, l = c :: r ∧ 48 ≤ c ∧ c ≤ 57 := by
  cases h with
  | decimal h0 h1 _ =>
    cases l with
    | nil => exact absurd rfl h0
    | cons c r => exact ⟨c, r, rfl, h1 c List.mem_cons_self⟩
  | octal _ _ => exact ⟨48, _, rfl, by decide, by decide⟩
  | hexadecimal _ _ => exact ⟨48, _, rfl, by decide, by decide⟩

theorem labels_chars {s : Bytes} {ls : List Bytes} (h : Labels s ls) (p : UInt8 → Prop) (hp : p 46) (hl : ∀ l ∈ ls, ∀ c ∈ l, p c) :
    ∀ c ∈ s, p c := by
  induction h with
  | one _ => exact hl _ (by simp)
  | @more l d ls _ _ ih =>
    intro c hc
    rcases List.mem_append.1 hc with hc | hc
    · exact hl l (by simp) c hc
    · rcases List.mem_cons.1 hc with rfl | hc
      · exact hp
      · exact ih (fun l' hl' => hl l' (by simp [hl'])) c hc

theorem webHost_hostName (idna : Bytes → Option Bytes) (s : Bytes) (h : HostName s) : WebHost idna s ∧ s ≠ [] ∧ ∀ c ∈ s, nameChar c = true := by
  obtain ⟨ls, l, h1, h2, h3⟩ := h
  have hc : ∀ c ∈ s, nameChar c = true := by
    refine labels_chars h1 _ (by decide) fun l hl c hc => ?_
    have := (h2 l hl).2.2 c hc
    clear hc
    revert c; apply u8_all; decide +kernel
  have hlne := (h2 l (by simp)).1
  have h0 : s ≠ [] := by
    rintro rfl
    have := (labels_iff _ _).1 h1
    have e : splitDots [] = ([] : List Bytes) ++ [[]] := rfl
    rw [e] at this
    exact hlne (List.append_inj_right' this rfl |> List.cons.inj |>.1)
  refine ⟨(webHost_name idna s h0 hc ?_).2 ?_, h0, hc⟩
  · intro ls' hl'
    have e := (labels_iff _ _).1 hl'
    rw [← (labels_iff _ _).1 (labels_lowered h1)] at e
    subst e
    intro x hx
    obtain ⟨y, hy, rfl⟩ := List.mem_map.1 hx
    exact (h2 y hy).2.1
  · rintro ⟨ls', l', h4, h5⟩
    exfalso
    have hL := labels_lowered h1
    rw [List.map_append, List.map_singleton] at hL
    have hl2 : lowered l ≠ [] := by rw [← lower_eq]; simpa using hlne
    have : LabelsOf (lowered s) (ls.map lowered ++ [lowered l]) := .inr ⟨hL, by
      rw [List.getLast?_append]
      simpa using hl2⟩
    have e : l' = lowered l := by
      have := ((labelsOf_iff _ _).1 h4).trans ((labelsOf_iff _ _).1 this).symm
      exact List.append_inj_right' this rfl |> List.cons.inj |>.1
    subst e
    cases l with
    | nil => exact hlne rfl
    | cons c r =>
      have hc := h3 c rfl
      have e : lowered (c :: r) = toLower c :: lowered r := by rw [← lower_eq, ← lower_eq]; rfl
      have nd : ¬(48 ≤ toLower c ∧ toLower c ≤ 57) := by
        clear h1 h2 h3 h4 h5 hL hl2 this e hlne
        revert c; apply u8_all; decide +kernel
      rcases h5 with ⟨-, h5⟩ | ⟨n, h5⟩
      · exact nd (h5 _ (by rw [e]; simp))
      · obtain ⟨c', r', e', h6⟩ := ip4Number_head h5
        rw [e] at e'
        cases e'
        exact nd h6

theorem decimal_number {n : Nat} {ds : Bytes} (h : IsDecimal n ds) : Ip4Number ds n := by
  obtain ⟨h0, h1, h2, h3⟩ := h
  have e : radix 10 ds = n := by
    rw [← h3]
    unfold radix
    have : ∀ (l : Bytes) (a : Nat), (∀ c ∈ l, 48 ≤ c ∧ c ≤ 57) →
        l.foldl (fun n d => n * 10 + digitValue d) a = l.foldl (fun a c => 10 * a + (c.toNat - 48)) a := by
      intro l
      induction l with
      | nil => intro _ _; rfl
      | cons c l ih =>
        intro a h
        rw [List.foldl_cons, List.foldl_cons, dec_value c (h c (by simp)), Nat.mul_comm]
        exact ih _ fun c hc => h c (by simp [hc])
    exact this ds 0 h1
  rw [← e]
  refine .decimal h0 h1 fun hh => ?_
  by_contra hne
  refine h2 ?_ hh
  have := List.length_pos_iff.2 h0
  omega

theorem ip4Number_unique {ds : Bytes} {n m : Nat} (h : Ip4Number ds n) (hn : n < 4294967296) (h' : Ip4Number ds m) : n = m := by
  have h1 := (ipv4Number_eq ds (some n)).2 ⟨n, h, by rw [if_pos hn]⟩
  have h2 := (ipv4Number_eq ds _).2 ⟨m, h', rfl⟩
  rw [h1] at h2
  by_cases hm : m < 4294967296
  · rw [if_pos hm] at h2
    exact Option.some.inj (Option.some.inj h2)
  · rw [if_neg hm] at h2
    cases Option.some.inj h2

theorem decimal_noDot {n : Nat} {ds : Bytes} (h : IsDecimal n ds) : 46 ∉ ds := by
  intro hc
  exact absurd (h.2.1 46 hc) (by decide)

theorem decimal_lowered {n : Nat} {ds : Bytes} (h : IsDecimal n ds) : ∀ c ∈ ds, toLower c = c ∧ nameChar c = true := by
  intro c hc
  have := h.2.1 c hc
  clear hc
  revert c; apply u8_all; decide +kernel

/-- Four decimal numbers with dots between them are a host exactly if they are bytes. -/
theorem webHost_dotted (idna : Bytes → Option Bytes) {a b c d : Nat} {s t u v : Bytes} (ha : IsDecimal a s) (hb : IsDecimal b t)
    (hc : IsDecimal c u) (hd : IsDecimal d v) :
    WebHost idna (s ++ 46 :: (t ++ 46 :: (u ++ 46 :: v))) ↔ a < 256 ∧ b < 256 ∧ c < 256 ∧ d < 256 := by
  have hL : Labels (s ++ 46 :: (t ++ 46 :: (u ++ 46 :: v))) [s, t, u, v] :=
    .more (decimal_noDot ha) (.more (decimal_noDot hb) (.more (decimal_noDot hc) (.one (decimal_noDot hd))))
  have hchars : ∀ x ∈ s ++ 46 :: (t ++ 46 :: (u ++ 46 :: v)), toLower x = x ∧ nameChar x = true := by
    refine labels_chars hL _ (by decide) ?_
    intro l hl
    simp only [List.mem_cons, List.not_mem_nil, or_false] at hl
    rcases hl with rfl | rfl | rfl | rfl
    · exact decimal_lowered ha
    · exact decimal_lowered hb
    · exact decimal_lowered hc
    · exact decimal_lowered hd
  generalize hw : s ++ 46 :: (t ++ 46 :: (u ++ 46 :: v)) = w at hL hchars
  have hlow : lowered w = w := by
    rw [← lower_eq]
    exact (List.map_congr_left fun x hx => (hchars x hx).1).trans (List.map_id' w)
  have hLo : LabelsOf w [s, t, u, v] := .inr ⟨hL, by simpa using hd.1⟩
  rw [webHost_name idna w (by rw [← hw]; simp) (fun x hx => (hchars x hx).2), hlow]
  · constructor
    · intro h
      obtain ⟨ls, ns, last, h1, h2, h3, h4, h5⟩ := h ⟨[s, t, u], v, hLo, .inl ⟨hd.1, hd.2.1⟩⟩
      have e := ((labelsOf_iff _ _).1 h1).trans ((labelsOf_iff _ _).1 hLo).symm
      subst e
      have hlen := h2.length_eq
      simp only [List.length_cons, List.length_nil, List.length_append] at hlen
      match ns, h2, h3, h4, h5, hlen with
      | [n1, n2, n3], h2, h3, h4, h5, _ =>
        cases h2 with
        | cons g1 h2 =>
        cases h2 with
        | cons g2 h2 =>
        cases h2 with
        | cons g3 h2 =>
        cases h2 with
        | cons g4 h2 =>
        have b1 := h4 n1 (by simp)
        have b2 := h4 n2 (by simp)
        have b3 := h4 n3 (by simp)
        have b4 : last < 256 := by simpa using h5
        rw [← ip4Number_unique g1 (by omega) (decimal_number ha), ← ip4Number_unique g2 (by omega) (decimal_number hb),
          ← ip4Number_unique g3 (by omega) (decimal_number hc), ← ip4Number_unique g4 (by omega) (decimal_number hd)]
        exact ⟨b1, b2, b3, b4⟩
    · rintro ⟨h1, h2, h3, h4⟩ -
      refine ⟨[s, t, u, v], [a, b, c], d, hLo, .cons (decimal_number ha) (.cons (decimal_number hb) (.cons (decimal_number hc)
        (.cons (decimal_number hd) .nil))), by simp, ?_, by simpa using h4⟩
      intro n hn
      simp only [List.mem_cons, List.not_mem_nil, or_false] at hn
      rcases hn with rfl | rfl | rfl <;> assumption
  · rw [hlow]
    intro ls hls l hl hx
    rw [labels_iff, ← (labels_iff _ _).1 hL] at hls
    subst hls
    have hmem : (120 : UInt8) ∈ l := hx.subset (by decide)
    have : (48 : UInt8) ≤ 120 ∧ (120 : UInt8) ≤ 57 := by
      simp only [List.mem_cons, List.not_mem_nil, or_false] at hl
      rcases hl with rfl | rfl | rfl | rfl
      · exact ha.2.1 _ hmem
      · exact hb.2.1 _ hmem
      · exact hc.2.1 _ hmem
      · exact hd.2.1 _ hmem
    exact absurd this (by decide)

theorem webHost_ip4 (idna : Bytes → Option Bytes) (s : Bytes) (h : Rfc3986.Ip4 s) : WebHost idna s ∧ s ≠ [] ∧ ∀ c ∈ s, nameChar c = true := by
  obtain ⟨a, b, c, d, e, h⟩ := h
  obtain ⟨n1, l1, h1⟩ := h a (by simp)
  obtain ⟨n2, l2, h2⟩ := h b (by simp)
  obtain ⟨n3, l3, h3⟩ := h c (by simp)
  obtain ⟨n4, l4, h4⟩ := h d (by simp)
  have e' : s = a ++ 46 :: (b ++ 46 :: (c ++ 46 :: d)) := by rw [e]; simp
  rw [e']
  refine ⟨(webHost_dotted idna h1 h2 h3 h4).2 ⟨by omega, by omega, by omega, by omega⟩, by simp, ?_⟩
  have k : ∀ {n x}, IsDecimal n x → ∀ c ∈ x, nameChar c = true := fun h c hc => (decimal_lowered h c hc).2
  intro x hx
  simp only [List.mem_append, List.mem_cons] at hx
  rcases hx with hx | rfl | hx | rfl | hx | rfl | hx
  · exact k h1 x hx
  · rfl
  · exact k h2 x hx
  · rfl
  · exact k h3 x hx
  · rfl
  · exact k h4 x hx

end Siwe.Host
