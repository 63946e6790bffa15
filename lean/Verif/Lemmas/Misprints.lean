import Verif.Lemmas.PrincipalText
import Mathlib.Data.List.Forall2
/- Two texts of principals that differ in one or two characters: the checksums cannot both be right. -/
namespace Siwe.PrincipalText
open Spec

/-! ### The checksum is linear -/

theorem crcBit_testBit (c i : Nat) : (crcBit c).testBit i = (c.testBit (i + 1) ^^ (c.testBit 0 && Nat.testBit 0xedb88320 i)) := by
  unfold crcBit
  split
  · next h => rw [Nat.testBit_xor, Nat.testBit_zero]; simp [h, Nat.testBit_succ]
  · next h => rw [Nat.testBit_zero]; simp [h, Nat.testBit_succ]

theorem crcBit_xor (a b : Nat) : crcBit (a ^^^ b) = crcBit a ^^^ crcBit b := by
  apply Nat.eq_of_testBit_eq
  intro i
  simp only [crcBit_testBit, Nat.testBit_xor]
  generalize Nat.testBit 0xedb88320 i = k, a.testBit (i + 1) = x, b.testBit (i + 1) = y, a.testBit 0 = u, b.testBit 0 = v
  revert k x y u v
  decide

theorem crcByte_xor (c d : Nat) (x y : UInt8) : crcByte (c ^^^ d) (x ^^^ y) = crcByte c x ^^^ crcByte d y := by
  have : c ^^^ d ^^^ (x.toNat ^^^ y.toNat) = (c ^^^ x.toNat) ^^^ (d ^^^ y.toNat) := by
    apply Nat.eq_of_testBit_eq
    intro i
    simp only [Nat.testBit_xor]
    generalize c.testBit i = a, d.testBit i = b, x.toNat.testBit i = e, y.toNat.testBit i = f
    revert a b e f
    decide
  simp only [crcByte, UInt8.toNat_xor, this, crcBit_xor]

/-- A zero byte. -/
def crcZero (c : Nat) : Nat := crcByte c 0

theorem crcZero_xor (c d : Nat) : crcZero (c ^^^ d) = crcZero c ^^^ crcZero d := crcByte_xor c d 0 0

theorem crcZero_zero : crcZero 0 = 0 := by decide +kernel

theorem crcFold_xor (p q : Bytes) (h : p.length = q.length) (c d : Nat) :
    (List.zipWith (· ^^^ ·) p q).foldl crcByte (c ^^^ d) = p.foldl crcByte c ^^^ q.foldl crcByte d := by
  induction p generalizing q c d with
  | nil => cases q with | nil => rfl | cons => simp at h
  | cons x p ih =>
    cases q with
    | nil => simp at h
    | cons y q =>
      rw [List.zipWith_cons_cons, List.foldl_cons, List.foldl_cons, List.foldl_cons, crcByte_xor]
      exact ih q (by simpa using h) _ _

/-- `crcZero`, a number of times. -/
def crcZeros : Nat → Nat → Nat
  | 0, c => c
  | n + 1, c => crcZero (crcZeros n c)

theorem crcZeros_succ (n c : Nat) : crcZeros n (crcZero c) = crcZeros (n + 1) c := by
  induction n with
  | zero => rfl
  | succ n ih => rw [crcZeros, ih]; rfl

theorem crcFold_from (p : Bytes) (c : Nat) : p.foldl crcByte c = crcZeros p.length c ^^^ p.foldl crcByte 0 := by
  induction p generalizing c with
  | nil => simp [crcZeros]
  | cons b p ih =>
    rw [List.foldl_cons, List.foldl_cons, ih (crcByte c b), ih (crcByte 0 b), List.length_cons]
    have : crcByte c b = crcZero c ^^^ crcByte 0 b := by
      have := crcByte_xor c 0 0 b
      simpa [crcZero] using this
    rw [this]
    have lin : ∀ n a b, crcZeros n (a ^^^ b) = crcZeros n a ^^^ crcZeros n b := by
      intro n a b
      induction n with
      | zero => rfl
      | succ n ih => rw [crcZeros, ih, crcZero_xor]; rfl
    rw [lin, crcZeros_succ, Nat.xor_assoc]

/-! ### Syndromes -/

/-- The sum of the weights at the places of the ones. -/
def weigh : List Bool → List Nat → Nat
  | b :: l, w :: ws => (if b then w else 0) ^^^ weigh l ws
  | _, _ => 0

theorem weigh_xor (l l' : List Bool) (h : l.length = l'.length) (ws : List Nat) :
    weigh (List.zipWith xor l l') ws = weigh l ws ^^^ weigh l' ws := by
  induction l generalizing l' ws with
  | nil => cases l' with | nil => simp [weigh] | cons => simp at h
  | cons b l ih =>
    cases l' with
    | nil => simp at h
    | cons b' l' =>
      cases ws with
      | nil => simp [weigh]
      | cons w ws =>
        rw [List.zipWith_cons_cons, weigh, weigh, weigh, ih l' (by simpa using h)]
        apply Nat.eq_of_testBit_eq
        intro i
        have h0 : ∀ b : Bool, (if b = true then w else 0).testBit i = (b && w.testBit i) := by intro b; cases b <;> simp
        simp only [Nat.testBit_xor, h0]
        generalize w.testBit i = x, (weigh l ws).testBit i = y, (weigh l' ws).testBit i = z
        clear h h0
        revert b b' x y z
        decide

theorem weigh_append (l l' : List Bool) (ws ws' : List Nat) (h : l.length = ws.length) :
    weigh (l ++ l') (ws ++ ws') = weigh l ws ^^^ weigh l' ws' := by
  induction l generalizing ws with
  | nil => cases ws with | nil => simp [weigh] | cons => simp at h
  | cons b l ih =>
    cases ws with
    | nil => simp at h
    | cons w ws => rw [List.cons_append, List.cons_append, weigh, weigh, ih ws (by simpa using h), Nat.xor_assoc]

theorem weigh_zero (l : List Bool) (ws : List Nat) : weigh l (ws.map crcZero) = crcZero (weigh l ws) := by
  induction l generalizing ws with
  | nil => simp [weigh, crcZero_zero]
  | cons b l ih =>
    cases ws with
    | nil => simp [weigh, crcZero_zero]
    | cons w ws =>
      rw [List.map_cons, weigh, weigh, ih, crcZero_xor]
      cases b <;> simp [crcZero_zero]

/-- The weights of the bits of a byte that `m` bytes follow. -/
def byteWeights : Nat → List Nat
  | 0 => [crcByte 0 128, crcByte 0 64, crcByte 0 32, crcByte 0 16, crcByte 0 8, crcByte 0 4, crcByte 0 2, crcByte 0 1]
  | m + 1 => (byteWeights m).map crcZero

theorem byteWeights_length (m : Nat) : (byteWeights m).length = 8 := by
  induction m with
  | zero => rfl
  | succ m ih => rw [byteWeights, List.length_map, ih]

theorem weigh_byte (b : UInt8) (m : Nat) : weigh (byteBits b) (byteWeights m) = crcZeros m (crcByte 0 b) := by
  induction m with
  | zero =>
    revert b
    apply u8_all
    decide +kernel
  | succ m ih => rw [byteWeights, weigh_zero, ih]; rfl

/-- The weights of the bits of `n` bytes. -/
def dataWeights : Nat → List Nat
  | 0 => []
  | n + 1 => byteWeights n ++ dataWeights n

theorem weigh_data (p : Bytes) : weigh (p.flatMap byteBits) (dataWeights p.length) = p.foldl crcByte 0 := by
  induction p with
  | nil => rfl
  | cons b p ih =>
    rw [List.flatMap_cons, List.length_cons, dataWeights, weigh_append _ _ _ _ (by rw [byteWeights_length]; rfl), weigh_byte, ih,
      List.foldl_cons, crcFold_from p (crcByte 0 b)]

/-- The weights of the checksum's bits. -/
def powers : Nat → List Nat
  | 0 => []
  | k + 1 => 2 ^ k :: powers k

theorem powers_length (k : Nat) : (powers k).length = k := by
  induction k with
  | zero => rfl
  | succ k ih => rw [powers, List.length_cons, ih]

theorem weigh_powers (k c : Nat) : weigh (highFirst k c) (powers k) = c % 2 ^ k := by
  induction k with
  | zero => simp [powers, weigh, highFirst, lowFirst, Nat.mod_one]
  | succ k ih =>
    have : highFirst (k + 1) c = c.testBit k :: highFirst k c := by simp [highFirst, lowFirst, List.range_succ]
    rw [this, powers, weigh, ih]
    apply Nat.eq_of_testBit_eq
    intro i
    rw [Nat.testBit_xor, Nat.testBit_mod_two_pow, Nat.testBit_mod_two_pow]
    by_cases hi : i = k
    · subst hi
      cases h : c.testBit i <;> simp [Nat.testBit_two_pow_self]
    · have h1 : (if c.testBit k = true then 2 ^ k else 0).testBit i = false := by
        cases c.testBit k
        · simp
        · simp [Nat.testBit_two_pow]; omega
      rw [h1]
      by_cases h2 : i < k
      · simp [h2, Nat.lt_succ_of_lt h2]
      · simp [h2, show ¬i < k + 1 by omega]

/-- The weights of the bits that the text of a principal of `n` bytes encodes. -/
def weights (n : Nat) : List Nat := powers 32 ++ dataWeights n

/-- The bits that a principal's text encodes. -/
def textOf (p : Bytes) : List Bool := (crcBytes p ++ p).flatMap byteBits

theorem weigh_text (p : Bytes) : weigh (textOf p) (weights p.length) = crc32 p ^^^ p.foldl crcByte 0 := by
  have h : (crcBytes p).flatMap byteBits = highFirst 32 (crc32 p) := bigEndian_bits _
  rw [textOf, weights, List.flatMap_append, h, weigh_append _ _ _ _ (by rw [highFirst_length, powers_length]), weigh_powers,
    Nat.mod_eq_of_lt (crc32_lt p), weigh_data]

theorem bits_length (l : Bytes) : (l.flatMap byteBits).length = 8 * l.length := by
  induction l with
  | nil => rfl
  | cons b l ih => rw [List.flatMap_cons, List.length_append, ih, List.length_cons]; simp [byteBits]; omega

theorem textOf_length (p : Bytes) : (textOf p).length = 32 + 8 * p.length := by
  rw [textOf, bits_length, List.length_append]
  show 8 * (4 + _) = _
  omega

theorem weights_length (n : Nat) : (weights n).length = 32 + 8 * n := by
  rw [weights, List.length_append, powers_length]
  congr 1
  induction n with
  | zero => rfl
  | succ n ih => rw [dataWeights, List.length_append, ih, byteWeights_length]; omega

theorem weigh_difference (p q : Bytes) (h : p.length = q.length) :
    weigh (List.zipWith xor (textOf p) (textOf q)) (weights p.length) = 0 := by
  rw [weigh_xor _ _ (by rw [textOf_length, textOf_length, h]), weigh_text, h, weigh_text]
  have e1 := crcFold_from p 0xffffffff
  have e2 := crcFold_from q 0xffffffff
  rw [h] at e1
  unfold crc32
  rw [e1, e2]
  apply Nat.eq_of_testBit_eq
  intro i
  simp only [Nat.testBit_xor, Nat.zero_testBit]
  generalize (crcZeros q.length 4294967295).testBit i = x, (List.foldl crcByte 0 p).testBit i = y,
    (List.foldl crcByte 0 q).testBit i = z, Nat.testBit 4294967295 i = w
  revert x y z w
  decide

/-! ### One or two digits -/

/-- Groups of five, the last one shorter. -/
def fives {α : Type} : List α → List (List α)
  | [] => []
  | [a] => [[a]]
  | [a, b] => [[a, b]]
  | [a, b, c] => [[a, b, c]]
  | [a, b, c, d] => [[a, b, c, d]]
  | a :: b :: c :: d :: e :: l => [a, b, c, d, e] :: fives l

/-- The number of groups with a one. -/
def busy : List (List Bool) → Nat
  | [] => 0
  | g :: gs => (if g.any id then 1 else 0) + busy gs

/-- The sums of weights of a group. -/
def sums : List Nat → List Nat
  | [] => []
  | w :: ws => w :: (sums ws).map (w ^^^ ·) ++ sums ws

theorem weigh_idle (l : List Bool) (ws : List Nat) (h : l.any id = false) : weigh l ws = 0 := by
  induction l generalizing ws with
  | nil => rfl
  | cons b l ih =>
    cases ws with
    | nil => rfl
    | cons w ws =>
      simp only [List.any_cons, Bool.or_eq_false_iff, id] at h
      rw [weigh, ih ws h.2, h.1]; simp

theorem weigh_mem (l : List Bool) (ws : List Nat) (hl : l.length = ws.length) (h : l.any id = true) : weigh l ws ∈ sums ws := by
  induction l generalizing ws with
  | nil => simp at h
  | cons b l ih =>
    cases ws with
    | nil => simp at hl
    | cons w ws =>
      have hl' : l.length = ws.length := by simpa using hl
      rw [weigh, sums]
      by_cases hn : l.any id = true
      · have := ih ws hl' hn
        cases b
        · simp [this]
        · simp only [if_true, List.cons_append, List.mem_cons, List.mem_append, List.mem_map]
          exact .inr (.inl ⟨_, this, rfl⟩)
      · rw [weigh_idle l ws (by simpa using hn)]
        cases b
        · simp [hn] at h
        · simp

/-- Two lists of groups have the same lengths. -/
def SameShape : List (List Bool) → List (List Nat) → Prop
  | [], [] => True
  | g :: gs, w :: ws => g.length = w.length ∧ SameShape gs ws
  | _, _ => False

/-- The sum over all groups. -/
def total : List (List Bool) → List (List Nat) → Nat
  | g :: gs, w :: ws => weigh g w ^^^ total gs ws
  | _, _ => 0

theorem total_idle (gs : List (List Bool)) (ws : List (List Nat)) (h : busy gs = 0) : total gs ws = 0 := by
  induction gs generalizing ws with
  | nil => rfl
  | cons g gs ih =>
    cases ws with
    | nil => rfl
    | cons w ws =>
      rw [busy] at h
      rw [total, ih ws (by omega), weigh_idle]
      · rfl
      · by_contra hg
        simp at hg
        simp [hg] at h

theorem total_one (gs : List (List Bool)) (ws : List (List Nat)) (hs : SameShape gs ws) (h : busy gs = 1) :
    total gs ws ∈ ws.flatMap sums := by
  induction gs generalizing ws with
  | nil => simp [busy] at h
  | cons g gs ih =>
    cases ws with
    | nil => exact hs.elim
    | cons w ws =>
      rw [busy] at h
      rw [total, List.flatMap_cons, List.mem_append]
      cases hg : g.any id
      · rw [weigh_idle g w hg]
        right
        simpa using ih ws hs.2 (by simpa [hg] using h)
      · left
        rw [total_idle gs ws (by simpa [hg] using h)]
        simpa using weigh_mem g w hs.1 hg

theorem total_two (gs : List (List Bool)) (ws : List (List Nat)) (hs : SameShape gs ws) (hn : (0 :: ws.flatMap sums).Nodup)
    (h : busy gs ≤ 2) (h0 : total gs ws = 0) : busy gs = 0 := by
  induction gs generalizing ws with
  | nil => rfl
  | cons g gs ih =>
    cases ws with
    | nil => exact hs.elim
    | cons w ws =>
      rw [List.flatMap_cons] at hn
      rw [List.nodup_cons, List.mem_append, List.nodup_append] at hn
      obtain ⟨hn0, _, hn2, hn3⟩ := hn
      rw [busy] at h ⊢
      rw [total] at h0
      cases hg : g.any id
      · rw [weigh_idle g w hg, Nat.zero_xor] at h0
        simp only [hg] at h
        simpa using ih ws hs.2 (List.nodup_cons.mpr ⟨fun h => hn0 (.inr h), hn2⟩) (by simpa using h) h0
      · exfalso
        have hm := weigh_mem g w hs.1 hg
        simp only [hg, if_true] at h
        have heq : weigh g w = total gs ws := by
          apply Nat.eq_of_testBit_eq
          intro i
          have := congrArg (fun n => n.testBit i) h0
          simpa [Nat.testBit_xor] using this
        rcases Nat.lt_or_ge (busy gs) 1 with hb | hb
        · rw [total_idle gs ws (by omega)] at heq
          exact hn0 (.inl (heq ▸ hm))
        · have := total_one gs ws hs.2 (by omega)
          exact hn3 _ hm _ this heq

theorem sameShape_fives (l : List Bool) (ws : List Nat) (h : l.length = ws.length) : SameShape (fives l) (fives ws) := by
  induction l using fives.induct generalizing ws with
  | case1 => cases ws with | nil => trivial | cons => simp at h
  | case2 => match ws, h with | [_], _ => exact ⟨rfl, trivial⟩
  | case3 => match ws, h with | [_, _], _ => exact ⟨rfl, trivial⟩
  | case4 => match ws, h with | [_, _, _], _ => exact ⟨rfl, trivial⟩
  | case5 => match ws, h with | [_, _, _, _], _ => exact ⟨rfl, trivial⟩
  | case6 a b c d e l ih =>
    match ws, h with
    | _ :: _ :: _ :: _ :: _ :: ws, h => exact ⟨rfl, ih ws (by simpa using h)⟩

theorem total_fives (l : List Bool) (ws : List Nat) (h : l.length = ws.length) : total (fives l) (fives ws) = weigh l ws := by
  induction l using fives.induct generalizing ws with
  | case1 => cases ws with | nil => rfl | cons => simp at h
  | case2 => match ws, h with | [_], _ => simp [fives, total, weigh]
  | case3 => match ws, h with | [_, _], _ => simp [fives, total, weigh]
  | case4 => match ws, h with | [_, _, _], _ => simp [fives, total, weigh]
  | case5 => match ws, h with | [_, _, _, _], _ => simp [fives, total, weigh]
  | case6 a b c d e l ih =>
    match ws, h with
    | v :: w :: x :: y :: z :: ws, h =>
      rw [fives, fives, total, ih ws (by simpa using h)]
      exact (weigh_append [a, b, c, d, e] l [v, w, x, y, z] ws rfl).symm

/-- The numbers below `2^k` of the list are different. -/
def distinct : Nat → List Nat → Bool
  | _, [] => true
  | _, [_] => true
  | 0, _ => false
  | k + 1, l => distinct k (l.filter fun n => n.testBit k) && distinct k (l.filter fun n => !n.testBit k)

theorem distinct_nodup (k : Nat) (l : List Nat) (h : distinct k l = true) : l.Nodup := by
  induction k generalizing l with
  | zero =>
    match l, h with
    | [], _ => simp
    | [_], _ => simp
  | succ k ih =>
    match l, h with
    | [], _ => simp
    | [_], _ => simp
    | a :: b :: l, h =>
      rw [distinct.eq_4 _ _ (by simp) (by simp), Bool.and_eq_true] at h
      have p := List.filter_append_perm (fun n : Nat => n.testBit k) (a :: b :: l)
      refine p.nodup_iff.mp (List.nodup_append.mpr ⟨ih _ h.1, ih _ h.2, ?_⟩)
      rintro x hx _ hy rfl
      have h1 := (List.mem_filter.mp hx).2
      have h2 := (List.mem_filter.mp hy).2
      simp [h1] at h2

set_option maxRecDepth 100000 in
/-- For every length of a principal: no sum of weights of a group of five is zero, or that of another group. -/
theorem syndromes_distinct : ∀ n < 30, distinct 32 (0 :: (fives (weights n)).flatMap sums) = true := by decide +kernel

/-! ### The texts -/

/-- The number of positions at which two texts differ. -/
def differences (t u : Bytes) : Nat := ((t.zip u).filter fun x => decide (x.1 ≠ x.2)).length

theorem differences_cons (a b : UInt8) (t u : Bytes) :
    differences (a :: t) (b :: u) = (if a = b then 0 else 1) + differences t u := by
  unfold differences
  by_cases h : a = b
  · simp [h]
  · simp [h]; omega

theorem differences_append (a b t u : Bytes) (h : a.length = b.length) :
    differences (a ++ t) (b ++ u) = differences a b + differences t u := by
  unfold differences
  rw [List.zip_append h, List.filter_append, List.length_append]

theorem dashed_length (s : Bytes) (hs : s ≠ []) : (dashed s).length = s.length + (s.length - 1) / 5 := by
  induction hn : s.length using Nat.strongRecOn generalizing s with
  | ind n ih =>
    rw [dashed_eq]
    have := List.length_pos_iff.mpr hs
    split
    · omega
    · have := ih (s.drop 5).length (by simp; omega) _ (fun h' => by have := congrArg List.length h'; simp at this; omega) rfl
      rw [List.length_append, List.length_cons, this]
      simp
      omega

theorem differences_dashed (s u : Bytes) (h : s.length = u.length) : differences (dashed s) (dashed u) = differences s u := by
  induction hn : s.length using Nat.strongRecOn generalizing s u with
  | ind n ih =>
    rw [dashed_eq s, dashed_eq u, ← h]
    split
    · rfl
    · rw [differences_append _ _ _ _ (by simp; omega), differences_cons,
        ih (s.drop 5).length (by simp; omega) _ _ (by simp; omega) rfl]
      conv_rhs => rw [← List.take_append_drop 5 s, ← List.take_append_drop 5 u, differences_append _ _ _ _ (by simp; omega)]
      simp

theorem digit_misprint : ∀ a b c d e a' b' c' d' e' : Bool,
    toLower (digit (bitsNat [a, b, c, d, e])) = toLower (digit (bitsNat [a', b', c', d', e'])) →
    ([a ^^ a', b ^^ b', c ^^ c', d ^^ d', e ^^ e'].any id) = false := by decide +kernel

theorem busy_differences (l l' : List Bool) (h : l.length = l'.length) :
    busy (fives (List.zipWith xor l l')) ≤ differences ((encodeBits l).map toLower) ((encodeBits l').map toLower) := by
  have one : ∀ a b c d e a' b' c' d' e' : Bool, ∀ x : List Bool, x.any id = [a ^^ a', b ^^ b', c ^^ c', d ^^ d', e ^^ e'].any id →
      (if x.any id = true then 1 else 0) ≤
        if toLower (digit (bitsNat [a, b, c, d, e])) = toLower (digit (bitsNat [a', b', c', d', e'])) then 0 else 1 := by
    intro a b c d e a' b' c' d' e' x hx
    rw [hx]
    split
    · split
      · next h1 h2 => rw [digit_misprint _ _ _ _ _ _ _ _ _ _ h2] at h1; simp at h1
      · exact Nat.le_refl _
    · omega
  induction l using encodeBits.induct generalizing l' with
  | case1 => cases l' with | nil => simp [fives, busy] | cons => simp at h
  | case2 a =>
    match l', h with
    | [a'], _ =>
      simp only [encodeBits, List.map_cons, List.map_nil, differences_cons, List.zipWith_cons_cons, List.zipWith_nil_left, fives, busy]
      have := one a false false false false a' false false false false [a ^^ a'] (by simp)
      omega
  | case3 a b =>
    match l', h with
    | [a', b'], _ =>
      simp only [encodeBits, List.map_cons, List.map_nil, differences_cons, List.zipWith_cons_cons, List.zipWith_nil_left, fives, busy]
      have := one a b false false false a' b' false false false [a ^^ a', b ^^ b'] (by simp)
      omega
  | case4 a b c =>
    match l', h with
    | [a', b', c'], _ =>
      simp only [encodeBits, List.map_cons, List.map_nil, differences_cons, List.zipWith_cons_cons, List.zipWith_nil_left, fives, busy]
      have := one a b c false false a' b' c' false false [a ^^ a', b ^^ b', c ^^ c'] (by simp)
      omega
  | case5 a b c d =>
    match l', h with
    | [a', b', c', d'], _ =>
      simp only [encodeBits, List.map_cons, List.map_nil, differences_cons, List.zipWith_cons_cons, List.zipWith_nil_left, fives, busy]
      have := one a b c d false a' b' c' d' false [a ^^ a', b ^^ b', c ^^ c', d ^^ d'] (by simp)
      omega
  | case6 a b c d e l ih =>
    match l', h with
    | a' :: b' :: c' :: d' :: e' :: l', h =>
      simp only [encodeBits, List.map_cons, differences_cons, List.zipWith_cons_cons, fives, busy]
      have := one a b c d e a' b' c' d' e' [a ^^ a', b ^^ b', c ^^ c', d ^^ d', e ^^ e'] rfl
      have := ih l' (by simpa using h)
      omega

theorem busy_zero (l l' : List Bool) (h : l.length = l'.length) (hb : busy (fives (List.zipWith xor l l')) = 0) : l = l' := by
  have key : ∀ x : List Bool, busy (fives x) = 0 → x.any id = false := by
    intro x
    induction x using fives.induct with
    | case1 => simp
    | case2 | case3 | case4 | case5 => simp [fives, busy]
    | case6 a b c d e l ih =>
      intro hx
      rw [fives, busy] at hx
      have h1 := ih (by omega)
      have h2 : [a, b, c, d, e].any id = false := by
        by_contra hc
        simp only [Bool.not_eq_false] at hc
        simp [hc] at hx
      rw [show a :: b :: c :: d :: e :: l = [a, b, c, d, e] ++ l by rfl, List.any_append, h1, h2]
      rfl
  have hk := key _ hb
  clear hb key
  induction l generalizing l' with
  | nil => cases l' with | nil => rfl | cons => simp at h
  | cons b l ih =>
    cases l' with
    | nil => simp at h
    | cons b' l' =>
      rw [List.zipWith_cons_cons, List.any_cons, Bool.or_eq_false_iff] at hk
      rw [ih l' (by simpa using h) hk.2]
      have : b = b' := by simpa using hk.1
      rw [this]

theorem encodeBits_length (l : List Bool) : (encodeBits l).length = (l.length + 4) / 5 := by
  induction l using encodeBits.induct with
  | case1 => rfl
  | case2 | case3 | case4 | case5 => simp [encodeBits]
  | case6 a b c d e l ih => simp only [encodeBits, List.length_cons, ih]; omega

theorem toText_length (p : Bytes) : (toText p).length = (36 + 8 * p.length) / 5 + ((36 + 8 * p.length) / 5 - 1) / 5 := by
  rw [toText, dashed_length _ (encode_ne_nil p), List.length_map, encode, encodeBits_length]
  show ((textOf p).length + 4) / 5 + _ = _
  have : ((crcBytes p ++ p).flatMap byteBits).length = 32 + 8 * p.length := textOf_length p
  rw [textOf_length, this]
  have : 32 + 8 * p.length + 4 = 36 + 8 * p.length := by omega
  rw [this]

/-- The texts of two principals of the same length differ in at least three places. -/
theorem differences_detected (p q : Bytes) (hp : p.length ≤ 29) (hl : (toText p).length = (toText q).length)
    (hm : differences (toText p) (toText q) ≤ 2) : p = q := by
  have hpq : p.length = q.length := by
    rw [toText_length, toText_length] at hl
    omega
  have hlen : (textOf p).length = (textOf q).length := by rw [textOf_length, textOf_length, hpq]
  have hb : busy (fives (List.zipWith xor (textOf p) (textOf q))) ≤ 2 := by
    refine Nat.le_trans (busy_differences _ _ hlen) ?_
    rw [toText, toText, differences_dashed _ _ (by simp only [List.length_map, encode, encodeBits_length]; rw [show
      ((crcBytes p ++ p).flatMap byteBits).length = _ from hlen]; rfl)] at hm
    exact hm
  have hz : (List.zipWith xor (textOf p) (textOf q)).length = (weights p.length).length := by
    rw [List.length_zipWith, ← hlen, Nat.min_self, textOf_length, weights_length]
  have h0 := weigh_difference p q hpq
  rw [← total_fives _ _ hz] at h0
  have := total_two _ _ (sameShape_fives _ _ hz) (distinct_nodup 32 _ (syndromes_distinct p.length (by omega))) hb h0
  have := bytesBits_inj _ _ (busy_zero _ _ hlen this)
  exact (List.append_inj this rfl).2

theorem differences_self (t : Bytes) : differences t t = 0 := by
  induction t with
  | nil => rfl
  | cons c t ih => rw [differences_cons, ih]; simp

/-! ### Either case -/

theorem isLetterOf_lower : ∀ c, IsLetterOf c (toLower c) := by
  apply u8_all
  decide +kernel

theorem isLetterOf_iff (c d : UInt8) (hd : toLower d = d) : IsLetterOf c d ↔ toLower c = d := by
  constructor
  · rintro (rfl | ⟨h1, h2, h3⟩)
    · exact hd
    · have : ∀ c : UInt8, 97 ≤ c.toNat + 32 → c.toNat + 32 ≤ 122 → (toLower c).toNat = c.toNat + 32 := by
        apply u8_all
        decide +kernel
      exact UInt8.toNat_inj.mp ((this c (by omega) (by omega)).trans h3)
  · rintro rfl
    exact isLetterOf_lower c

theorem toText_lower (p : Bytes) : ∀ c ∈ toText p, toLower c = c := by
  have h1 : ∀ c : UInt8, toLower (toLower c) = toLower c := by
    apply u8_all
    decide +kernel
  have h2 : ∀ s : Bytes, ∀ c ∈ dashed s, c = 45 ∨ c ∈ s := by
    intro s
    induction hn : s.length using Nat.strongRecOn generalizing s with
    | ind n ih =>
      intro c hc
      rw [dashed_eq] at hc
      split at hc
      · exact .inr hc
      · rcases List.mem_append.mp hc with hc | hc
        · exact .inr (List.mem_of_mem_take hc)
        · rcases List.mem_cons.mp hc with rfl | hc
          · exact .inl rfl
          · rcases ih (s.drop 5).length (by simp; omega) _ rfl c hc with h | h
            · exact .inl h
            · exact .inr (List.mem_of_mem_drop h)
  intro c hc
  rcases h2 _ c hc with rfl | h
  · rfl
  · obtain ⟨x, _, rfl⟩ := List.mem_map.mp h
    exact h1 x

theorem inAnyCase_iff (t u : Bytes) (hu : ∀ c ∈ u, toLower c = c) : InAnyCase t u ↔ t.map toLower = u := by
  unfold InAnyCase
  induction u generalizing t with
  | nil => simp
  | cons d u ih =>
    cases t with
    | nil => simp
    | cons c t =>
      rw [List.forall₂_cons, isLetterOf_iff c d (hu d (by simp)), ih t fun c hc => hu c (by simp [hc])]
      simp

theorem misprints_eq (t u : Bytes) (hu : ∀ c ∈ u, toLower c = c) : misprints t u = differences (t.map toLower) u := by
  unfold misprints
  induction u generalizing t with
  | nil => simp [differences]
  | cons d u ih =>
    cases t with
    | nil => simp [differences]
    | cons c t =>
      have h := ih t fun c hc => hu c (by simp [hc])
      have hd := isLetterOf_iff c d (hu d (by simp))
      rw [List.map_cons, differences_cons, ← h, List.zip_cons_cons, List.filter_cons]
      by_cases hc : toLower c = d
      · simp [hd, hc]
      · simp [hd, hc]; omega

/-- `Principal::from_text` reads exactly the texts of principals, in any case. -/
theorem fromText_names (t p : Bytes) : fromText t = some p ↔ Names t p := by
  rw [fromText_iff]
  unfold Names
  simp only [isPrincipalText_iff]
  constructor
  · rintro ⟨hp, ht⟩
    exact ⟨_, ⟨hp, rfl⟩, (inAnyCase_iff _ _ (toText_lower p)).2 ht⟩
  · rintro ⟨_, ⟨hp, rfl⟩, ht⟩
    exact ⟨hp, (inAnyCase_iff _ _ (toText_lower p)).1 ht⟩

end Siwe.PrincipalText
