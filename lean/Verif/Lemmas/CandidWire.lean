import Verif.Spec.CandidWire
import Verif.Lemmas.Candid
import Verif.Lemmas.Utf8
import Mathlib.Data.List.Forall2
import Mathlib.Data.List.Perm.Subperm
/- Helper lemmas for C107: the reader computes the Candid specification's format. -/
namespace Siwe.Candid.Wire
open Spec

/-- The reader takes exactly the representations of `R` off the front. -/
def Parses {α : Type} (f : Bytes → Option (α × Bytes)) (R : α → Bytes → Prop) : Prop :=
  ∀ bs a rest, f bs = some (a, rest) ↔ ∃ b, bs = b ++ rest ∧ R a b

/-! ### numbers -/

/-- Bytes of a LEB128 number. -/
def LebShape (l : Bytes) : Prop := ∃ init last, l = init ++ [last] ∧ (∀ b ∈ init, 128 ≤ UInt8.toNat b) ∧ UInt8.toNat last < 128

theorem lebShape_nil : ¬LebShape [] := by
  rintro ⟨i, x, h, _⟩
  cases i <;> cases h

theorem lebShape_cons (b : UInt8) (l : Bytes) : LebShape (b :: l) ↔ (b.toNat < 128 ∧ l = []) ∨ (128 ≤ b.toNat ∧ LebShape l) := by
  constructor
  · rintro ⟨i, x, h, h1, h2⟩
    cases i with
    | nil => cases h; exact .inl ⟨h2, rfl⟩
    | cons y i =>
      simp only [List.cons_append, List.cons.injEq] at h
      obtain ⟨rfl, rfl⟩ := h
      exact .inr ⟨h1 b (by simp), i, x, rfl, fun c hc => h1 c (by simp [hc]), h2⟩
  · rintro (⟨h, rfl⟩ | ⟨h, i, x, rfl, h1, h2⟩)
    · exact ⟨[], b, rfl, (fun _ h => nomatch h), h⟩
    · refine ⟨b :: i, x, rfl, fun c hc => ?_, h2⟩
      rcases List.mem_cons.1 hc with rfl | hc
      · exact h
      · exact h1 c hc

theorem splitLeb_iff : ∀ (n : Nat) (bs l rest : Bytes),
    splitLeb n bs = some (l, rest) ↔ bs = l ++ rest ∧ l.length ≤ n ∧ LebShape l
  | 0, bs, l, rest => by
    simp only [splitLeb, reduceCtorEq, false_iff]
    rintro ⟨_, h, hs⟩
    have : l = [] := List.length_eq_zero_iff.1 (by omega)
    exact lebShape_nil (this ▸ hs)
  | n + 1, [], l, rest => by
    simp only [splitLeb, reduceCtorEq, false_iff]
    rintro ⟨h, _, hs⟩
    have : l = [] := by cases l <;> simp_all
    exact lebShape_nil (this ▸ hs)
  | n + 1, b :: bs, l, rest => by
    have hb : b < 128 ↔ b.toNat < 128 := UInt8.lt_iff_toNat_lt
    rw [splitLeb]
    by_cases h : b.toNat < 128
    · rw [if_pos (hb.2 h)]
      simp only [Option.some.injEq, Prod.mk.injEq]
      constructor
      · rintro ⟨rfl, rfl⟩
        exact ⟨rfl, by simp, (lebShape_cons _ _).2 (.inl ⟨h, rfl⟩)⟩
      · rintro ⟨h1, h2, h3⟩
        cases l with
        | nil => exact absurd h3 lebShape_nil
        | cons c l =>
          simp only [List.cons_append, List.cons.injEq] at h1
          obtain ⟨rfl, rfl⟩ := h1
          rcases (lebShape_cons _ _).1 h3 with ⟨_, rfl⟩ | ⟨h4, _⟩
          · exact ⟨rfl, rfl⟩
          · omega
    · rw [if_neg (fun h' => h (hb.1 h'))]
      have ih := splitLeb_iff n bs
      constructor
      · cases hs : splitLeb n bs with
        | none => exact (nomatch ·)
        | some p =>
          obtain ⟨l', r'⟩ := p
          simp only [Option.some.injEq, Prod.mk.injEq]
          rintro ⟨rfl, rfl⟩
          obtain ⟨h1, h2, h3⟩ := (ih _ _).1 hs
          exact ⟨by rw [h1]; rfl, by simp; exact h2, (lebShape_cons _ _).2 (.inr ⟨by omega, h3⟩)⟩
      · rintro ⟨h1, h2, h3⟩
        cases l with
        | nil => exact absurd h3 lebShape_nil
        | cons c l =>
          simp only [List.cons_append, List.cons.injEq] at h1
          obtain ⟨rfl, rfl⟩ := h1
          rcases (lebShape_cons _ _).1 h3 with ⟨h4, _⟩ | ⟨_, h4⟩
          · omega
          · rw [(ih l rest).2 ⟨rfl, by simpa using h2, h4⟩]

theorem lebNumber_eq : ∀ l, lebNumber l = lebValue l
  | [] => rfl
  | b :: l => by rw [lebNumber, lebValue, lebNumber_eq l]

theorem isLeb_iff (n : Nat) (l : Bytes) : IsLeb128 n l ↔ LebShape l ∧ lebNumber l = n := by
  rw [lebNumber_eq]
  constructor
  · rintro ⟨i, x, h1, h2, h3, h4⟩; exact ⟨⟨i, x, h1, h2, h3⟩, h4⟩
  · rintro ⟨⟨i, x, h1, h2, h3⟩, h4⟩; exact ⟨i, x, h1, h2, h3, h4⟩

theorem parses_leb : Parses readLeb Leb64 := by
  intro bs n rest
  rw [readLeb]
  constructor
  · cases h : splitLeb 10 bs with
    | none => exact (nomatch ·)
    | some p =>
      obtain ⟨l, r⟩ := p
      obtain ⟨h1, h2, h3⟩ := (splitLeb_iff _ _ _ _).1 h
      simp only
      split
      · next hn =>
        simp only [Option.some.injEq, Prod.mk.injEq]
        rintro ⟨rfl, rfl⟩
        exact ⟨l, h1, (isLeb_iff _ _).2 ⟨h3, rfl⟩, h2, hn⟩
      · exact (nomatch ·)
  · rintro ⟨l, h1, h2, h3, h4⟩
    obtain ⟨h5, h6⟩ := (isLeb_iff _ _).1 h2
    rw [(splitLeb_iff 10 bs l rest).2 ⟨h1, h3, h5⟩]
    simp only [h6, h4, if_true]

theorem parses_nat : Parses readNat IsLeb128 := by
  intro bs n rest
  rw [readNat]
  constructor
  · cases h : splitLeb bs.length bs with
    | none => exact (nomatch ·)
    | some p =>
      obtain ⟨l, r⟩ := p
      obtain ⟨h1, h2, h3⟩ := (splitLeb_iff _ _ _ _).1 h
      simp only [Option.some.injEq, Prod.mk.injEq]
      rintro ⟨rfl, rfl⟩
      exact ⟨l, h1, (isLeb_iff _ _).2 ⟨h3, rfl⟩⟩
  · rintro ⟨l, h1, h2⟩
    obtain ⟨h5, h6⟩ := (isLeb_iff _ _).1 h2
    rw [(splitLeb_iff bs.length bs l rest).2 ⟨h1, by rw [h1]; simp, h5⟩]
    simp only [h6]

theorem isSleb_iff (i : Int) (l : Bytes) : IsSleb128 i l ↔ LebShape l ∧ slebNumber l = i := by
  have key : ∀ init last, l = init ++ [last] → UInt8.toNat last < 128 →
      slebNumber l = lebValue l - (if 64 ≤ UInt8.toNat last then 2 ^ (7 * List.length l) else 0) := by
    intro init last h h'
    have hm : UInt8.toNat last % 128 = UInt8.toNat last := Nat.mod_eq_of_lt h'
    rw [slebNumber, lebNumber_eq]
    rw [show l.getLast? = some last by rw [h]; simp]
    simp only [Option.any_some, hm, decide_eq_true_eq]
    split <;> simp
  constructor
  · rintro ⟨i', x, h1, h2, h3, h4⟩; exact ⟨⟨i', x, h1, h2, h3⟩, (key i' x h1 h3).trans h4.symm⟩
  · rintro ⟨⟨i', x, h1, h2, h3⟩, h4⟩; exact ⟨i', x, h1, h2, h3, h4.symm.trans (key i' x h1 h3)⟩

theorem parses_sleb : Parses readSleb Sleb64 := by
  intro bs n rest
  rw [readSleb]
  constructor
  · cases h : splitLeb 10 bs with
    | none => exact (nomatch ·)
    | some p =>
      obtain ⟨l, r⟩ := p
      obtain ⟨h1, h2, h3⟩ := (splitLeb_iff _ _ _ _).1 h
      simp only
      split
      · next hn =>
        simp only [Option.some.injEq, Prod.mk.injEq]
        rintro ⟨rfl, rfl⟩
        exact ⟨l, h1, (isSleb_iff _ _).2 ⟨h3, rfl⟩, h2, hn⟩
      · exact (nomatch ·)
  · rintro ⟨l, h1, h2, h3, h4⟩
    obtain ⟨h5, h6⟩ := (isSleb_iff _ _).1 h2
    rw [(splitLeb_iff 10 bs l rest).2 ⟨h1, h3, h5⟩]
    simp only [h6]
    rw [if_pos h4]

theorem takeBytes_iff (n : Nat) (bs b rest : Bytes) : takeBytes n bs = some (b, rest) ↔ bs = b ++ rest ∧ b.length = n := by
  rw [takeBytes]
  constructor
  · split
    · next h =>
      simp only [Option.some.injEq, Prod.mk.injEq]
      rintro ⟨rfl, rfl⟩
      exact ⟨by simp, by simp [h]⟩
    · exact (nomatch ·)
  · rintro ⟨rfl, rfl⟩
    simp

/-! ### lists -/

theorem many_iff {α : Type} {f : Bytes → Option (α × Bytes)} {R : α → Bytes → Prop} (h : Parses f R) :
    ∀ (n : Nat) (bs : Bytes) (as : List α) (rest : Bytes),
      readMany f n bs = some (as, rest) ↔ as.length = n ∧ ∃ b, bs = b ++ rest ∧ Each R as b
  | 0, bs, as, rest => by
    simp only [readMany, Option.some.injEq, Prod.mk.injEq]
    constructor
    · rintro ⟨rfl, rfl⟩; exact ⟨rfl, [], rfl, .nil⟩
    · rintro ⟨h1, b, rfl, h2⟩
      cases h2 with
      | nil => exact ⟨rfl, rfl⟩
      | cons => simp at h1
  | n + 1, bs, as, rest => by
    have ih := many_iff h n
    rw [readMany]
    constructor
    · cases h1 : f bs with
      | none => exact (nomatch ·)
      | some p =>
        obtain ⟨a, bs'⟩ := p
        simp only
        cases h2 : readMany f n bs' with
        | none => exact (nomatch ·)
        | some q =>
          obtain ⟨as', bs''⟩ := q
          simp only [Option.some.injEq, Prod.mk.injEq]
          rintro ⟨rfl, rfl⟩
          obtain ⟨b, rfl, hb⟩ := (h _ _ _).1 h1
          obtain ⟨h3, b', rfl, hb'⟩ := (ih _ _ _).1 h2
          exact ⟨by simp [h3], b ++ b', by simp, .cons hb hb'⟩
    · rintro ⟨h1, b, rfl, h2⟩
      cases h2 with
      | nil => simp at h1
      | @cons a as b b' hb hb' =>
        rw [(h (b ++ b' ++ rest) a (b' ++ rest)).2 ⟨b, by simp, hb⟩]
        simp only
        rw [(ih (b' ++ rest) as rest).2 ⟨by simpa using h1, b', rfl, hb'⟩]

/-- A list with its length before it. -/
def ListBytes {α : Type} (R : α → Bytes → Prop) (as : List α) (bs : Bytes) : Prop :=
  ∃ l b, bs = l ++ b ∧ Leb64 as.length l ∧ Each R as b

theorem parses_list {α : Type} {f : Bytes → Option (α × Bytes)} {R : α → Bytes → Prop} (h : Parses f R) :
    Parses (readList f) (ListBytes R) := by
  intro bs as rest
  rw [readList]
  constructor
  · cases h1 : readLeb bs with
    | none => exact (nomatch ·)
    | some p =>
      obtain ⟨n, bs'⟩ := p
      simp only
      intro h2
      obtain ⟨l, rfl, hl⟩ := (parses_leb _ _ _).1 h1
      obtain ⟨rfl, b, rfl, hb⟩ := (many_iff h _ _ _ _).1 h2
      exact ⟨l ++ b, by simp, l, b, rfl, hl, hb⟩
  · rintro ⟨_, rfl, l, b, rfl, hl, hb⟩
    rw [(parses_leb (l ++ b ++ rest) as.length (b ++ rest)).2 ⟨l, by simp, hl⟩]
    simp only
    exact (many_iff h _ _ _ _).2 ⟨rfl, b, rfl, hb⟩

/-! ### types -/

theorem primOf_iff (n : Nat) (p : Prim) : primOf n = some p ↔ PrimCode p (-n) := by
  constructor
  · intro h
    unfold primOf at h
    split at h <;> cases h
    · exact .null
    · exact .nat
    · exact .nat8
    · exact .nat32
    · exact .nat64
    · exact .text
    · exact .principal
    all_goals exact .other _ (by decide)
  · intro h
    generalize hi : (-(n : Int)) = i at h
    cases h with
    | other c hc =>
      have : n = c := by omega
      subst this
      simp only [List.mem_cons, List.not_mem_nil, or_false] at hc
      rcases hc with rfl | rfl | rfl | rfl | rfl | rfl | rfl | rfl | rfl | rfl | rfl <;> rfl
    | null => have : n = 1 := by omega
              subst this; rfl
    | nat => have : n = 3 := by omega
             subst this; rfl
    | nat8 => have : n = 5 := by omega
              subst this; rfl
    | nat32 => have : n = 7 := by omega
               subst this; rfl
    | nat64 => have : n = 8 := by omega
               subst this; rfl
    | text => have : n = 15 := by omega
              subst this; rfl
    | principal => have : n = 24 := by omega
                   subst this; rfl

theorem primCode_neg {p : Prim} {i : Int} (h : PrimCode p i) : ∃ n : Nat, i = Int.negSucc n := by
  cases h with
  | other c hc =>
    cases c with
    | zero => simp at hc
    | succ c => exact ⟨c, rfl⟩
  | _ => exact ⟨_, rfl⟩

theorem parses_ref : Parses readRef RefBytes := by
  intro bs r rest
  rw [readRef]
  constructor
  · cases h : readSleb bs with
    | none => exact (nomatch ·)
    | some p =>
      obtain ⟨i, bs'⟩ := p
      obtain ⟨b, rfl, hb⟩ := (parses_sleb _ _ _).1 h
      cases i with
      | ofNat i =>
        simp only [Option.some.injEq, Prod.mk.injEq]
        rintro ⟨rfl, rfl⟩
        exact ⟨b, rfl, .entry i b hb⟩
      | negSucc n =>
        simp only
        cases hp : primOf (n + 1) with
        | none => exact (nomatch ·)
        | some p =>
          simp only [Option.some.injEq, Prod.mk.injEq]
          rintro ⟨rfl, rfl⟩
          exact ⟨b, rfl, .prim p _ b ((primOf_iff _ _).1 hp) hb⟩
  · rintro ⟨b, rfl, hb⟩
    cases hb with
    | prim p i _ hp hs =>
      obtain ⟨n, rfl⟩ := primCode_neg hp
      rw [(parses_sleb (b ++ rest) _ rest).2 ⟨b, rfl, hs⟩]
      simp only
      rw [(primOf_iff (n + 1) p).2 hp]
    | entry i _ hs =>
      rw [(parses_sleb (b ++ rest) i rest).2 ⟨b, rfl, hs⟩]

theorem fields_iff : ∀ (n : Nat) (bs : Bytes) (fs : List (UInt32 × Ref)) (rest : Bytes),
    readFields n bs = some (fs, rest) ↔ fs.length = n ∧ ∃ b, bs = b ++ rest ∧ Each FieldBytes fs b
  | 0, bs, fs, rest => by
    simp only [readFields, Option.some.injEq, Prod.mk.injEq]
    constructor
    · rintro ⟨rfl, rfl⟩; exact ⟨rfl, [], rfl, .nil⟩
    · rintro ⟨h1, b, rfl, h2⟩
      cases h2 with
      | nil => exact ⟨rfl, rfl⟩
      | cons => simp at h1
  | n + 1, bs, fs, rest => by
    have ih := fields_iff n
    rw [readFields]
    constructor
    · cases h1 : readLeb bs with
      | none => exact (nomatch ·)
      | some p =>
        obtain ⟨l, bs1⟩ := p
        simp only
        split
        · next hl =>
          cases h2 : readRef bs1 with
          | none => exact (nomatch ·)
          | some p =>
            obtain ⟨r, bs2⟩ := p
            simp only
            cases h3 : readFields n bs2 with
            | none => exact (nomatch ·)
            | some p =>
              obtain ⟨fs', bs3⟩ := p
              simp only [Option.some.injEq, Prod.mk.injEq]
              rintro ⟨rfl, rfl⟩
              obtain ⟨b1, rfl, hb1⟩ := (parses_leb _ _ _).1 h1
              obtain ⟨b2, rfl, hb2⟩ := (parses_ref _ _ _).1 h2
              obtain ⟨h4, b3, rfl, hb3⟩ := (ih _ _ _).1 h3
              refine ⟨by simp [h4], b1 ++ b2 ++ b3, by simp, .cons ⟨b1, b2, rfl, ?_, hb2⟩ hb3⟩
              rw [show (UInt32.ofNat l).toNat = l from by simp; omega]
              exact hb1
        · exact (nomatch ·)
    · rintro ⟨h1, b, rfl, h2⟩
      cases h2 with
      | nil => simp at h1
      | @cons a fs b b' hb hb' =>
        obtain ⟨b1, b2, rfl, h3, h4⟩ := hb
        rw [(parses_leb (b1 ++ b2 ++ b' ++ rest) a.1.toNat (b2 ++ b' ++ rest)).2 ⟨b1, by simp, h3⟩]
        simp only
        rw [if_pos a.1.toNat_lt, (parses_ref (b2 ++ b' ++ rest) a.2 (b' ++ rest)).2 ⟨b2, by simp, h4⟩]
        simp only
        rw [(ih (b' ++ rest) fs rest).2 ⟨by simpa using h1, b', rfl, hb'⟩]
        simp

theorem parses_fieldList : Parses readFieldList fun fs bs =>
    ∃ l b, bs = l ++ b ∧ fs.length < 2 ^ 32 ∧ Leb64 fs.length l ∧ Each FieldBytes fs b := by
  intro bs fs rest
  rw [readFieldList]
  constructor
  · cases h1 : readLeb bs with
    | none => exact (nomatch ·)
    | some p =>
      obtain ⟨n, bs'⟩ := p
      simp only
      split
      · next hn =>
        intro h2
        obtain ⟨l, rfl, hl⟩ := (parses_leb _ _ _).1 h1
        obtain ⟨rfl, b, rfl, hb⟩ := (fields_iff _ _ _ _).1 h2
        exact ⟨l ++ b, by simp, l, b, rfl, hn, hl, hb⟩
      · exact (nomatch ·)
  · rintro ⟨_, rfl, l, b, rfl, hn, hl, hb⟩
    rw [(parses_leb (l ++ b ++ rest) fs.length (b ++ rest)).2 ⟨l, by simp, hl⟩]
    simp only
    rw [if_pos hn]
    exact (fields_iff _ _ _ _).2 ⟨rfl, b, rfl, hb⟩

theorem parses_entry : Parses readEntry EntryBytes := by
  intro bs e rest
  constructor
  · intro h
    unfold readEntry at h
    split at h
    · next bs =>
      cases h1 : readRef bs with
      | none => rw [h1] at h; exact nomatch h
      | some p =>
        obtain ⟨r, bs'⟩ := p
        rw [h1] at h
        simp only [Option.some.injEq, Prod.mk.injEq] at h
        obtain ⟨rfl, rfl⟩ := h
        obtain ⟨b, rfl, hb⟩ := (parses_ref _ _ _).1 h1
        exact ⟨0x6e :: b, rfl, .opt r b hb⟩
    · next bs =>
      cases h1 : readRef bs with
      | none => rw [h1] at h; exact nomatch h
      | some p =>
        obtain ⟨r, bs'⟩ := p
        rw [h1] at h
        simp only [Option.some.injEq, Prod.mk.injEq] at h
        obtain ⟨rfl, rfl⟩ := h
        obtain ⟨b, rfl, hb⟩ := (parses_ref _ _ _).1 h1
        exact ⟨0x6d :: b, rfl, .vec r b hb⟩
    · next bs =>
      cases h1 : readFieldList bs with
      | none => rw [h1] at h; exact nomatch h
      | some p =>
        obtain ⟨r, bs'⟩ := p
        rw [h1] at h
        simp only [Option.some.injEq, Prod.mk.injEq] at h
        obtain ⟨rfl, rfl⟩ := h
        obtain ⟨_, rfl, l, b, rfl, hn, hl, hb⟩ := (parses_fieldList _ _ _).1 h1
        exact ⟨0x6c :: (l ++ b), rfl, .record r l b hn hl hb⟩
    · next bs =>
      cases h1 : readFieldList bs with
      | none => rw [h1] at h; exact nomatch h
      | some p =>
        obtain ⟨r, bs'⟩ := p
        rw [h1] at h
        simp only [Option.some.injEq, Prod.mk.injEq] at h
        obtain ⟨rfl, rfl⟩ := h
        obtain ⟨_, rfl, l, b, rfl, hn, hl, hb⟩ := (parses_fieldList _ _ _).1 h1
        exact ⟨0x6b :: (l ++ b), rfl, .variant r l b hn hl hb⟩
    · exact nomatch h
  · rintro ⟨b, rfl, hb⟩
    cases hb with
    | opt r b hb =>
      simp only [List.cons_append, readEntry]
      rw [(parses_ref (b ++ rest) r rest).2 ⟨b, rfl, hb⟩]
    | vec r b hb =>
      simp only [List.cons_append, readEntry]
      rw [(parses_ref (b ++ rest) r rest).2 ⟨b, rfl, hb⟩]
    | record fs l b hn hl hb =>
      simp only [List.cons_append, readEntry]
      rw [(parses_fieldList (l ++ b ++ rest) fs rest).2 ⟨_, rfl, l, b, rfl, hn, hl, hb⟩]
    | variant fs l b hn hl hb =>
      simp only [List.cons_append, readEntry]
      rw [(parses_fieldList (l ++ b ++ rest) fs rest).2 ⟨_, rfl, l, b, rfl, hn, hl, hb⟩]

theorem refOk_iff (n : Nat) (r : Ref) : r.ok n = true ↔ RefOk n r := by
  cases r with
  | prim p => simp [Ref.ok, RefOk]
  | entry i => simp [Ref.ok, RefOk]

theorem ascending_iff : ∀ fs : List (UInt32 × Ref), ascending fs = true ↔ (fs.map (·.1)).Pairwise (· < ·)
  | [] => by simp [ascending]
  | [_] => by simp [ascending]
  | (k, r) :: (l, s) :: fs => by
    rw [ascending, Bool.and_eq_true, decide_eq_true_eq, ascending_iff ((l, s) :: fs)]
    simp only [List.map_cons]
    rw [List.pairwise_cons (a := k)]
    constructor
    · rintro ⟨h1, h2⟩
      refine ⟨fun x hx => ?_, h2⟩
      rcases List.mem_cons.1 hx with rfl | hx
      · exact h1
      · exact UInt32.lt_trans h1 (List.rel_of_pairwise_cons h2 hx)
    · rintro ⟨h1, h2⟩
      exact ⟨h1 l (by simp), h2⟩

theorem entryOk_iff (n : Nat) (e : Entry) : e.ok n = true ↔ EntryOk n e := by
  cases e <;> simp [Entry.ok, EntryOk, refOk_iff, ascending_iff]

theorem denotes_unique (table : List Entry) : ∀ (t : Ty) (r : Ref) (t' : Ty), Denotes table r t → Denotes table r t' → t = t' := by
  intro t
  induction t using Ty.rec (motive_2 := fun ts => ∀ (fs : List (UInt32 × Ref)) (ts' : Fields),
    DenoteFields table fs ts → DenoteFields table fs ts' → ts = ts') with
  | prim p =>
    intro r t' h h'
    rw [Denotes] at h
    subst h
    cases t' with
    | prim q => rw [Denotes] at h'; cases h'; rfl
    | _ => rw [Denotes] at h'; obtain ⟨_, _, h', _⟩ := h'; cases h'
  | opt t ih =>
    intro r t' h h'
    rw [Denotes] at h
    obtain ⟨i, r1, rfl, h1, h2⟩ := h
    cases t' with
    | prim q => rw [Denotes] at h'; cases h'
    | opt t' =>
      rw [Denotes] at h'
      obtain ⟨j, r2, h3, h4, h5⟩ := h'
      cases h3
      rw [h1] at h4
      cases h4
      rw [ih _ _ h2 h5]
    | _ =>
      rw [Denotes] at h'
      obtain ⟨j, r2, h3, h4, h5⟩ := h'
      cases h3
      rw [h1] at h4
      cases h4
  | vec t ih =>
    intro r t' h h'
    rw [Denotes] at h
    obtain ⟨i, r1, rfl, h1, h2⟩ := h
    cases t' with
    | prim q => rw [Denotes] at h'; cases h'
    | vec t' =>
      rw [Denotes] at h'
      obtain ⟨j, r2, h3, h4, h5⟩ := h'
      cases h3
      rw [h1] at h4
      cases h4
      rw [ih _ _ h2 h5]
    | _ =>
      rw [Denotes] at h'
      obtain ⟨j, r2, h3, h4, h5⟩ := h'
      cases h3
      rw [h1] at h4
      cases h4
  | record ts ih =>
    intro r t' h h'
    rw [Denotes] at h
    obtain ⟨i, r1, rfl, h1, h2⟩ := h
    cases t' with
    | prim q => rw [Denotes] at h'; cases h'
    | record t' =>
      rw [Denotes] at h'
      obtain ⟨j, r2, h3, h4, h5⟩ := h'
      cases h3
      rw [h1] at h4
      cases h4
      rw [ih _ _ h2 h5]
    | _ =>
      rw [Denotes] at h'
      obtain ⟨j, r2, h3, h4, h5⟩ := h'
      cases h3
      rw [h1] at h4
      cases h4
  | variant ts ih =>
    intro r t' h h'
    rw [Denotes] at h
    obtain ⟨i, r1, rfl, h1, h2⟩ := h
    cases t' with
    | prim q => rw [Denotes] at h'; cases h'
    | variant t' =>
      rw [Denotes] at h'
      obtain ⟨j, r2, h3, h4, h5⟩ := h'
      cases h3
      rw [h1] at h4
      cases h4
      rw [ih _ _ h2 h5]
    | _ =>
      rw [Denotes] at h'
      obtain ⟨j, r2, h3, h4, h5⟩ := h'
      cases h3
      rw [h1] at h4
      cases h4
  | nil =>
    rename_i fs ts' h h'
    rw [DenoteFields] at h
    subst h
    cases ts' with
    | nil => rfl
    | cons l t ts => rw [DenoteFields] at h'; obtain ⟨_, _, h', _⟩ := h'; cases h'
  | cons l t ts ih1 ih2 =>
    rename_i fs ts' h h'
    rw [DenoteFields] at h
    obtain ⟨r, fs, rfl, h1, h2⟩ := h
    cases ts' with
    | nil => rw [DenoteFields] at h'; cases h'
    | cons l' t' ts' =>
      rw [DenoteFields] at h'
      obtain ⟨r', fs', h3, h4, h5⟩ := h'
      cases h3
      rw [ih1 _ _ h1 h4, ih2 _ _ h2 h5]

theorem resolveFields_sound {table : List Entry} {f : Ref → Option Ty} (hf : ∀ r t, f r = some t → Denotes table r t) :
    ∀ (fs : List (UInt32 × Ref)) (ts : Fields), resolveFields f fs = some ts → DenoteFields table fs ts
  | [], ts, h => by cases h; rw [DenoteFields]
  | (l, r) :: fs, ts, h => by
    rw [resolveFields] at h
    cases h1 : f r with
    | none => rw [h1] at h; exact nomatch h
    | some t =>
      cases h2 : resolveFields f fs with
      | none => rw [h1, h2] at h; exact nomatch h
      | some ts' =>
        rw [h1, h2] at h
        have := Option.some.inj h
        subst this
        rw [DenoteFields]
        exact ⟨r, fs, rfl, hf _ _ h1, resolveFields_sound hf fs _ h2⟩

theorem resolve_sound (table : List Entry) : ∀ (d : Nat) (r : Ref) (t : Ty), resolve table d r = some t → Denotes table r t
  | d, .prim p, t, h => by
    have : t = .prim p := by cases d <;> exact (Option.some.inj h).symm
    subst this
    rw [Denotes]
  | 0, .entry i, t, h => nomatch h
  | d + 1, .entry i, t, h => by
    rw [resolve] at h
    cases hi : table[i]? with
    | none => rw [hi] at h; exact nomatch h
    | some e =>
      rw [hi] at h
      cases e with
      | opt r =>
        simp only at h
        cases hr : resolve table d r with
        | none => rw [hr] at h; exact nomatch h
        | some u =>
          rw [hr] at h
          have := Option.some.inj h
          subst this
          rw [Denotes]
          exact ⟨i, r, rfl, hi, resolve_sound table d r u hr⟩
      | vec r =>
        simp only at h
        cases hr : resolve table d r with
        | none => rw [hr] at h; exact nomatch h
        | some u =>
          rw [hr] at h
          have := Option.some.inj h
          subst this
          rw [Denotes]
          exact ⟨i, r, rfl, hi, resolve_sound table d r u hr⟩
      | record fs =>
        simp only at h
        cases hr : resolveFields (resolve table d) fs with
        | none => rw [hr] at h; exact nomatch h
        | some u =>
          rw [hr] at h
          have := Option.some.inj h
          subst this
          rw [Denotes]
          exact ⟨i, fs, rfl, hi, resolveFields_sound (resolve_sound table d) fs u hr⟩
      | variant fs =>
        simp only at h
        cases hr : resolveFields (resolve table d) fs with
        | none => rw [hr] at h; exact nomatch h
        | some u =>
          rw [hr] at h
          have := Option.some.inj h
          subst this
          rw [Denotes]
          exact ⟨i, fs, rfl, hi, resolveFields_sound (resolve_sound table d) fs u hr⟩

/-- The entries a derivation has come through: all different, each with a larger type. -/
def Through (table : List Entry) (size : Nat) (s : List Nat) : Prop :=
  s.Nodup ∧ ∀ j ∈ s, j < table.length ∧ ∃ t, Denotes table (.entry j) t ∧ size < sizeOf t

theorem through_step {table : List Entry} {s : List Nat} {i size : Nat} {t : Ty} (h : Through table (sizeOf t) s)
    (hi : i < table.length) (hd : Denotes table (.entry i) t) (hs : size < sizeOf t) :
    Through table size (i :: s) ∧ table.length - s.length = (table.length - (i :: s).length) + 1 := by
  have hn : i ∉ s := by
    intro hm
    obtain ⟨_, t', h1, h2⟩ := h.2 i hm
    rw [denotes_unique table _ _ _ h1 hd] at h2
    omega
  have hnd : (i :: s).Nodup := List.nodup_cons.2 ⟨hn, h.1⟩
  have hall : ∀ j ∈ i :: s, j < table.length := by
    intro j hj
    rcases List.mem_cons.1 hj with rfl | hj
    · exact hi
    · exact (h.2 j hj).1
  have hl : (i :: s).length ≤ table.length := by
    have := (List.Nodup.subperm (l₂ := List.range table.length) hnd (fun j hj => List.mem_range.2 (hall j hj))).length_le
    simpa using this
  refine ⟨⟨hnd, fun j hj => ?_⟩, by simp only [List.length_cons] at hl ⊢; omega⟩
  rcases List.mem_cons.1 hj with rfl | hj
  · exact ⟨hi, t, hd, hs⟩
  · obtain ⟨h1, t', h2, h3⟩ := h.2 j hj
    exact ⟨h1, t', h2, by omega⟩

theorem lt_of_getElem? {α : Type} {l : List α} {i : Nat} {a : α} (h : l[i]? = some a) : i < l.length := by
  rcases Nat.lt_or_ge i l.length with h' | h'
  · exact h'
  · rw [List.getElem?_eq_none h'] at h; cases h

theorem resolve_complete (table : List Entry) : ∀ (t : Ty) (r : Ref) (s : List Nat), Denotes table r t →
    Through table (sizeOf t) s → resolve table (table.length - s.length) r = some t := by
  intro t
  induction t using Ty.rec (motive_2 := fun ts => ∀ (fs : List (UInt32 × Ref)) (s : List Nat), DenoteFields table fs ts →
    Through table (sizeOf ts) s → resolveFields (resolve table (table.length - s.length)) fs = some ts) with
  | prim p =>
    intro r s h _
    rw [Denotes] at h
    subst h
    cases table.length - s.length <;> rfl
  | opt t ih =>
    intro r s h hs
    have hd := h
    rw [Denotes] at h
    obtain ⟨i, r1, rfl, h1, h2⟩ := h
    obtain ⟨g1, g2⟩ := through_step (size := sizeOf t) hs (lt_of_getElem? h1) hd (by simp)
    rw [g2, resolve, h1]
    simp only
    rw [ih r1 _ h2 g1]
  | vec t ih =>
    intro r s h hs
    have hd := h
    rw [Denotes] at h
    obtain ⟨i, r1, rfl, h1, h2⟩ := h
    obtain ⟨g1, g2⟩ := through_step (size := sizeOf t) hs (lt_of_getElem? h1) hd (by simp)
    rw [g2, resolve, h1]
    simp only
    rw [ih r1 _ h2 g1]
  | record ts ih =>
    intro r s h hs
    have hd := h
    rw [Denotes] at h
    obtain ⟨i, r1, rfl, h1, h2⟩ := h
    obtain ⟨g1, g2⟩ := through_step (size := sizeOf ts) hs (lt_of_getElem? h1) hd (by simp)
    rw [g2, resolve, h1]
    simp only
    rw [ih r1 _ h2 g1]
  | variant ts ih =>
    intro r s h hs
    have hd := h
    rw [Denotes] at h
    obtain ⟨i, r1, rfl, h1, h2⟩ := h
    obtain ⟨g1, g2⟩ := through_step (size := sizeOf ts) hs (lt_of_getElem? h1) hd (by simp)
    rw [g2, resolve, h1]
    simp only
    rw [ih r1 _ h2 g1]
  | nil =>
    rename_i fs s h _
    rw [DenoteFields] at h
    subst h
    rfl
  | cons l t ts ih1 ih2 =>
    rename_i fs s h hs
    rw [DenoteFields] at h
    obtain ⟨r, fs, rfl, h1, h2⟩ := h
    have smaller : ∀ n, n < sizeOf (Fields.cons l t ts) → Through table n s := fun n hn =>
      ⟨hs.1, fun j hj => ⟨(hs.2 j hj).1, (hs.2 j hj).2.choose, (hs.2 j hj).2.choose_spec.1,
        Nat.lt_trans hn (hs.2 j hj).2.choose_spec.2⟩⟩
    rw [resolveFields, ih1 r s h1 (smaller _ (by simp; omega)), ih2 fs s h2 (smaller _ (by simp; omega))]

theorem resolve_iff (table : List Entry) (r : Ref) (t : Ty) : resolve table table.length r = some t ↔ Denotes table r t :=
  ⟨resolve_sound table _ r t, fun h => resolve_complete table t r [] h ⟨List.nodup_nil, (fun _ h => nomatch h)⟩⟩

theorem resolveAll_iff (table : List Entry) : ∀ (rs : List Ref) (ts : List Ty),
    resolveAll (resolve table table.length) rs = some ts ↔ List.Forall₂ (Denotes table) rs ts
  | [], ts => by
    simp only [resolveAll, Option.some.injEq, List.forall₂_nil_left_iff]
    exact eq_comm
  | r :: rs, ts => by
    have ih := resolveAll_iff table rs
    rw [resolveAll]
    constructor
    · cases h1 : resolve table table.length r with
      | none => exact (nomatch ·)
      | some t =>
        cases h2 : resolveAll (resolve table table.length) rs with
        | none => exact (nomatch ·)
        | some ts' =>
          intro h
          have := Option.some.inj h
          subst this
          exact .cons ((resolve_iff _ _ _).1 h1) ((ih _).1 h2)
    · intro h
      cases h with
      | cons h1 h2 => rw [(resolve_iff _ _ _).2 h1, (ih _).2 h2]

/-! ### values -/

theorem parses_congr {α : Type} {f : Bytes → Option (α × Bytes)} {R S : α → Bytes → Prop} (h : Parses f R)
    (hi : ∀ a b, R a b ↔ S a b) : Parses f S := by
  intro bs a rest
  rw [h bs a rest]
  constructor <;> rintro ⟨b, h1, h2⟩
  · exact ⟨b, h1, (hi _ _).1 h2⟩
  · exact ⟨b, h1, (hi _ _).2 h2⟩

theorem parses_map {α β : Type} {f : Bytes → Option (α × Bytes)} {R : α → Bytes → Prop} (h : Parses f R) (k : α → β)
    {g : Bytes → Option (β × Bytes)} (hg : ∀ bs, g bs = (f bs).map fun q => (k q.1, q.2)) :
    Parses g (fun x b => ∃ a, x = k a ∧ R a b) := by
  intro bs x rest
  rw [hg]
  constructor
  · cases hf : f bs with
    | none => exact (nomatch ·)
    | some q =>
      obtain ⟨a, r⟩ := q
      intro h'
      obtain ⟨rfl, rfl⟩ := Prod.mk.inj (Option.some.inj h')
      obtain ⟨b, h1, h2⟩ := (h _ _ _).1 hf
      exact ⟨b, h1, a, rfl, h2⟩
  · rintro ⟨b, h1, a, rfl, h2⟩
    rw [(h _ _ _).2 ⟨b, h1, h2⟩]
    rfl

theorem parses_bind {α β : Type} {f : Bytes → Option (α × Bytes)} {R : α → Bytes → Prop} {g : α → Bytes → Option (β × Bytes)}
    {S : α → β → Bytes → Prop} (h : Parses f R) (hs : ∀ a, Parses (g a) (S a))
    {k : Bytes → Option (β × Bytes)} (hk : ∀ bs, k bs = (f bs).bind fun q => g q.1 q.2) :
    Parses k (fun x bs => ∃ a b b', bs = b ++ b' ∧ R a b ∧ S a x b') := by
  intro bs x rest
  rw [hk]
  constructor
  · cases hf : f bs with
    | none => exact (nomatch ·)
    | some q =>
      obtain ⟨a, r⟩ := q
      intro h'
      obtain ⟨b, rfl, h2⟩ := (h _ _ _).1 hf
      obtain ⟨b', rfl, h4⟩ := (hs a _ _ _).1 h'
      exact ⟨b ++ b', (List.append_assoc ..).symm, a, b, b', rfl, h2, h4⟩
  · rintro ⟨_, rfl, a, b, b', rfl, h2, h3⟩
    rw [(h _ _ _).2 ⟨b, List.append_assoc .., h2⟩]
    exact (hs a _ _ _).2 ⟨b', rfl, h3⟩

theorem parses_take (n : Nat) : Parses (takeBytes n) (fun a b => a = b ∧ b.length = n) := by
  intro bs a rest
  rw [takeBytes_iff]
  constructor
  · rintro ⟨h1, h2⟩; exact ⟨a, h1, rfl, h2⟩
  · rintro ⟨b, h1, rfl, h2⟩; exact ⟨h1, h2⟩

theorem leNumber_eq : ∀ l, leNumber l = leValue l
  | [] => rfl
  | b :: l => by rw [leNumber, leValue, leNumber_eq l]

theorem leValue_lt : ∀ l : Bytes, leValue l < 256 ^ l.length
  | [] => by simp [leValue]
  | b :: l => by
    have := leValue_lt l
    have := b.toNat_lt
    rw [leValue, List.length_cons, Nat.pow_succ]
    omega

theorem splitLeb_all : Parses (fun bs => splitLeb bs.length bs) (fun a b => a = b ∧ LebShape b) := by
  intro bs a rest
  simp only
  rw [splitLeb_iff]
  constructor
  · rintro ⟨h1, h2, h3⟩; exact ⟨a, h1, rfl, h3⟩
  · rintro ⟨b, h1, rfl, h2⟩; exact ⟨h1, by rw [h1]; simp, h2⟩

theorem parses_other (c : Nat) : Parses (readOther c) (fun a b => a = b ∧ OtherBytes c b) := by
  by_cases h2 : c = 2
  · subst h2
    intro bs a rest
    simp only [readOther, if_true]
    constructor
    · cases bs with
      | nil => exact (nomatch ·)
      | cons x bs =>
        simp only
        split
        · rename_i hx
          intro h
          obtain ⟨rfl, rfl⟩ := Prod.mk.inj (Option.some.inj h)
          refine ⟨[x], rfl, rfl, .inl ⟨rfl, ?_⟩⟩
          rcases hx with rfl | rfl
          · exact .inl rfl
          · exact .inr rfl
        · exact (nomatch ·)
    · rintro ⟨b, rfl, rfl, h⟩
      rcases h with ⟨_, rfl | rfl⟩ | ⟨h, _⟩ | ⟨h, _⟩ | ⟨h, _⟩ | ⟨h, _⟩ | ⟨h, _⟩ | ⟨h, _⟩
      · rfl
      · rfl
      all_goals omega
  by_cases h4 : c = 4
  · subst h4
    refine parses_congr (f := readOther 4) splitLeb_all ?_
    intro a b
    refine and_congr_right fun _ => ?_
    constructor
    · intro h
      exact .inr (.inl ⟨rfl, slebNumber b, (isSleb_iff _ _).2 ⟨h, rfl⟩⟩)
    · rintro (⟨h, _⟩ | ⟨_, i, h⟩ | ⟨h, _⟩ | ⟨h, _⟩ | ⟨h, _⟩ | ⟨h, _⟩ | ⟨h, _⟩)
      · omega
      · exact ((isSleb_iff _ _).1 h).1
      all_goals omega
  have key : OtherBytes c = fun b => ∃ n, otherWidth c = some n ∧ b.length = n := by
    funext b
    apply propext
    constructor
    · rintro (⟨h, _⟩ | ⟨h, _⟩ | ⟨rfl, h⟩ | ⟨rfl | rfl, h⟩ | ⟨rfl | rfl, h⟩ | ⟨rfl | rfl, h⟩ | ⟨rfl, rfl⟩)
      · exact absurd h h2
      · exact absurd h h4
      all_goals exact ⟨_, rfl, by first | exact h | rfl⟩
    · rintro ⟨n, h, rfl⟩
      unfold otherWidth at h
      unfold OtherBytes
      split at h <;> simp only [Option.some.injEq, reduceCtorEq] at h
      all_goals first
        | (have h' := List.length_eq_zero_iff.1 h.symm; subst h'; simp)
        | simp [← h]
  cases hw : otherWidth c with
  | none =>
    intro bs a rest
    unfold readOther
    rw [if_neg h2, if_neg h4, key, hw]
    simp
  | some n =>
    refine parses_congr (S := fun a b => a = b ∧ OtherBytes c b) (f := readOther c) (R := fun a b => a = b ∧ b.length = n) ?_ ?_
    · intro bs a rest
      unfold readOther
      rw [if_neg h2, if_neg h4, hw]
      exact parses_take n bs a rest
    · intro a b
      rw [key, hw]
      simp [eq_comm]

theorem parses_prim (p : Prim) : Parses (readPrim p) (PrimBytes p) := by
  cases p with
  | null =>
    intro bs a rest
    constructor
    · intro h
      obtain ⟨rfl, rfl⟩ := Prod.mk.inj (Option.some.inj h)
      exact ⟨[], rfl, .null⟩
    · rintro ⟨b, rfl, h⟩
      cases h
      rfl
  | nat =>
    refine parses_congr (f := readPrim .nat) (parses_map parses_nat Val.nat (by intro bs; simp only [readPrim]; rcases readNat bs with _ | ⟨_, _⟩ <;> rfl)) fun a b => ⟨?_, ?_⟩
    · rintro ⟨n, rfl, h⟩; exact .nat n b h
    · intro h; cases h; exact ⟨_, rfl, by assumption⟩
  | nat8 =>
    intro bs a rest
    constructor
    · intro h
      cases bs with
      | nil => exact nomatch h
      | cons x bs =>
        obtain ⟨rfl, rfl⟩ := Prod.mk.inj (Option.some.inj h)
        exact ⟨[x], rfl, .nat8 x⟩
    · rintro ⟨b, rfl, h⟩
      cases h
      rfl
  | nat32 =>
    refine parses_congr (f := readPrim .nat32) (parses_map (parses_take 4) (fun b => Val.nat32 (UInt32.ofNat (leNumber b)))
      (by intro bs; simp only [readPrim]; rcases takeBytes 4 bs with _ | ⟨_, _⟩ <;> rfl))
      fun a b => ⟨?_, ?_⟩
    · rintro ⟨n, rfl, rfl, h⟩
      refine .nat32 _ n h ?_
      have := leValue_lt n
      rw [h] at this
      rw [leNumber_eq, UInt32.toNat_ofNat', Nat.mod_eq_of_lt (by omega)]
    · intro h
      cases h with
      | nat32 x _ h1 h2 =>
        refine ⟨b, ?_, rfl, h1⟩
        rw [leNumber_eq, h2, UInt32.ofNat_toNat]
  | nat64 =>
    refine parses_congr (f := readPrim .nat64) (parses_map (parses_take 8) (fun b => Val.nat64 (UInt64.ofNat (leNumber b)))
      (by intro bs; simp only [readPrim]; rcases takeBytes 8 bs with _ | ⟨_, _⟩ <;> rfl))
      fun a b => ⟨?_, ?_⟩
    · rintro ⟨n, rfl, rfl, h⟩
      refine .nat64 _ n h ?_
      have := leValue_lt n
      rw [h] at this
      rw [leNumber_eq, UInt64.toNat_ofNat', Nat.mod_eq_of_lt (by omega)]
    · intro h
      cases h with
      | nat64 x _ h1 h2 =>
        refine ⟨b, ?_, rfl, h1⟩
        rw [leNumber_eq, h2, UInt64.ofNat_toNat]
  | text =>
    refine parses_congr (f := readPrim .text) (parses_bind parses_leb
      (g := fun n bs => (takeBytes n bs).bind fun q => if isUtf8 q.1 then some (Val.text q.1, q.2) else none)
      (S := fun n v b => ∃ a, v = Val.text a ∧ a = b ∧ b.length = n ∧ IsUtf8 b) (fun n => by
        intro bs a rest
        constructor
        · intro h
          obtain ⟨q, h1, h2⟩ := Option.bind_eq_some_iff.1 h
          obtain ⟨b, r⟩ := q
          obtain ⟨rfl, h3⟩ := (takeBytes_iff ..).1 h1
          simp only at h2
          split at h2
          · rename_i hu
            obtain ⟨rfl, rfl⟩ := Prod.mk.inj (Option.some.inj h2)
            exact ⟨b, rfl, b, rfl, rfl, h3, (isUtf8_iff b).1 hu⟩
          · exact nomatch h2
        · rintro ⟨b, rfl, _, rfl, rfl, h1, h2⟩
          simp only
          rw [(takeBytes_iff ..).2 ⟨rfl, h1⟩, Option.bind_some]
          simp only [(isUtf8_iff _).2 h2, if_true]) (by
        intro bs
        simp only [readPrim]
        rcases readLeb bs with _ | ⟨n, bs⟩
        · rfl
        · simp only [Option.bind_some]
          rcases takeBytes n bs with _ | ⟨_, _⟩ <;> rfl))
      fun a b => ⟨?_, ?_⟩
    · rintro ⟨n, l, s, rfl, h, _, rfl, rfl, rfl, hu⟩
      exact .text _ l hu h
    · intro h
      cases h with
      | text s l hu h => exact ⟨_, l, s, rfl, h, s, rfl, rfl, rfl, hu⟩
  | principal =>
    intro bs a rest
    cases bs with
    | nil =>
      simp only [readPrim, reduceCtorEq, false_iff]
      rintro ⟨b, h, h'⟩
      cases h'
      exact nomatch h
    | cons x bs =>
      by_cases hx : x = 1
      · subst hx
        have := parses_bind (k := fun bs => readPrim .principal (1 :: bs)) parses_leb
          (g := fun n bs => if n ≤ 29 then (takeBytes n bs).map fun q => (Val.principal q.1, q.2) else none)
          (S := fun n v b => n ≤ 29 ∧ ∃ a, v = Val.principal a ∧ a = b ∧ b.length = n) (fun n => by
            intro bs a rest
            by_cases hn : n ≤ 29
            · simp only [hn, if_true, true_and]
              exact parses_map (parses_take n) Val.principal (fun _ => rfl) bs a rest
            · simp [hn]) (by
            intro bs
            simp only [readPrim, if_true]
            rcases readLeb bs with _ | ⟨n, bs⟩
            · rfl
            · simp only [Option.bind_some]
              split
              · rcases takeBytes n bs with _ | ⟨_, _⟩ <;> rfl
              · rfl) bs a rest
        refine Iff.trans this ?_
        constructor
        · rintro ⟨_, rfl, n, l, _, rfl, h1, h2, q, rfl, rfl, rfl⟩
          exact ⟨_, rfl, .principal q l h2 h1⟩
        · rintro ⟨b, h, h'⟩
          cases h' with
          | principal q l h1 h2 =>
            simp only [List.cons_append, List.cons.injEq, true_and] at h
            exact ⟨_, h, _, l, q, rfl, h2, h1, q, rfl, rfl, rfl⟩
      · simp only [readPrim, if_neg hx, reduceCtorEq, false_iff]
        rintro ⟨b, h, h'⟩
        cases h'
        simp only [List.cons_append, List.cons.injEq] at h
        exact hx h.1
  | other c =>
    refine parses_congr (f := readPrim (.other c)) (parses_map (parses_other c) (Val.other c)
      (by intro bs; simp only [readPrim]; rcases readOther c bs with _ | ⟨_, _⟩ <;> rfl)) fun a b => ⟨?_, ?_⟩
    · rintro ⟨n, rfl, rfl, h⟩; exact .other c _ h
    · intro h
      cases h with
      | other _ _ h => exact ⟨b, rfl, rfl, h⟩

theorem parses_val : ∀ t, Parses (readVal t) (ValBytes t) := by
  intro t
  induction t using Ty.rec (motive_2 := fun fs => Parses (readValFields fs) (ValsBytes fs) ∧
    ∀ n, Parses (readCase fs n) (CaseBytes fs n)) with
  | prim p =>
    intro bs a rest
    rw [readVal]
    refine (parses_prim p bs a rest).trans ?_
    simp only [ValBytes]
  | opt t ih =>
    intro bs a rest
    cases bs with
    | nil =>
      simp only [readVal, ValBytes, reduceCtorEq, false_iff]
      rintro ⟨b, h, ⟨_, rfl⟩ | ⟨_, _, _, rfl, _⟩⟩ <;> exact nomatch h
    | cons x bs =>
      by_cases h0 : x = 0
      · subst h0
        simp only [readVal, if_true, ValBytes]
        constructor
        · intro h
          obtain ⟨rfl, rfl⟩ := Prod.mk.inj (Option.some.inj h)
          exact ⟨[0], rfl, .inl ⟨rfl, rfl⟩⟩
        · rintro ⟨b, h, ⟨rfl, rfl⟩ | ⟨_, _, _, rfl, _⟩⟩
          · simp only [List.cons_append, List.nil_append, List.cons.injEq, true_and] at h
            rw [h]
          · exact absurd (List.cons.inj h).1 (by decide)
      · by_cases h1 : x = 1
        · subst h1
          simp only [ValBytes]
          refine (parses_map (g := fun bs => readVal (.opt t) (1 :: bs)) ih Val.some (fun bs => by
            simp only [readVal, if_true, h0, if_false]
            rcases readVal t bs with _ | ⟨_, _⟩ <;> rfl) bs a rest).trans ?_
          constructor
          · rintro ⟨b, rfl, w, rfl, h⟩
            exact ⟨1 :: b, rfl, .inr ⟨w, b, rfl, rfl, h⟩⟩
          · rintro ⟨b, h, ⟨rfl, rfl⟩ | ⟨w, b, rfl, rfl, h'⟩⟩
            · exact absurd (List.cons.inj h).1 (by decide)
            · exact ⟨b, (List.cons.inj h).2, w, rfl, h'⟩
        · simp only [readVal, h0, h1, if_false, ValBytes, reduceCtorEq, false_iff]
          rintro ⟨b, h, ⟨rfl, rfl⟩ | ⟨w, b, rfl, rfl, h'⟩⟩
          · exact h0 (List.cons.inj h).1
          · exact h1 (List.cons.inj h).1
  | vec t ih =>
    refine parses_congr (f := readVal (.vec t)) (R := fun x b => ∃ a, x = Val.vec a ∧ ListBytes (ValBytes t) a b) ?_ ?_
    · intro bs a rest
      exact parses_map (parses_list ih) Val.vec (fun bs => by
        rw [readVal]; rcases readList (readVal t) bs with _ | ⟨_, _⟩ <;> rfl) bs a rest
    · intro a b
      rw [ValBytes]
      constructor
      · rintro ⟨vs, rfl, l, b', h1, h2, h3⟩; exact ⟨vs, l, b', rfl, h1, h2, h3⟩
      · rintro ⟨vs, l, b', rfl, h1, h2, h3⟩; exact ⟨vs, rfl, l, b', h1, h2, h3⟩
  | record fs ih =>
    refine parses_congr (f := readVal (.record fs)) (R := fun x b => ∃ a, x = Val.record a ∧ ValsBytes fs a b) ?_ ?_
    · intro bs a rest
      exact parses_map ih.1 Val.record (fun bs => by
        rw [readVal]; rcases readValFields fs bs with _ | ⟨_, _⟩ <;> rfl) bs a rest
    · intro a b
      rw [ValBytes]
  | variant fs ih =>
    refine parses_congr (f := readVal (.variant fs)) (R := fun x bs => ∃ a b b', bs = b ++ b' ∧ Leb64 a b ∧ CaseBytes fs a x b') ?_ ?_
    · intro bs a rest
      exact parses_bind parses_leb ih.2 (fun bs => by
        rw [readVal]; rcases readLeb bs with _ | ⟨_, _⟩ <;> rfl) bs a rest
    · intro a b
      rw [ValBytes]
  | nil =>
    refine ⟨?_, ?_⟩
    · intro bs a rest
      simp only [readValFields, ValsBytes]
      constructor
      · intro h
        obtain ⟨rfl, rfl⟩ := Prod.mk.inj (Option.some.inj h)
        exact ⟨[], rfl, rfl, rfl⟩
      · rintro ⟨b, rfl, rfl, rfl⟩; rfl
    · intro n bs a rest
      simp [readCase, CaseBytes]
  | cons l t fs ih1 ih2 =>
    refine ⟨?_, ?_⟩
    · refine parses_congr (f := readValFields (.cons l t fs))
        (R := fun x bs => ∃ a b b', bs = b ++ b' ∧ ValBytes t a b ∧ ∃ vs, x = (l, a) :: vs ∧ ValsBytes fs vs b') ?_ ?_
      · intro bs a rest
        refine parses_bind ih1 (fun v => parses_map ih2.1 (fun vs => (l, v) :: vs) (fun _ => rfl)) (fun bs => ?_) bs a rest
        rw [readValFields]
        rcases readVal t bs with _ | ⟨v, bs⟩
        · rfl
        · simp only [Option.bind_some]
          rcases readValFields fs bs with _ | ⟨_, _⟩ <;> rfl
      · intro a b
        rw [ValsBytes]
        constructor
        · rintro ⟨v, b1, b2, h1, h2, vs, h3, h4⟩; exact ⟨v, vs, b1, b2, h3, h1, h2, h4⟩
        · rintro ⟨v, vs, b1, b2, h3, h1, h2, h4⟩; exact ⟨v, b1, b2, h1, h2, vs, h3, h4⟩
    · intro n
      cases n with
      | zero =>
        refine parses_congr (f := readCase (.cons l t fs) 0) (R := fun x b => ∃ a, x = Val.variant l a ∧ ValBytes t a b) ?_ ?_
        · intro bs a rest
          exact parses_map ih1 (Val.variant l) (fun bs => by
            rw [readCase]; rcases readVal t bs with _ | ⟨_, _⟩ <;> rfl) bs a rest
        · intro a b
          rw [CaseBytes]
      | succ n =>
        refine parses_congr (f := readCase (.cons l t fs) (n + 1)) (R := CaseBytes fs n) ?_ ?_
        · intro bs a rest
          rw [readCase]
          exact ih2.2 n bs a rest
        · intro a b
          rw [CaseBytes]

theorem vals_iff : ∀ (ts : List Ty) (bs : Bytes) (vs : List Val) (rest : Bytes), readVals ts bs = some (vs, rest) ↔
    vs.length = ts.length ∧ ∃ b, bs = b ++ rest ∧ Each (fun a : Ty × Val => ValBytes a.1 a.2) (ts.zip vs) b
  | [], bs, vs, rest => by
    simp only [readVals, List.length_nil, List.length_eq_zero_iff, List.zip_nil_left]
    constructor
    · intro h
      obtain ⟨rfl, rfl⟩ := Prod.mk.inj (Option.some.inj h)
      exact ⟨rfl, [], rfl, .nil⟩
    · rintro ⟨rfl, b, rfl, h⟩
      cases h
      rfl
  | t :: ts, bs, vs, rest => by
    rw [readVals]
    constructor
    · cases hv : readVal t bs with
      | none => exact (nomatch ·)
      | some q =>
        obtain ⟨v, r⟩ := q
        simp only
        cases hvs : readVals ts r with
        | none => exact (nomatch ·)
        | some q =>
          obtain ⟨vs', r'⟩ := q
          intro h
          obtain ⟨rfl, rfl⟩ := Prod.mk.inj (Option.some.inj h)
          obtain ⟨b, rfl, h1⟩ := (parses_val t _ _ _).1 hv
          obtain ⟨h2, b', rfl, h3⟩ := (vals_iff ts _ _ _).1 hvs
          exact ⟨by simp [h2], b ++ b', (List.append_assoc ..).symm, .cons (a := (t, v)) h1 h3⟩
    · rintro ⟨hl, b, rfl, h⟩
      cases vs with
      | nil => exact nomatch hl
      | cons v vs =>
        cases h with
        | cons h1 h2 =>
          rw [(parses_val t _ _ _).2 ⟨_, List.append_assoc .., h1⟩]
          simp only
          rw [(vals_iff ts _ vs rest).2 ⟨by simpa using hl, _, rfl, h2⟩]

theorem magic_iff {bs rest : Bytes} : bs = ascii "DIDL" ++ rest ↔ bs = 0x44 :: 0x49 :: 0x44 :: 0x4c :: rest := by
  have : (ascii "DIDL" : Bytes) = [0x44, 0x49, 0x44, 0x4c] := by decide
  rw [this]
  rfl

theorem readMessage_other {bs : Bytes} (h : ∀ rest, bs ≠ 0x44 :: 0x49 :: 0x44 :: 0x4c :: rest) : readMessage bs = none := by
  unfold readMessage
  split
  · exact absurd rfl (h _)
  · rfl

theorem readMessage_iff (bs : Bytes) (args : Args) : readMessage bs = some args ↔ IsMessage bs args := by
  constructor
  · intro h
    by_cases hm : ∃ rest, bs = 0x44 :: 0x49 :: 0x44 :: 0x4c :: rest
    · obtain ⟨r0, rfl⟩ := hm
      rw [readMessage] at h
      cases h1 : readList readEntry r0 with
      | none => rw [h1] at h; exact nomatch h
      | some q =>
        obtain ⟨table, r1⟩ := q
        rw [h1] at h
        simp only at h
        split at h
        case isFalse => exact nomatch h
        rename_i hok
        cases h2 : readList readRef r1 with
        | none => rw [h2] at h; exact nomatch h
        | some q =>
          obtain ⟨refs, r2⟩ := q
          rw [h2] at h
          simp only at h
          cases h3 : resolveAll (resolve table table.length) refs with
          | none => rw [h3] at h; exact nomatch h
          | some types =>
            rw [h3] at h
            simp only at h
            cases h4 : readVals types r2 with
            | none => rw [h4] at h; exact nomatch h
            | some q =>
              obtain ⟨vs, r3⟩ := q
              rw [h4] at h
              cases r3 with
              | cons x r3 => exact nomatch h
              | nil =>
                have := Option.some.inj h
                subst this
                obtain ⟨b1, rfl, tl, tb, rfl, g1, g2⟩ := (parses_list parses_entry _ _ _).1 h1
                obtain ⟨b2, rfl, rl, rb, rfl, g3, g4⟩ := (parses_list parses_ref _ _ _).1 h2
                obtain ⟨hl, b3, rfl, g5⟩ := (vals_iff types _ vs []).1 h4
                refine ⟨table, refs, tl, tb, rl, rb, b3, ?_, g1, g2, ?_, g3, g4, ?_, g5⟩
                · rw [magic_iff]; simp
                · intro e he
                  exact (entryOk_iff _ _).1 (List.all_eq_true.1 hok e he)
                · rw [List.map_fst_zip (by omega)]
                  exact (resolveAll_iff _ _ _).1 h3
    · rw [readMessage_other fun rest h => hm ⟨rest, h⟩] at h
      exact nomatch h
  · rintro ⟨table, refs, tl, tb, rl, rb, vb, h0, g1, g2, g3, g4, g5, g6, g7⟩
    rw [magic_iff] at h0
    subst h0
    rw [readMessage, (parses_list parses_entry _ table (rl ++ (rb ++ vb))).2 ⟨tl ++ tb, by simp, tl, tb, rfl, g1, g2⟩]
    simp only
    rw [if_pos (List.all_eq_true.2 fun e he => (entryOk_iff _ _).2 (g3 e he)),
      (parses_list parses_ref _ refs vb).2 ⟨rl ++ rb, by simp, rl, rb, rfl, g4, g5⟩]
    simp only
    rw [(resolveAll_iff _ _ _).2 g6]
    simp only
    have hz : (args.map (·.1)).zip (args.map (·.2)) = args := by
      rw [← List.unzip_fst, ← List.unzip_snd, List.zip_unzip]
    rw [(vals_iff (args.map (·.1)) vb (args.map (·.2)) []).2 ⟨by simp, vb, by simp, by rw [hz]; exact g7⟩]
    simp only [hz]

end Siwe.Candid.Wire
