import Verif.Spec.Json
import Verif.Lemmas.Encoding
import Verif.Lemmas.Decimal
/-
Helper lemmas: what `Json.text` writes, `Json.parse` reads.
-/
namespace Siwe.Json
open Siwe.Spec

mutual
/-- Every number in the value is written as JSON's grammar has it. -/
def Grammatical : Json → Prop
  | .num t => Json.isNumber t = true
  | .arr l => GrammaticalItems l
  | .obj l => GrammaticalFields l
  | .null => True
  | .bool _ => True
  | .str _ => True
def GrammaticalItems : List Json → Prop
  | [] => True
  | j :: l => Grammatical j ∧ GrammaticalItems l
def GrammaticalFields : List (Bytes × Json) → Prop
  | [] => True
  | (_, j) :: l => Grammatical j ∧ GrammaticalFields l
end

/-! Strings -/

theorem escape_cases : ∀ c : UInt8,
    (∃ e, escape c = [92, e] ∧ e ≠ 117 ∧ shortEscape e = some c) ∨
    (∃ a b, escape c = [92, 117, 48, 48, a, b] ∧ hex4 48 48 a b = some c.toNat ∧ c < 32) ∨
    (escape c = [c] ∧ c ≠ 34 ∧ c ≠ 92 ∧ ¬ c < 32) := by
  have h : ∀ c : UInt8,
      ((escape c).head? = some 92 ∧ (escape c).length = 2 ∧ (escape c)[1]? ≠ some 117 ∧
        (escape c)[1]?.bind shortEscape = some c) ∨
      ((escape c).take 4 = [92, 117, 48, 48] ∧ (escape c).length = 6 ∧
        hex4 48 48 (hexDigit (c >>> 4)) (hexDigit (c &&& 15)) = some c.toNat ∧ c < 32 ∧
        escape c = [92, 117, 48, 48, hexDigit (c >>> 4), hexDigit (c &&& 15)]) ∨
      (escape c = [c] ∧ c ≠ 34 ∧ c ≠ 92 ∧ ¬ c < 32) := by
    apply u8_all; decide +kernel
  intro c
  rcases h c with ⟨h1, h2, h3, h4⟩ | ⟨_, _, h3, h4, h5⟩ | h
  · left
    match he : escape c, h2 with
    | [x, e], _ =>
      rw [he] at h1 h3 h4
      simp only [List.head?_cons, Option.some.injEq] at h1
      refine ⟨e, by rw [h1], ?_, ?_⟩
      · intro h; exact h3 (by simp [h])
      · simpa using h4
  · exact .inr (.inl ⟨_, _, h5, h3, h4⟩)
  · exact .inr (.inr h)

/-- What `escape` writes is read as the byte itself, or as the UTF-16 unit of the same number below 32. -/
def pieceOf (c : UInt8) : Piece :=
  if (escape c).length = 6 then .unit c.toNat else .byte c

theorem readPieces_escape (c : UInt8) (t : Bytes) (ps : List Piece) (r : Bytes)
    (h : readPieces t = some (ps, r)) : readPieces (escape c ++ t) = some (pieceOf c :: ps, r) := by
  rcases escape_cases c with ⟨e, he, hu, hs⟩ | ⟨a, b, he, hx, _⟩ | ⟨he, h1, h2, h3⟩
  · have hp : pieceOf c = .byte c := by rw [pieceOf, he]; rfl
    rw [he, hp]
    show readPieces (92 :: e :: t) = _
    unfold readPieces; simp [hu, hs, h]
  · have hp : pieceOf c = .unit c.toNat := by rw [pieceOf, he]; rfl
    rw [he, hp]
    show readPieces (92 :: 117 :: 48 :: 48 :: a :: b :: t) = _
    unfold readPieces; simp [hx, h]
  · have hp : pieceOf c = .byte c := by rw [pieceOf, he]; rfl
    rw [he, hp]
    show readPieces (c :: t) = _
    unfold readPieces; simp [h1, h2, h3, h]

theorem readPieces_quote (s r : Bytes) :
    readPieces (s.flatMap escape ++ 34 :: r) = some (s.map pieceOf, r) := by
  induction s with
  | nil => show readPieces (34 :: r) = _; unfold readPieces; simp
  | cons c s ih =>
    rw [List.flatMap_cons, List.append_assoc]
    exact readPieces_escape c _ _ _ ih

theorem join_pieceOf (s : Bytes) : join none (s.map pieceOf) = s := by
  induction s with
  | nil => rfl
  | cons c s ih =>
    rw [List.map_cons]
    rcases escape_cases c with ⟨e, he, hu, hs⟩ | ⟨a, b, he, hx, hc⟩ | ⟨he, h1, h2, h3⟩
    · have hp : pieceOf c = .byte c := by rw [pieceOf, he]; rfl
      rw [hp, join, ih]
    · have hp : pieceOf c = .unit c.toNat := by rw [pieceOf, he]; rfl
      have hc' : c.toNat < 32 := hc
      rw [hp, join, if_neg (by omega), ih, utf8, if_pos (by omega)]
      simp
    · have hp : pieceOf c = .byte c := by rw [pieceOf, he]; rfl
      rw [hp, join, ih]

theorem readString_quote (s r : Bytes) : readString (s.flatMap escape ++ 34 :: r) = some (s, r) := by
  unfold readString
  rw [readPieces_quote]
  simp only [join_pieceOf]

theorem quote_append (s r : Bytes) : quote s ++ r = 34 :: (s.flatMap escape ++ 34 :: r) := by
  simp [quote]

/-! Numbers -/

/-- What follows a value does not carry on a number. -/
def Ends (r : Bytes) : Prop := ∀ c, r.head? = some c → isNumChar c = false

theorem takeWhile_ends {t r : Bytes} (ht : ∀ c ∈ t, isNumChar c = true) (hr : Ends r) :
    (t ++ r).takeWhile isNumChar = t ∧ (t ++ r).dropWhile isNumChar = r := by
  induction t with
  | nil =>
    cases r with
    | nil => simp
    | cons c r => simp [hr c rfl]
  | cons c t ih =>
    have hc := ht c (by simp)
    obtain ⟨h1, h2⟩ := ih fun c hc => ht c (by simp [hc])
    constructor
    · rw [List.cons_append, List.takeWhile_cons, if_pos hc, h1]
    · rw [List.cons_append, List.dropWhile_cons, if_pos hc, h2]

theorem numChar_digit {c : UInt8} (h : isDigit c = true) : isNumChar c = true := by simp [isNumChar, h]

theorem mem_dropWhile_or {p : UInt8 → Bool} {l : Bytes} {c : UInt8} (h : c ∈ l) : p c = true ∨ c ∈ l.dropWhile p := by
  induction l with
  | nil => simp at h
  | cons a l ih =>
    rw [List.dropWhile_cons]
    split
    · rename_i ha
      rcases List.mem_cons.1 h with rfl | h
      · exact .inl ha
      · exact ih h
    · exact .inr h

theorem isExp_chars {t : Bytes} (h : isExp t = true) : ∀ c ∈ t, isNumChar c = true := by
  match t, h with
  | [], _ => simp
  | [e], h => simp [isExp] at h
  | e :: s :: r, h =>
    simp only [isExp, Bool.and_eq_true, Bool.or_eq_true, beq_iff_eq] at h
    obtain ⟨he, hr⟩ := h
    intro c hc
    rcases List.mem_cons.1 hc with rfl | hc
    · rcases he with rfl | rfl <;> rfl
    · split at hr
      · rename_i hs
        rw [Bool.and_eq_true] at hr
        rcases List.mem_cons.1 hc with rfl | hc
        · rcases hs with rfl | rfl <;> rfl
        · exact numChar_digit (List.all_eq_true.1 hr.2 c hc)
      · exact numChar_digit (List.all_eq_true.1 hr c hc)

theorem isFraction_chars {t : Bytes} (h : isFraction t = true) : ∀ c ∈ t, isNumChar c = true := by
  unfold isFraction at h
  split at h
  · rename_i d r
    rw [Bool.and_eq_true] at h
    intro c hc
    rcases List.mem_cons.1 hc with rfl | hc
    · rfl
    · rcases List.mem_cons.1 hc with rfl | hc
      · exact numChar_digit h.1
      · rcases mem_dropWhile_or (p := isDigit) hc with hc | hc
        · exact numChar_digit hc
        · exact isExp_chars h.2 c hc
  · exact isExp_chars h

theorem isUnsigned_chars {t : Bytes} (h : isUnsigned t = true) : ∀ c ∈ t, isNumChar c = true := by
  match t, h with
  | [], h => simp
  | d :: r, h =>
    rw [isUnsigned] at h
    intro c hc
    split at h
    · rename_i hd
      rcases List.mem_cons.1 hc with rfl | hc
      · rw [hd]; rfl
      · exact isFraction_chars h c hc
    · rw [Bool.and_eq_true] at h
      rcases List.mem_cons.1 hc with rfl | hc
      · exact numChar_digit h.1
      · rcases mem_dropWhile_or (p := isDigit) hc with hc | hc
        · exact numChar_digit hc
        · exact isFraction_chars h.2 c hc

theorem isNumber_chars {t : Bytes} (h : isNumber t = true) : ∀ c ∈ t, isNumChar c = true := by
  unfold isNumber at h
  split at h
  · intro c hc
    rcases List.mem_cons.1 hc with rfl | hc
    · rfl
    · exact isUnsigned_chars h c hc
  · exact isUnsigned_chars h

theorem isNumber_head {t : Bytes} (h : isNumber t = true) : ∃ c r, t = c :: r ∧ (c = 45 ∨ isDigit c = true) := by
  unfold isNumber at h
  split at h
  · exact ⟨_, _, rfl, .inl rfl⟩
  · match t, h with
    | c :: r, h =>
      refine ⟨c, r, rfl, .inr ?_⟩
      rw [isUnsigned] at h
      split at h
      · rename_i hc; rw [hc]; rfl
      · exact (Bool.and_eq_true _ _ ▸ h).1

theorem readNumber_append {t r : Bytes} (ht : isNumber t = true) (hr : Ends r) : readNumber (t ++ r) = some (t, r) := by
  obtain ⟨h1, h2⟩ := takeWhile_ends (isNumber_chars ht) hr
  simp only [readNumber, h1, h2, ht, if_true]

theorem dropWhile_nil {p : UInt8 → Bool} {l : Bytes} (h : ∀ c ∈ l, p c = true) : l.dropWhile p = [] := by
  induction l with
  | nil => rfl
  | cons c l ih =>
    rw [List.dropWhile_cons, if_pos (h c (by simp))]
    exact ih fun c hc => h c (by simp [hc])

theorem isNumber_decimal (n : Nat) : isNumber (decimal n) = true := by
  obtain ⟨h1, h2, h3, h4⟩ := decimal_spec n
  match hd : decimal n, h1 with
  | c :: r, _ =>
    rw [hd] at h2 h3 h4
    have hall : ∀ x ∈ c :: r, isDigit x = true := fun x hx => decide_eq_true (h2 x hx)
    have hdrop : r.dropWhile isDigit = [] := by
      exact dropWhile_nil fun x hx => hall x (by simp [hx])
    have hc := hall c (by simp)
    have hm : c ≠ 45 := by rintro rfl; exact absurd hc (by decide)
    have : isNumber (c :: r) = isUnsigned (c :: r) := by
      unfold isNumber; split
      · rename_i h; exact absurd (List.cons.inj h).1 hm
      · rfl
    rw [this, isUnsigned]
    split
    · rename_i h0
      have hr : r = [] := by
        cases r with
        | nil => rfl
        | cons x r => exact absurd (by rw [h0]; rfl) (h3 (by simp))
      rw [hr]; simp [isFraction, isExp]
    · rw [hc, hdrop]; simp [isFraction, isExp]

/-! Values -/

theorem skipWs_cons {c : UInt8} {r : Bytes} (h : ¬(c = 32 ∨ c = 9 ∨ c = 10 ∨ c = 13)) :
    skipWs (c :: r) = c :: r := by rw [skipWs, if_neg h]

theorem isNumber_first {t : Bytes} (h : isNumber t = true) :
    ∃ c r, t = c :: r ∧ (c = 45 ∨ c = 48 ∨ c = 49 ∨ c = 50 ∨ c = 51 ∨ c = 52 ∨ c = 53 ∨ c = 54 ∨ c = 55 ∨ c = 56 ∨
      c = 57) := by
  obtain ⟨c, r, ht, hc⟩ := isNumber_head h
  have : ∀ c : UInt8, (c = 45 ∨ isDigit c = true) → (c = 45 ∨ c = 48 ∨ c = 49 ∨ c = 50 ∨ c = 51 ∨ c = 52 ∨ c = 53 ∨
      c = 54 ∨ c = 55 ∨ c = 56 ∨ c = 57) := by apply u8_all; decide +kernel
  exact ⟨c, r, ht, this c hc⟩

theorem text_head {j : Json} (h : Grammatical j) :
    ∃ c r, j.text = c :: r ∧ ¬(c = 32 ∨ c = 9 ∨ c = 10 ∨ c = 13) ∧ c ≠ 93 := by
  cases j with
  | null => exact ⟨_, _, rfl, by decide, by decide⟩
  | bool b => cases b <;> exact ⟨_, _, rfl, by decide, by decide⟩
  | num t =>
    obtain ⟨c, r, ht, hc⟩ := isNumber_first (show isNumber t = true by simpa [Grammatical] using h)
    refine ⟨c, r, by rw [text, ht], ?_, ?_⟩ <;>
      (rcases hc with rfl | rfl | rfl | rfl | rfl | rfl | rfl | rfl | rfl | rfl | rfl <;> decide)
  | str s => exact ⟨_, _, by rw [text, quote], by decide, by decide⟩
  | arr l => exact ⟨_, _, by rw [text], by decide, by decide⟩
  | obj l => exact ⟨_, _, by rw [text], by decide, by decide⟩

theorem ends_cons {c : UInt8} {r : Bytes} (h : isNumChar c = false) : Ends (c :: r) := by
  intro d hd; simp at hd; exact hd ▸ h

theorem moreItems_ends (l : List Json) (r : Bytes) : Ends (moreItems l ++ r) := by
  cases l <;> (rw [moreItems]; exact ends_cons (by decide))

theorem moreFields_ends (l : List (Bytes × Json)) (r : Bytes) : Ends (moreFields l ++ r) := by
  cases l with
  | nil => rw [moreFields]; exact ends_cons (by decide)
  | cons p l => obtain ⟨k, j⟩ := p; rw [moreFields]; exact ends_cons (by decide)

theorem read_text (fuel : Nat) :
    (∀ (j : Json) (r : Bytes), Grammatical j → 2 * j.text.length + 1 ≤ fuel → Ends r →
      readValue fuel (j.text ++ r) = some (j, r)) ∧
    (∀ (j : Json) (l : List Json) (r : Bytes), Grammatical j → GrammaticalItems l → 2 * (j.text ++ moreItems l).length + 2 ≤ fuel →
      readItems fuel (j.text ++ moreItems l ++ r) = some (j :: l, r)) ∧
    (∀ (k : Bytes) (j : Json) (l : List (Bytes × Json)) (r : Bytes), Grammatical j → GrammaticalFields l →
      2 * (quote k ++ 58 :: (j.text ++ moreFields l)).length + 2 ≤ fuel →
      readFields fuel (quote k ++ 58 :: (j.text ++ moreFields l) ++ r) = some ((k, j) :: l, r)) := by
  induction fuel with
  | zero => exact ⟨fun _ _ _ h => absurd h (by omega), fun _ _ _ _ _ h => absurd h (by omega),
      fun _ _ _ _ _ _ h => absurd h (by omega)⟩
  | succ fuel ih =>
    obtain ⟨ihv, ihi, ihf⟩ := ih
    refine ⟨fun j r hj hf hr => ?_, fun j l r hj hl hf => ?_, fun k j l r hj hl hf => ?_⟩
    · match j, hj, hf with
      | .null, _, _ => rfl
      | .bool true, _, _ => rfl
      | .bool false, _, _ => rfl
      | .num t, hj, _ =>
        rw [text]
        rw [Grammatical] at hj
        have hn := readNumber_append hj hr
        obtain ⟨c, t', ht, hc⟩ := isNumber_first hj
        rw [ht] at hn ⊢
        rw [List.cons_append] at hn ⊢
        rcases hc with rfl | rfl | rfl | rfl | rfl | rfl | rfl | rfl | rfl | rfl | rfl <;>
          (unfold readValue; rw [skipWs_cons (by decide)]; simp [hn])
      | .str s, _, _ =>
        rw [text, quote_append]
        unfold readValue; rw [skipWs_cons (by decide)]
        simp only [readString_quote]
      | .arr [], _, _ => rfl
      | .arr (j :: l), hj, hf =>
        rw [Grammatical, GrammaticalItems] at hj
        rw [text, itemsText] at hf ⊢
        have h := ihi j l r hj.1 hj.2 (by simp at hf ⊢; omega)
        obtain ⟨c, t, ht, hc, hc'⟩ := text_head hj.1
        rw [ht] at h ⊢
        simp only [List.cons_append] at h ⊢
        unfold readValue; rw [skipWs_cons (by decide)]
        simp only [skipWs_cons hc]
        split
        · rename_i h; exact absurd (List.cons.inj h).1 hc'
        · rw [h]
      | .obj [], _, _ => rfl
      | .obj ((k, j) :: l), hj, hf =>
        rw [Grammatical, GrammaticalFields] at hj
        rw [text, fieldsText] at hf ⊢
        have h := ihf k j l r hj.1 hj.2 (by simp at hf ⊢; omega)
        rw [List.cons_append]
        unfold readValue; rw [skipWs_cons (by decide)]
        simp only
        rw [quote] at h ⊢
        simp only [List.cons_append] at h ⊢
        rw [skipWs_cons (by decide)]
        split
        · rename_i h; exact absurd (List.cons.inj h).1 (by decide)
        · rw [h]
    · have h1 := ihv j (moreItems l ++ r) hj (by simp at hf ⊢; omega) (moreItems_ends l r)
      rw [List.append_assoc]
      unfold readItems
      simp only [h1]
      match l, hl, hf with
      | [], _, _ => rfl
      | j' :: l', hl, hf =>
        rw [GrammaticalItems] at hl
        have h2 := ihi j' l' r hl.1 hl.2 (by rw [moreItems] at hf; simp at hf ⊢; omega)
        rw [moreItems, List.cons_append, skipWs_cons (by decide)]
        simp only [h2]
    · have h1 := ihv j (moreFields l ++ r) hj (by simp at hf ⊢; omega) (moreFields_ends l r)
      rw [List.append_assoc, quote_append, List.cons_append, List.append_assoc]
      unfold readFields
      rw [skipWs_cons (by decide)]
      simp only [readString_quote]
      rw [skipWs_cons (by decide)]
      simp only [h1]
      match l, hl, hf with
      | [], _, _ => rfl
      | (k', j') :: l', hl, hf =>
        rw [GrammaticalFields] at hl
        have h2 := ihf k' j' l' r hl.1 hl.2 (by rw [moreFields] at hf; simp at hf ⊢; omega)
        rw [moreFields, List.cons_append, skipWs_cons (by decide)]
        simp only [h2]

/-- What is written is read back. -/
theorem parse_text {j : Json} (h : Grammatical j) : parse j.text = some j := by
  have := (read_text (2 * j.text.length + 2)).1 j [] h (by omega) (by intro c hc; simp at hc)
  rw [List.append_nil] at this
  unfold parse
  rw [this]
  rfl

theorem readNumber_wf {t n r : Bytes} (h : readNumber t = some (n, r)) : isNumber n = true := by
  simp only [readNumber] at h
  split at h
  · next hn =>
    simp only [Option.some.injEq, Prod.mk.injEq] at h
    rw [← h.1]; exact hn
  · exact (nomatch h)

theorem read_wf (fuel : Nat) :
    (∀ (t : Bytes) (j : Json) (r : Bytes), readValue fuel t = some (j, r) → Grammatical j) ∧
    (∀ (t : Bytes) (l : List Json) (r : Bytes), readItems fuel t = some (l, r) → GrammaticalItems l) ∧
    (∀ (t : Bytes) (l : List (Bytes × Json)) (r : Bytes), readFields fuel t = some (l, r) → GrammaticalFields l) := by
  induction fuel with
  | zero => exact ⟨fun _ _ _ h => (by simp [readValue] at h), fun _ _ _ h => (by simp [readItems] at h),
      fun _ _ _ h => (by simp [readFields] at h)⟩
  | succ fuel ih =>
    obtain ⟨ihv, ihi, ihf⟩ := ih
    refine ⟨fun t j r h => ?_, fun t l r h => ?_, fun t l r h => ?_⟩
    · unfold readValue at h
      split at h
      · simp at h; rw [← h.1, Grammatical]; trivial
      · simp at h; rw [← h.1, Grammatical]; trivial
      · simp at h; rw [← h.1, Grammatical]; trivial
      · split at h
        · simp at h; rw [← h.1, Grammatical]; trivial
        · exact (nomatch h)
      · split at h
        · simp at h; rw [← h.1, Grammatical, GrammaticalItems]; trivial
        · split at h
          · next hl => simp at h; rw [← h.1, Grammatical]; exact ihi _ _ _ hl
          · exact (nomatch h)
      · split at h
        · simp at h; rw [← h.1, Grammatical, GrammaticalFields]; trivial
        · split at h
          · next hl => simp at h; rw [← h.1, Grammatical]; exact ihf _ _ _ hl
          · exact (nomatch h)
      · split at h
        · next hn => simp at h; rw [← h.1, Grammatical]; exact readNumber_wf hn
        · exact (nomatch h)
    · unfold readItems at h
      split at h
      · exact (nomatch h)
      · next hv =>
        split at h
        · simp at h; rw [← h.1, GrammaticalItems, GrammaticalItems]; exact ⟨ihv _ _ _ hv, trivial⟩
        · split at h
          · next hl => simp at h; rw [← h.1, GrammaticalItems]; exact ⟨ihv _ _ _ hv, ihi _ _ _ hl⟩
          · exact (nomatch h)
        · exact (nomatch h)
    · unfold readFields at h
      split at h
      · split at h
        · exact (nomatch h)
        · split at h
          · split at h
            · exact (nomatch h)
            · next hv =>
              split at h
              · simp at h; rw [← h.1, GrammaticalFields, GrammaticalFields]; exact ⟨ihv _ _ _ hv, trivial⟩
              · split at h
                · next hl => simp at h; rw [← h.1, GrammaticalFields]; exact ⟨ihv _ _ _ hv, ihf _ _ _ hl⟩
                · exact (nomatch h)
              · exact (nomatch h)
          · exact (nomatch h)
      · exact (nomatch h)

theorem parse_wf {t : Bytes} {j : Json} (h : parse t = some j) : Grammatical j := by
  unfold parse at h
  split at h
  · next hv =>
    split at h
    · simp at h; rw [← h]; exact (read_wf _).1 _ _ _ hv
    · exact (nomatch h)
  · exact (nomatch h)

/-! Fields and conditions -/

theorem truthy_iff (v : Json) : v.truthy = true ↔ ¬Falsy v := by
  unfold Falsy
  cases v with
  | null => simp [truthy]
  | bool b => cases b <;> simp [truthy]
  | num t => simp [truthy]
  | str s => cases s <;> simp [truthy]
  | arr l => simp [truthy]
  | obj l => simp [truthy]

theorem field_iff (j : Json) (k : Bytes) (v : Json) : j.field k = some v ↔ HasField j k v := by
  constructor
  · intro h
    cases j with
    | obj l =>
      simp only [field, Option.map_eq_some_iff] at h
      obtain ⟨⟨k', v'⟩, h, rfl⟩ := h
      obtain ⟨hk, as, bs, hl, hn⟩ := List.find?_eq_some_iff_append.mp h
      have hk : k' = k := by simpa using hk
      subst hk
      refine ⟨bs.reverse, as.reverse, ?_, ?_⟩
      · have : l = (as ++ (k', v') :: bs).reverse := by rw [← hl, List.reverse_reverse]
        rw [this]; simp
      · intro f hf
        have := hn f (by simpa using hf)
        simpa using this
    | _ => simp [field] at h
  · rintro ⟨before, after, rfl, hn⟩
    simp only [field, Option.map_eq_some_iff]
    refine ⟨(k, v), ?_, rfl⟩
    rw [List.find?_eq_some_iff_append]
    refine ⟨by simp, after.reverse, before.reverse, by simp, ?_⟩
    intro f hf
    have := hn f (by simpa using hf)
    simpa using this

theorem required_iff (j : Json) (k : Bytes) (v : Json) : j.required k = some v ↔ HasField j k v ∧ ¬Falsy v := by
  rw [← field_iff, ← truthy_iff]
  unfold required
  cases j.field k with
  | none => simp
  | some w =>
    simp only [Option.some.injEq]
    constructor
    · intro h
      split at h
      · next hw => simp at h; subst h; exact ⟨rfl, hw⟩
      · exact (nomatch h)
    · rintro ⟨rfl, h⟩; rw [if_pos h]

end Siwe.Json
