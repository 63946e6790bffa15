import Verif.Lemmas.Json
import Verif.Spec.JsonGrammar
/-
The JSON reader and JSON's grammar agree.
-/
namespace Siwe
open Spec
namespace Json

/-! White space -/

theorem skipWs_white {w t : Bytes} (h : White w) : skipWs (w ++ t) = skipWs t := by
  induction w with
  | nil => rfl
  | cons c w ih =>
    rw [List.cons_append, skipWs, if_pos (h c (by simp)), ih fun d hd => h d (by simp [hd])]

theorem skipWs_split (t : Bytes) : ∃ w, t = w ++ skipWs t ∧ White w := by
  induction t with
  | nil => exact ⟨[], rfl, fun c h => by simp at h⟩
  | cons c t ih =>
    rw [skipWs]
    split
    · next hc =>
      obtain ⟨w, hw, hW⟩ := ih
      refine ⟨c :: w, by rw [List.cons_append, ← hw], fun d hd => ?_⟩
      rcases List.mem_cons.1 hd with rfl | hd
      · exact hc
      · exact hW d hd
    · exact ⟨[], rfl, fun c h => by simp at h⟩

theorem white_nil : White [] := fun c h => by simp at h

theorem readValue_white {w t : Bytes} (h : White w) (fuel : Nat) : readValue fuel (w ++ t) = readValue fuel t := by
  cases fuel with
  | zero => unfold readValue; rfl
  | succ f => unfold readValue; rw [skipWs_white h]

theorem readItems_white {w t : Bytes} (h : White w) (fuel : Nat) : readItems fuel (w ++ t) = readItems fuel t := by
  cases fuel with
  | zero => unfold readItems; rfl
  | succ f => unfold readItems; rw [readValue_white h]

theorem readFields_white {w t : Bytes} (h : White w) (fuel : Nat) : readFields fuel (w ++ t) = readFields fuel t := by
  cases fuel with
  | zero => unfold readFields; rfl
  | succ f => unfold readFields; rw [skipWs_white h]

theorem readItems_skip (t : Bytes) (fuel : Nat) : readItems fuel (skipWs t) = readItems fuel t := by
  obtain ⟨w, hw, hW⟩ := skipWs_split t
  conv => rhs; rw [hw]
  rw [readItems_white hW]

theorem readFields_skip (t : Bytes) (fuel : Nat) : readFields fuel (skipWs t) = readFields fuel t := by
  obtain ⟨w, hw, hW⟩ := skipWs_split t
  conv => rhs; rw [hw]
  rw [readFields_white hW]

theorem white_head {w : Bytes} (h : White w) (c : UInt8) (r : Bytes) (hc : isNumChar c = false) : Ends (w ++ c :: r) := by
  cases w with
  | nil => exact ends_cons hc
  | cons d w =>
    refine ends_cons ?_
    rcases h d (by simp) with rfl | rfl | rfl | rfl <;> decide

/-! Numbers -/

theorem digits_iff (t : Bytes) : DigitRun t ↔ ∀ c ∈ t, isDigit c = true := by
  simp [DigitRun, isDigit]

theorem digits_all (t : Bytes) : t.all isDigit = true ↔ DigitRun t := by
  rw [digits_iff, List.all_eq_true]

theorem isExp_iff (t : Bytes) : isExp t = true ↔ ExpText t := by
  unfold ExpText
  match t with
  | [] => simp [isExp]
  | e :: r =>
    constructor
    · intro h
      unfold isExp at h
      simp only at h
      rw [Bool.and_eq_true] at h
      obtain ⟨he, h⟩ := h
      have he : ([e] : Bytes) = ascii "e" ∨ ([e] : Bytes) = ascii "E" := by
        simp only [Bool.or_eq_true, beq_iff_eq] at he
        rcases he with rfl | rfl
        · exact .inl (by decide)
        · exact .inr (by decide)
      match r, h with
      | s :: r', h =>
        simp only at h
        right
        split at h
        · next hs =>
          rw [Bool.and_eq_true, digits_all] at h
          refine ⟨[e], [s], r', rfl, he, .inr ?_, ?_, h.2⟩
          · rcases hs with rfl | rfl
            · exact .inr (by decide)
            · exact .inl (by decide)
          · rintro rfl; simp at h
        · rw [digits_all] at h
          exact ⟨[e], [], s :: r', rfl, he, .inl rfl, by simp, h⟩
    · rintro (h | ⟨e', sign, ds, h, he, hs, hn, hd⟩)
      · exact (nomatch h)
      · have : ∃ x, e' = [x] ∧ (x == 101 || x == 69) = true := by
          rcases he with rfl | rfl
          · exact ⟨101, by decide, by decide⟩
          · exact ⟨69, by decide, by decide⟩
        obtain ⟨x, rfl, hx⟩ := this
        simp only [List.cons_append, List.nil_append, List.cons.injEq] at h
        obtain ⟨rfl, rfl⟩ := h
        unfold isExp
        simp only
        rw [hx, Bool.true_and]
        rcases hs with rfl | rfl | rfl
        · match ds, hn, hd with
          | d :: ds, _, hd =>
            rw [List.nil_append]
            simp only
            have := hd d (by simp)
            rw [if_neg, digits_all]
            · exact hd
            · rintro (rfl | rfl) <;> exact absurd this (by decide)
        · rw [show (ascii "-" : Bytes) = [45] by decide, List.cons_append, List.nil_append]
          simp only
          rw [if_pos (by simp), Bool.and_eq_true, digits_all]
          exact ⟨by cases ds <;> simp_all, hd⟩
        · rw [show (ascii "+" : Bytes) = [43] by decide, List.cons_append, List.nil_append]
          simp only
          rw [if_pos (by simp), Bool.and_eq_true, digits_all]
          exact ⟨by cases ds <;> simp_all, hd⟩

theorem exp_head {t : Bytes} (h : ExpText t) : ∀ c ∈ t.head?, isDigit c = false ∧ c ≠ 46 := by
  rcases h with rfl | ⟨e, sign, ds, rfl, he, _⟩
  · simp
  · rcases he with rfl | rfl
    · intro c hc
      rw [show (ascii "e" : Bytes) = [101] by decide] at hc
      simp at hc; subst hc; decide
    · intro c hc
      rw [show (ascii "E" : Bytes) = [69] by decide] at hc
      simp at hc; subst hc; decide

theorem dropWhile_digits {ds r : Bytes} (h : DigitRun ds) (hr : ∀ c ∈ r.head?, isDigit c = false) :
    (ds ++ r).dropWhile isDigit = r := by
  rw [digits_iff] at h
  induction ds with
  | nil =>
    cases r with
    | nil => rfl
    | cons c r => rw [List.nil_append, List.dropWhile_cons, if_neg (by rw [hr c (by simp)]; decide)]
  | cons d ds ih =>
    rw [List.cons_append, List.dropWhile_cons, if_pos (h d (by simp))]
    exact ih fun c hc => h c (by simp [hc])

theorem digits_split (t : Bytes) : ∃ ds, t = ds ++ t.dropWhile isDigit ∧ DigitRun ds :=
  ⟨t.takeWhile isDigit, (List.takeWhile_append_dropWhile).symm, by
    rw [digits_iff]
    intro c hc
    induction t with
    | nil => simp at hc
    | cons d t ih =>
      rw [List.takeWhile_cons] at hc
      split at hc
      · next hd =>
        rcases List.mem_cons.1 hc with rfl | hc
        · exact hd
        · exact ih hc
      · simp at hc⟩

theorem isFraction_iff (t : Bytes) : isFraction t = true ↔ ∃ frac exp, t = frac ++ exp ∧ FracText frac ∧ ExpText exp := by
  constructor
  · intro h
    unfold isFraction at h
    split at h
    · next c r =>
      rw [Bool.and_eq_true, isExp_iff] at h
      obtain ⟨ds, hds, hD⟩ := digits_split r
      refine ⟨46 :: c :: ds, r.dropWhile isDigit, by rw [List.cons_append, List.cons_append, ← hds], .inr ⟨c :: ds, ?_, by simp, ?_⟩, h.2⟩
      · rw [show (ascii "." : Bytes) = [46] by decide]; rfl
      · rw [digits_iff] at hD ⊢
        intro d hd
        rcases List.mem_cons.1 hd with rfl | hd
        · exact h.1
        · exact hD d hd
    · exact ⟨[], t, rfl, .inl rfl, (isExp_iff t).1 h⟩
  · rintro ⟨frac, exp, rfl, hf | ⟨ds, rfl, hn, hd⟩, he⟩
    · subst hf
      rw [List.nil_append]
      unfold isFraction
      split
      · exact absurd rfl (exp_head he 46 (by simp)).2
      · exact (isExp_iff _).2 he
    · rw [show (ascii "." : Bytes) = [46] by decide]
      match ds, hn, hd with
      | c :: ds, _, hd =>
        show (isDigit c && isExp ((ds ++ exp).dropWhile isDigit)) = true
        have h' := (digits_iff _).1 hd
        rw [dropWhile_digits (fun d hd' => hd d (by simp [hd'])) fun c hc => (exp_head he c hc).1, (isExp_iff _).2 he,
          h' c (by simp)]
        rfl

theorem frac_exp_head {frac exp : Bytes} (hf : FracText frac) (he : ExpText exp) :
    ∀ c ∈ (frac ++ exp).head?, isDigit c = false := by
  rcases hf with rfl | ⟨ds, rfl, hn, hd⟩
  · exact fun c hc => (exp_head he c hc).1
  · intro c hc
    rw [show (ascii "." : Bytes) = [46] by decide] at hc
    simp at hc; subst hc; decide

theorem digit_nonzero : ∀ c : UInt8, isDigit c = true → c ≠ 48 → 49 ≤ c ∧ c ≤ 57 := by
  apply u8_all; decide +kernel

theorem nonzero_digit : ∀ c : UInt8, 49 ≤ c → c ≤ 57 → isDigit c = true ∧ c ≠ 48 ∧ c ≠ 45 := by
  apply u8_all; decide +kernel

theorem isUnsigned_iff (t : Bytes) : isUnsigned t = true ↔
    ∃ int frac exp, t = int ++ frac ++ exp ∧ IntText int ∧ FracText frac ∧ ExpText exp := by
  constructor
  · intro h
    match t, h with
    | c :: r, h =>
      rw [isUnsigned] at h
      split at h
      · next hc =>
        subst hc
        obtain ⟨frac, exp, hr, hf, he⟩ := (isFraction_iff _).1 h
        exact ⟨ascii "0", frac, exp, by rw [show (ascii "0" : Bytes) = [48] by decide, hr]; rfl, .inl rfl, hf, he⟩
      · next hc =>
        rw [Bool.and_eq_true] at h
        obtain ⟨frac, exp, hr, hf, he⟩ := (isFraction_iff _).1 h.2
        obtain ⟨ds, hds, hD⟩ := digits_split r
        have := digit_nonzero c h.1 hc
        refine ⟨c :: ds, frac, exp, ?_, .inr ⟨c, ds, rfl, this.1, this.2, hD⟩, hf, he⟩
        rw [List.cons_append, List.cons_append, List.append_assoc, ← hr, ← hds]
  · rintro ⟨int, frac, exp, rfl, hi | ⟨c, r, rfl, h1, h2, hr⟩, hf, he⟩
    · subst hi
      rw [show (ascii "0" : Bytes) = [48] by decide, List.cons_append, List.cons_append, isUnsigned, if_pos rfl]
      exact (isFraction_iff _).2 ⟨_, _, rfl, hf, he⟩
    · obtain ⟨d1, d2, _⟩ := nonzero_digit c h1 h2
      rw [List.cons_append, List.cons_append, isUnsigned, if_neg d2, List.append_assoc,
        dropWhile_digits hr (frac_exp_head hf he), d1, (isFraction_iff _).2 ⟨_, _, rfl, hf, he⟩]
      rfl

theorem isNumber_iff (t : Bytes) : isNumber t = true ↔ NumberText t := by
  constructor
  · intro h
    unfold isNumber at h
    split at h
    · next r =>
      obtain ⟨int, frac, exp, hr, hi, hf, he⟩ := (isUnsigned_iff _).1 h
      exact ⟨ascii "-", int, frac, exp, by rw [hr, show (ascii "-" : Bytes) = [45] by decide]; rfl, .inr rfl, hi, hf, he⟩
    · obtain ⟨int, frac, exp, hr, hi, hf, he⟩ := (isUnsigned_iff _).1 h
      exact ⟨[], int, frac, exp, hr, .inl rfl, hi, hf, he⟩
  · rintro ⟨sign, int, frac, exp, rfl, hs | hs, hi, hf, he⟩
    · subst hs
      have h := (isUnsigned_iff _).2 ⟨int, frac, exp, rfl, hi, hf, he⟩
      rw [List.nil_append]
      unfold isNumber
      split
      · next r hr =>
        rcases hi with rfl | ⟨c, r', rfl, h1, h2, _⟩
        · exact absurd (List.cons.inj hr).1 (by decide)
        · exact absurd (List.cons.inj hr).1 (nonzero_digit c h1 h2).2.2
      · exact h
    · subst hs
      rw [show (ascii "-" : Bytes) = [45] by decide]
      exact (isUnsigned_iff _).2 ⟨int, frac, exp, rfl, hi, hf, he⟩

/-! Strings -/

theorem hexVal_iff (c : UInt8) (v : Nat) : hexVal c = some v ↔ HexDigit c v := by
  unfold hexVal HexDigit
  simp only [UInt8.le_iff_toNat_le]
  have h0 : (48 : UInt8).toNat = 48 := rfl
  have h1 : (57 : UInt8).toNat = 57 := rfl
  have h2 : (97 : UInt8).toNat = 97 := rfl
  have h3 : (102 : UInt8).toNat = 102 := rfl
  have h4 : (65 : UInt8).toNat = 65 := rfl
  have h5 : (70 : UInt8).toNat = 70 := rfl
  rw [h0, h1, h2, h3, h4, h5]
  split
  · simp only [Option.some.injEq]; omega
  · split
    · simp only [Option.some.injEq]; omega
    · split
      · simp only [Option.some.injEq]; omega
      · constructor
        · exact (nomatch ·)
        · omega

theorem escape_iff (u : Bytes) (n : Nat) : UnicodeEscape u n ↔ ∃ a b c d, u = [92, 117, a, b, c, d] ∧ hex4 a b c d = some n := by
  constructor
  · rintro ⟨a, b, c, d, va, vb, vc, vd, rfl, ha, hb, hc, hd, rfl⟩
    rw [← hexVal_iff] at ha hb hc hd
    refine ⟨a, b, c, d, rfl, ?_⟩
    simp only [hex4, ha, hb, hc, hd, Option.some.injEq]
    omega
  · rintro ⟨a, b, c, d, rfl, h⟩
    unfold hex4 at h
    split at h
    · next va vb vc vd ha hb hc hd =>
      rw [hexVal_iff] at ha hb hc hd
      have := Option.some.inj h
      exact ⟨a, b, c, d, va, vb, vc, vd, rfl, ha, hb, hc, hd, by omega⟩
    · exact (nomatch h)

theorem hexVal_lt {c : UInt8} {v : Nat} (h : hexVal c = some v) : v < 16 := by
  rw [hexVal_iff] at h
  unfold HexDigit at h
  omega

theorem hex4_lt {a b c d : UInt8} {n : Nat} (h : hex4 a b c d = some n) : n < 65536 := by
  unfold hex4 at h
  split at h
  · next ha hb hc hd =>
    have := hexVal_lt ha
    have := hexVal_lt hb
    have := hexVal_lt hc
    have := hexVal_lt hd
    have := Option.some.inj h
    omega
  · exact (nomatch h)

theorem toNat_ofNat {n : Nat} (h : n < 256) : (UInt8.ofNat n).toNat = n := by
  rw [UInt8.toNat_ofNat']; omega

theorem utf8_spec {n : Nat} (h : n < 0x200000) : Utf8 n (utf8 n) := by
  unfold utf8 Utf8 Continues
  split
  · exact .inl ⟨_, rfl, toNat_ofNat (by omega), by omega⟩
  · split
    · refine .inr (.inl ⟨_, _, n / 64, n % 64, rfl, toNat_ofNat (by omega), by omega, ⟨toNat_ofNat (by omega), by omega⟩, by omega,
        by omega⟩)
    · split
      · exact .inr (.inr (.inl ⟨_, _, _, n / 4096, n / 64 % 64, n % 64, rfl, toNat_ofNat (by omega), by omega,
          ⟨toNat_ofNat (by omega), by omega⟩, ⟨toNat_ofNat (by omega), by omega⟩, by omega, by omega⟩))
      · exact .inr (.inr (.inr ⟨_, _, _, _, n / 262144, n / 4096 % 64, n / 64 % 64, n % 64, rfl, toNat_ofNat (by omega), by omega,
          ⟨toNat_ofNat (by omega), by omega⟩, ⟨toNat_ofNat (by omega), by omega⟩, ⟨toNat_ofNat (by omega), by omega⟩, by omega,
          by omega⟩))

theorem eq_ofNat {b : UInt8} {n : Nat} (h : b.toNat = n) : b = UInt8.ofNat n := by
  rw [← h, UInt8.ofNat_toNat]

theorem utf8_unique {n : Nat} {s : Bytes} (h : Utf8 n s) : s = utf8 n := by
  unfold Utf8 Continues at h
  unfold utf8
  rcases h with ⟨a, rfl, h1, h2⟩ | ⟨a, b, x, y, rfl, h1, h2, ⟨h3, h4⟩, h5, h6⟩ |
    ⟨a, b, c, x, y, z, rfl, h1, h2, ⟨h3, h4⟩, ⟨h5, h6⟩, h7, h8⟩ |
    ⟨a, b, c, d, x, y, z, w, rfl, h1, h2, ⟨h3, h4⟩, ⟨h5, h6⟩, ⟨h7, h8⟩, h9, h10⟩
  · rw [if_pos (by omega), eq_ofNat h1]
  · rw [if_neg (by omega), if_pos (by omega), eq_ofNat h1, eq_ofNat h3]
    congr 2 <;> first | (congr 2; omega) | omega
  · rw [if_neg (by omega), if_neg (by omega), if_pos (by omega), eq_ofNat h1, eq_ofNat h3, eq_ofNat h5]
    rw [show n / 4096 = x by omega, show n / 64 % 64 = y by omega, show n % 64 = z by omega]
  · rw [if_neg (by omega), if_neg (by omega), if_neg (by omega), eq_ofNat h1, eq_ofNat h3, eq_ofNat h5, eq_ofNat h7]
    rw [show n / 262144 = x by omega, show n / 4096 % 64 = y by omega, show n / 64 % 64 = z by omega, show n % 64 = w by omega]

/-- What the reader of strings takes for pieces. -/
inductive PiecesText : Bytes → List Piece → Prop where
  | none : PiecesText [] []
  | plain {c : UInt8} {t : Bytes} {ps : List Piece} : ¬c < 32 → c ≠ 34 → c ≠ 92 → PiecesText t ps → PiecesText (c :: t) (.byte c :: ps)
  | short {e b : UInt8} {t : Bytes} {ps : List Piece} : shortEscape e = some b → PiecesText t ps →
      PiecesText (92 :: e :: t) (.byte b :: ps)
  | unit {a b c d : UInt8} {n : Nat} {t : Bytes} {ps : List Piece} : hex4 a b c d = some n → PiecesText t ps →
      PiecesText (92 :: 117 :: a :: b :: c :: d :: t) (.unit n :: ps)

theorem shortEscape_u : shortEscape 117 = none := by decide

theorem readPieces_of {c : Bytes} {ps : List Piece} (h : PiecesText c ps) (r : Bytes) :
    readPieces (c ++ 34 :: r) = some (ps, r) := by
  induction h with
  | none => show readPieces (34 :: r) = _; unfold readPieces; simp
  | plain h1 h2 h3 _ ih =>
    rw [List.cons_append]
    unfold readPieces
    rw [if_neg h2, if_neg h3, if_neg h1, ih]
  | short h _ ih =>
    simp only [List.cons_append]
    unfold readPieces
    rw [if_neg (by decide), if_pos rfl]
    simp only
    rw [if_neg]
    · rw [h, ih]
    · rintro rfl; rw [shortEscape_u] at h; exact (nomatch h)
  | unit h _ ih =>
    simp only [List.cons_append]
    unfold readPieces
    rw [if_neg (by decide), if_pos rfl]
    simp only
    rw [if_pos trivial, h, ih]

theorem of_readPieces (n : Nat) : ∀ (t : Bytes) (ps : List Piece) (r : Bytes), t.length ≤ n → readPieces t = some (ps, r) →
    ∃ c, t = c ++ 34 :: r ∧ PiecesText c ps := by
  induction n with
  | zero =>
    intro t ps r hl h
    match t, hl with
    | [], _ => unfold readPieces at h; exact (nomatch h)
  | succ n ih =>
    intro t ps r hl h
    match t, hl with
    | [], _ => unfold readPieces at h; exact (nomatch h)
    | c :: t, hl =>
      rw [List.length_cons] at hl
      unfold readPieces at h
      split at h
      · next hc =>
        simp only [Option.some.injEq, Prod.mk.injEq] at h
        obtain ⟨rfl, rfl⟩ := h
        exact ⟨[], by rw [hc]; rfl, .none⟩
      · next hq =>
        split at h
        · next hc =>
          subst hc
          match t, hl with
          | [], _ => exact (nomatch h)
          | e :: t, hl =>
            rw [List.length_cons] at hl
            simp only at h
            split at h
            · next he =>
              subst he
              match t, hl with
              | h₁ :: h₂ :: h₃ :: h₄ :: t, hl =>
                simp only [List.length_cons] at hl
                simp only at h
                split at h
                · next k qs r' hk hr =>
                  simp only [Option.some.injEq, Prod.mk.injEq] at h
                  obtain ⟨rfl, rfl⟩ := h
                  obtain ⟨c, rfl, hc⟩ := ih t qs _ (by omega) hr
                  exact ⟨92 :: 117 :: h₁ :: h₂ :: h₃ :: h₄ :: c, rfl, .unit hk hc⟩
                · exact (nomatch h)
              | [], _ => exact (nomatch h)
              | [_], _ => exact (nomatch h)
              | [_, _], _ => exact (nomatch h)
              | [_, _, _], _ => exact (nomatch h)
            · split at h
              · next k qs r' hk hr =>
                simp only [Option.some.injEq, Prod.mk.injEq] at h
                obtain ⟨rfl, rfl⟩ := h
                obtain ⟨c, rfl, hc⟩ := ih t qs _ (by omega) hr
                exact ⟨92 :: e :: c, rfl, .short hk hc⟩
              · exact (nomatch h)
        · next hb =>
          split at h
          · exact (nomatch h)
          · next hp =>
            split at h
            · next qs r' hr =>
              simp only [Option.some.injEq, Prod.mk.injEq] at h
              obtain ⟨rfl, rfl⟩ := h
              obtain ⟨d, rfl, hd⟩ := ih t qs _ (by omega) hr
              exact ⟨c :: d, rfl, .plain hp hq hb hd⟩
            · exact (nomatch h)

theorem shortEscape_iff (e b : UInt8) : shortEscape e = some b ↔
    ∃ x v, (x, v) ∈ shortEscapes ∧ e = UInt8.ofNat x.toNat ∧ b = UInt8.ofNat v := by
  constructor
  · intro h
    unfold shortEscape at h
    repeat' split at h
    · next he => exact ⟨'"', 0x22, by decide, he, (Option.some.inj h).symm⟩
    · next he => exact ⟨'\\', 0x5C, by decide, he, (Option.some.inj h).symm⟩
    · next he => exact ⟨'/', 0x2F, by decide, he, (Option.some.inj h).symm⟩
    · next he => exact ⟨'b', 0x8, by decide, he, (Option.some.inj h).symm⟩
    · next he => exact ⟨'t', 0x9, by decide, he, (Option.some.inj h).symm⟩
    · next he => exact ⟨'n', 0xA, by decide, he, (Option.some.inj h).symm⟩
    · next he => exact ⟨'f', 0xC, by decide, he, (Option.some.inj h).symm⟩
    · next he => exact ⟨'r', 0xD, by decide, he, (Option.some.inj h).symm⟩
    · exact (nomatch h)
  · rintro ⟨x, v, hx, rfl, rfl⟩
    simp only [shortEscapes, List.mem_cons, Prod.mk.injEq, List.not_mem_nil, or_false] at hx
    rcases hx with ⟨rfl, rfl⟩ | ⟨rfl, rfl⟩ | ⟨rfl, rfl⟩ | ⟨rfl, rfl⟩ | ⟨rfl, rfl⟩ | ⟨rfl, rfl⟩ | ⟨rfl, rfl⟩ | ⟨rfl, rfl⟩ <;> decide

theorem pieces_escape {u t : Bytes} {n : Nat} {ps : List Piece} (hu : UnicodeEscape u n) (h : PiecesText (u ++ t) ps) :
    ∃ qs, ps = .unit n :: qs ∧ PiecesText t qs := by
  obtain ⟨a, b, c, d, rfl, hx⟩ := (escape_iff u n).1 hu
  simp only [List.cons_append, List.nil_append] at h
  cases h with
  | plain _ _ h _ => exact absurd rfl h
  | short h _ => rw [shortEscape_u] at h; exact (nomatch h)
  | unit h h' => rw [hx] at h; rw [← Option.some.inj h]; exact ⟨_, rfl, h'⟩

theorem escape_unique {u : Bytes} {n m : Nat} (h : UnicodeEscape u n) (h' : UnicodeEscape u m) : n = m := by
  obtain ⟨a, b, c, d, rfl, hx⟩ := (escape_iff u n).1 h
  obtain ⟨a', b', c', d', he, hy⟩ := (escape_iff _ m).1 h'
  simp only [List.cons.injEq, true_and, and_true] at he
  obtain ⟨rfl, rfl, rfl, rfl⟩ := he
  rw [hx] at hy
  exact Option.some.inj hy

theorem join_some (h : Nat) (ps : List Piece) (hps : ∀ m qs, ps = .unit m :: qs → ¬LowSurrogate m) :
    join (some h) ps = utf8 h ++ join none ps := by
  match ps, hps with
  | [], _ => simp [join]
  | .byte b :: ps, _ => simp [join]
  | .unit n :: ps, hps =>
    have hn := hps n ps rfl
    unfold LowSurrogate at hn
    have hn' : ¬(0xDC00 ≤ n ∧ n < 0xE000) := by omega
    by_cases hh : 0xD800 ≤ n ∧ n < 0xDC00
    · simp only [join, if_neg hn', if_pos hh]
    · simp only [join, if_neg hn', if_neg hh, List.append_assoc]

theorem chars_of_pieces (k : Nat) : ∀ (c : Bytes) (ps : List Piece), ps.length ≤ k → PiecesText c ps → CharsText c (join none ps) := by
  induction k with
  | zero =>
    intro c ps hl h
    match ps, hl with
    | [], _ => cases h; exact .none
  | succ k ih =>
    intro c ps hl h
    cases h with
    | none => exact .none
    | plain h1 h2 h3 h =>
      rw [List.length_cons] at hl
      exact .plain (by simpa using h1) h2 h3 (ih _ _ (by omega) h)
    | short h1 h =>
      rw [List.length_cons] at hl
      obtain ⟨x, v, hx, rfl, rfl⟩ := (shortEscape_iff _ _).1 h1
      exact .short hx (ih _ _ (by omega) h)
    | @unit a b c d n t ps hn h =>
      rw [List.length_cons] at hl
      have hu := (escape_iff [92, 117, a, b, c, d] n).2 ⟨a, b, c, d, rfl, hn⟩
      have hlt := hex4_lt hn
      rw [join]
      split
      · next hh =>
        by_cases hlow : ∃ m qs, ps = .unit m :: qs ∧ LowSurrogate m
        · obtain ⟨m, qs, rfl, hm⟩ := hlow
          rw [List.length_cons] at hl
          cases h with
          | @unit a' b' c' d' _ t' _ hm' h' =>
            have hu' := (escape_iff [92, 117, a', b', c', d'] m).2 ⟨a', b', c', d', rfl, hm'⟩
            have hlt' := hex4_lt hm'
            unfold LowSurrogate at hm
            rw [join, if_pos (by omega), Nat.mul_comm 1024]
            exact CharsText.pair hu (by unfold HighSurrogate; omega) hu' hm (utf8_spec (by omega)) (ih _ _ (by omega) h')
        · rw [join_some]
          · refine CharsText.single hu ?_ (utf8_spec (by omega)) (ih _ _ (by omega) h)
            rintro ⟨_, u', n', t', rfl, hu', hl'⟩
            obtain ⟨qs, rfl, _⟩ := pieces_escape hu' h
            exact hlow ⟨_, _, rfl, hl'⟩
          · exact fun m qs hm hl => hlow ⟨m, qs, hm, hl⟩
      · next hh =>
        refine CharsText.single hu ?_ (utf8_spec (by omega)) (ih _ _ (by omega) h)
        rintro ⟨hh', _⟩
        unfold HighSurrogate at hh'
        omega

theorem pieces_of_chars {c s : Bytes} (h : CharsText c s) : ∃ ps, PiecesText c ps ∧ join none ps = s := by
  induction h with
  | none => exact ⟨[], .none, rfl⟩
  | plain h1 h2 h3 _ ih =>
    obtain ⟨ps, hp, rfl⟩ := ih
    exact ⟨_, .plain (by simpa using h1) h2 h3 hp, rfl⟩
  | short h1 _ ih =>
    obtain ⟨ps, hp, rfl⟩ := ih
    exact ⟨_, .short ((shortEscape_iff _ _).2 ⟨_, _, h1, rfl, rfl⟩) hp, rfl⟩
  | @single u t s x n hu hs hx _ ih =>
    obtain ⟨ps, hp, rfl⟩ := ih
    obtain ⟨a, b, c, d, rfl, hn⟩ := (escape_iff _ _).1 hu
    refine ⟨.unit n :: ps, .unit hn hp, ?_⟩
    rw [utf8_unique hx, join]
    split
    · next hh =>
      apply join_some
      rintro m qs rfl hm
      apply hs
      refine ⟨by unfold HighSurrogate; omega, ?_⟩
      cases hp with
      | @unit a' b' c' d' _ t' _ hm' h' =>
        exact ⟨[92, 117, a', b', c', d'], m, t', rfl, (escape_iff _ _).2 ⟨a', b', c', d', rfl, hm'⟩, hm⟩
    · rfl
  | @pair u u' t s x n n' hu hh hu' hl hx _ ih =>
    obtain ⟨ps, hp, rfl⟩ := ih
    obtain ⟨a, b, c, d, rfl, hn⟩ := (escape_iff _ _).1 hu
    obtain ⟨a', b', c', d', rfl, hn'⟩ := (escape_iff _ _).1 hu'
    refine ⟨.unit n :: .unit n' :: ps, .unit hn (.unit hn' hp), ?_⟩
    unfold HighSurrogate at hh
    unfold LowSurrogate at hl
    rw [utf8_unique hx, join, if_pos (by omega), join, if_pos (by omega), Nat.mul_comm 1024]

/-- The reader of strings reads exactly the strings of the grammar. -/
theorem readString_iff (t s r : Bytes) : readString t = some (s, r) ↔ ∃ c, t = c ++ 34 :: r ∧ CharsText c s := by
  constructor
  · intro h
    unfold readString at h
    split at h
    · next ps rest hp =>
      simp only [Option.some.injEq, Prod.mk.injEq] at h
      obtain ⟨rfl, rfl⟩ := h
      obtain ⟨c, hc, hP⟩ := of_readPieces _ _ _ _ (Nat.le_refl _) hp
      exact ⟨c, hc, chars_of_pieces _ _ _ (Nat.le_refl _) hP⟩
    · exact (nomatch h)
  · rintro ⟨c, rfl, h⟩
    obtain ⟨ps, hp, rfl⟩ := pieces_of_chars h
    unfold readString
    rw [readPieces_of hp]

/-! Values -/

theorem value_head {t : Bytes} {j : Json} (h : ValueText t j) :
    ∃ c r, t = c :: r ∧ ¬(c = 32 ∨ c = 9 ∨ c = 10 ∨ c = 13) ∧ c ≠ 93 := by
  cases h with
  | null => exact ⟨_, _, rfl, by decide, by decide⟩
  | true => exact ⟨_, _, rfl, by decide, by decide⟩
  | false => exact ⟨_, _, rfl, by decide, by decide⟩
  | number h =>
    obtain ⟨c, r, ht, hc⟩ := isNumber_first ((isNumber_iff _).2 h)
    refine ⟨c, r, ht, ?_, ?_⟩ <;>
      (rcases hc with rfl | rfl | rfl | rfl | rfl | rfl | rfl | rfl | rfl | rfl | rfl <;> decide)
  | string h => obtain ⟨c, rfl, _⟩ := h; exact ⟨_, _, rfl, by decide, by decide⟩
  | emptyArray => exact ⟨_, _, rfl, by decide, by decide⟩
  | array => exact ⟨_, _, rfl, by decide, by decide⟩
  | emptyObject => exact ⟨_, _, rfl, by decide, by decide⟩
  | object => exact ⟨_, _, rfl, by decide, by decide⟩

theorem items_head {t : Bytes} {l : List Json} (h : ItemsText t l) (r : Bytes) : ∃ c r', skipWs (t ++ r) = c :: r' ∧ c ≠ 93 := by
  cases h with
  | last hw hv _ =>
    obtain ⟨c, r', rfl, h1, h2⟩ := value_head hv
    simp only [List.append_assoc]
    rw [skipWs_white hw, List.cons_append, skipWs_cons h1]
    exact ⟨_, _, rfl, h2⟩
  | more hw hv _ _ =>
    obtain ⟨c, r', rfl, h1, h2⟩ := value_head hv
    simp only [List.append_assoc]
    rw [skipWs_white hw, List.cons_append, skipWs_cons h1]
    exact ⟨_, _, rfl, h2⟩

theorem quote_mark : ascii "\"" = [34] := by decide

theorem members_head {t : Bytes} {l : List (Bytes × Json)} (h : MembersText t l) (r : Bytes) :
    ∃ r', skipWs (t ++ r) = 34 :: r' := by
  cases h with
  | last hw hk _ _ _ _ =>
    obtain ⟨c, rfl, _⟩ := hk
    simp only [List.append_assoc]
    rw [skipWs_white hw, quote_mark, List.cons_append, skipWs_cons (by decide)]
    exact ⟨_, rfl⟩
  | more hw hk _ _ _ _ _ =>
    obtain ⟨c, rfl, _⟩ := hk
    simp only [List.append_assoc]
    rw [skipWs_white hw, quote_mark, List.cons_append, skipWs_cons (by decide)]
    exact ⟨_, rfl⟩

theorem member_reads {fuel : Nat} {w k w' x t y name r : Bytes} {j : Json} (hw : White w) (hk : StringText k name) (hw' : White w')
    (hx : White x) (hv : readValue fuel (t ++ (y ++ r)) = some (j, y ++ r)) (hy : White y) :
    readFields (fuel + 1) (w ++ k ++ w' ++ ascii ":" ++ x ++ t ++ y ++ r) =
      match skipWs r with
      | 125 :: r' => some ([(name, j)], r')
      | 44 :: r' =>
        match readFields fuel r' with
        | some (l, r'') => some ((name, j) :: l, r'')
        | none => none
      | _ => none := by
  obtain ⟨c, rfl, hc⟩ := hk
  simp only [List.append_assoc]
  conv => lhs; unfold readFields
  rw [skipWs_white hw, quote_mark, List.cons_append, List.nil_append, skipWs_cons (by decide)]
  simp only
  rw [List.cons_append, List.nil_append, (readString_iff _ _ _).2 ⟨c, rfl, hc⟩]
  simp only
  rw [skipWs_white hw', show (ascii ":" : Bytes) = [58] by decide, List.cons_append, List.nil_append, skipWs_cons (by decide)]
  simp only
  rw [readValue_white hx, hv]
  simp only
  rw [skipWs_white hy]
  rfl

theorem item_reads {fuel : Nat} {w t y r : Bytes} {j : Json} (hw : White w) (hv : readValue fuel (t ++ (y ++ r)) = some (j, y ++ r))
    (hy : White y) : readItems (fuel + 1) (w ++ t ++ y ++ r) =
      match skipWs r with
      | 93 :: r' => some ([j], r')
      | 44 :: r' =>
        match readItems fuel r' with
        | some (l, r'') => some (j :: l, r'')
        | none => none
      | _ => none := by
  simp only [List.append_assoc]
  conv => lhs; unfold readItems
  rw [readValue_white hw, hv]
  simp only
  rw [skipWs_white hy]
  rfl

theorem value_length {t : Bytes} {j : Json} (h : ValueText t j) : 1 ≤ t.length := by
  obtain ⟨c, r, rfl, _⟩ := value_head h
  simp

theorem comma : ascii "," = [44] := by decide

/-- Every text of the grammar is read, for what it stands for. -/
theorem reads (fuel : Nat) :
    (∀ (t : Bytes) (j : Json) (r : Bytes), ValueText t j → 2 * t.length ≤ fuel → Ends r → readValue fuel (t ++ r) = some (j, r)) ∧
    (∀ (t : Bytes) (l : List Json) (r : Bytes), ItemsText t l → 2 * t.length + 1 ≤ fuel → readItems fuel (t ++ 93 :: r) = some (l, r)) ∧
    (∀ (t : Bytes) (l : List (Bytes × Json)) (r : Bytes), MembersText t l → 2 * t.length + 1 ≤ fuel →
      readFields fuel (t ++ 125 :: r) = some (l, r)) := by
  induction fuel with
  | zero =>
    exact ⟨fun _ _ _ h hf => absurd (value_length h) (by omega), fun _ _ _ _ h => absurd h (by omega),
      fun _ _ _ _ h => absurd h (by omega)⟩
  | succ fuel ih =>
    obtain ⟨ihv, ihi, ihf⟩ := ih
    refine ⟨fun t j r h hf hr => ?_, fun t l r h hf => ?_, fun t l r h hf => ?_⟩
    · cases h with
      | null => rfl
      | true => rfl
      | false => rfl
      | number h =>
        rw [← isNumber_iff] at h
        have hn := readNumber_append h hr
        obtain ⟨c, t', ht, hc⟩ := isNumber_first h
        rw [ht, List.cons_append] at hn
        subst ht
        rw [List.cons_append]
        rcases hc with rfl | rfl | rfl | rfl | rfl | rfl | rfl | rfl | rfl | rfl | rfl <;>
          (unfold readValue; rw [skipWs_cons (by decide)]; simp [hn])
      | string h =>
        obtain ⟨c, rfl, hc⟩ := h
        simp only [quote_mark, List.append_assoc, List.cons_append, List.nil_append]
        unfold readValue
        rw [skipWs_cons (by decide)]
        simp only
        rw [(readString_iff _ _ _).2 ⟨c, rfl, hc⟩]
      | emptyArray hw =>
        rw [show ascii "[" = ([91] : Bytes) by decide, show ascii "]" = ([93] : Bytes) by decide]
        simp only [List.append_assoc, List.cons_append, List.nil_append]
        unfold readValue
        rw [skipWs_cons (by decide)]
        simp only
        rw [skipWs_white hw, skipWs_cons (by decide)]
        rfl
      | @array t l h =>
        rw [show ascii "[" = ([91] : Bytes) by decide, show ascii "]" = ([93] : Bytes) by decide] at hf ⊢
        simp only [List.append_assoc, List.cons_append, List.nil_append, List.length_cons, List.length_append, List.length_nil] at hf ⊢
        have h1 := ihi t l r h (by omega)
        obtain ⟨c, r', hc, hn⟩ := items_head h (93 :: r)
        rw [← readItems_skip, hc] at h1
        unfold readValue
        rw [skipWs_cons (by decide)]
        simp only
        rw [hc]
        split
        · next h => exact absurd (List.cons.inj h).1 hn
        · rw [h1]
      | emptyObject hw =>
        rw [show ascii "{" = ([123] : Bytes) by decide, show ascii "}" = ([125] : Bytes) by decide]
        simp only [List.append_assoc, List.cons_append, List.nil_append]
        unfold readValue
        rw [skipWs_cons (by decide)]
        simp only
        rw [skipWs_white hw, skipWs_cons (by decide)]
        rfl
      | @object t l h =>
        rw [show ascii "{" = ([123] : Bytes) by decide, show ascii "}" = ([125] : Bytes) by decide] at hf ⊢
        simp only [List.append_assoc, List.cons_append, List.nil_append, List.length_cons, List.length_append, List.length_nil] at hf ⊢
        have h1 := ihf t l r h (by omega)
        obtain ⟨r', hc⟩ := members_head h (125 :: r)
        rw [← readFields_skip, hc] at h1
        unfold readValue
        rw [skipWs_cons (by decide)]
        simp only
        rw [hc]
        split
        · next h => exact absurd (List.cons.inj h).1 (by decide)
        · rw [h1]
    · cases h with
      | last hw hv hw' =>
        simp only [List.length_append] at hf
        rw [item_reads hw (ihv _ _ _ hv (by omega) (white_head hw' 93 r (by decide))) hw', skipWs_cons (by decide)]
        rfl
      | @more w t w' u j l hw hv hw' hu =>
        simp only [List.length_append, comma, List.length_cons] at hf
        have := value_length hv
        rw [comma]
        rw [show w ++ t ++ w' ++ [44] ++ u ++ 93 :: r = w ++ t ++ w' ++ 44 :: (u ++ 93 :: r) by simp]
        rw [item_reads hw (ihv _ _ _ hv (by omega) (white_head hw' 44 _ (by decide))) hw', skipWs_cons (by decide)]
        simp only
        rw [ihi u l r hu (by omega)]
    · cases h with
      | last hw hk hw' hx hv hy =>
        simp only [List.length_append] at hf
        rw [member_reads hw hk hw' hx (ihv _ _ _ hv (by omega) (white_head hy 125 r (by decide))) hy, skipWs_cons (by decide)]
        rfl
      | @more w k w' x t y u name j l hw hk hw' hx hv hy hu =>
        simp only [List.length_append, comma, List.length_cons] at hf
        have := value_length hv
        rw [comma]
        rw [show w ++ k ++ w' ++ ascii ":" ++ x ++ t ++ y ++ [44] ++ u ++ 125 :: r =
          w ++ k ++ w' ++ ascii ":" ++ x ++ t ++ y ++ 44 :: (u ++ 125 :: r) by simp]
        rw [member_reads hw hk hw' hx (ihv _ _ _ hv (by omega) (white_head hy 44 _ (by decide))) hy, skipWs_cons (by decide)]
        simp only
        rw [ihf u l r hu (by omega)]

theorem skips {t u : Bytes} (h : skipWs t = u) : ∃ w, t = w ++ u ∧ White w := by
  obtain ⟨w, hw, hW⟩ := skipWs_split t
  exact ⟨w, by rw [← h]; exact hw, hW⟩

theorem readNumber_split {t n r : Bytes} (h : readNumber t = some (n, r)) : t = n ++ r := by
  simp only [readNumber] at h
  split at h
  · simp only [Option.some.injEq, Prod.mk.injEq] at h
    rw [← h.1, ← h.2, List.takeWhile_append_dropWhile]
  · exact (nomatch h)

/-- What is read is a text of the grammar. -/
theorem read (fuel : Nat) :
    (∀ (t : Bytes) (j : Json) (r : Bytes), readValue fuel t = some (j, r) → ∃ w v, t = w ++ v ++ r ∧ White w ∧ ValueText v j) ∧
    (∀ (t : Bytes) (l : List Json) (r : Bytes), readItems fuel t = some (l, r) → ∃ v, t = v ++ 93 :: r ∧ ItemsText v l) ∧
    (∀ (t : Bytes) (l : List (Bytes × Json)) (r : Bytes), readFields fuel t = some (l, r) →
      ∃ v, t = v ++ 125 :: r ∧ MembersText v l) := by
  induction fuel with
  | zero => exact ⟨fun _ _ _ h => (by simp [readValue] at h), fun _ _ _ h => (by simp [readItems] at h),
      fun _ _ _ h => (by simp [readFields] at h)⟩
  | succ fuel ih =>
    obtain ⟨ihv, ihi, ihf⟩ := ih
    refine ⟨fun t j r h => ?_, fun t l r h => ?_, fun t l r h => ?_⟩
    · unfold readValue at h
      split at h
      · next hs =>
        obtain ⟨w, rfl, hW⟩ := skips hs
        simp only [Option.some.injEq, Prod.mk.injEq] at h
        obtain ⟨rfl, rfl⟩ := h
        exact ⟨w, ascii "null", by rw [List.append_assoc]; rfl, hW, .null⟩
      · next hs =>
        obtain ⟨w, rfl, hW⟩ := skips hs
        simp only [Option.some.injEq, Prod.mk.injEq] at h
        obtain ⟨rfl, rfl⟩ := h
        exact ⟨w, ascii "true", by rw [List.append_assoc]; rfl, hW, .true⟩
      · next hs =>
        obtain ⟨w, rfl, hW⟩ := skips hs
        simp only [Option.some.injEq, Prod.mk.injEq] at h
        obtain ⟨rfl, rfl⟩ := h
        exact ⟨w, ascii "false", by rw [List.append_assoc]; rfl, hW, .false⟩
      · next hs =>
        obtain ⟨w, rfl, hW⟩ := skips hs
        split at h
        · next s r' hr =>
          simp only [Option.some.injEq, Prod.mk.injEq] at h
          obtain ⟨rfl, rfl⟩ := h
          obtain ⟨c, rfl, hc⟩ := (readString_iff _ _ _).1 hr
          exact ⟨w, ascii "\"" ++ c ++ ascii "\"", by simp [quote_mark], hW, .string ⟨c, rfl, hc⟩⟩
        · exact (nomatch h)
      · next hs =>
        obtain ⟨w, rfl, hW⟩ := skips hs
        split at h
        · next hs' =>
          obtain ⟨w', rfl, hW'⟩ := skips hs'
          simp only [Option.some.injEq, Prod.mk.injEq] at h
          obtain ⟨rfl, rfl⟩ := h
          exact ⟨w, ascii "[" ++ w' ++ ascii "]", by
            rw [show ascii "[" = ([91] : Bytes) by decide, show ascii "]" = ([93] : Bytes) by decide]; simp, hW, .emptyArray hW'⟩
        · split at h
          · next hi =>
            simp only [Option.some.injEq, Prod.mk.injEq] at h
            obtain ⟨rfl, rfl⟩ := h
            rw [readItems_skip] at hi
            obtain ⟨v, rfl, hv⟩ := ihi _ _ _ hi
            exact ⟨w, ascii "[" ++ v ++ ascii "]", by
              rw [show ascii "[" = ([91] : Bytes) by decide, show ascii "]" = ([93] : Bytes) by decide]; simp, hW, .array hv⟩
          · exact (nomatch h)
      · next hs =>
        obtain ⟨w, rfl, hW⟩ := skips hs
        split at h
        · next hs' =>
          obtain ⟨w', rfl, hW'⟩ := skips hs'
          simp only [Option.some.injEq, Prod.mk.injEq] at h
          obtain ⟨rfl, rfl⟩ := h
          exact ⟨w, ascii "{" ++ w' ++ ascii "}", by
            rw [show ascii "{" = ([123] : Bytes) by decide, show ascii "}" = ([125] : Bytes) by decide]; simp, hW, .emptyObject hW'⟩
        · split at h
          · next hi =>
            simp only [Option.some.injEq, Prod.mk.injEq] at h
            obtain ⟨rfl, rfl⟩ := h
            rw [readFields_skip] at hi
            obtain ⟨v, rfl, hv⟩ := ihf _ _ _ hi
            exact ⟨w, ascii "{" ++ v ++ ascii "}", by
              rw [show ascii "{" = ([123] : Bytes) by decide, show ascii "}" = ([125] : Bytes) by decide]; simp, hW, .object hv⟩
          · exact (nomatch h)
      · obtain ⟨w, hw, hW⟩ := skipWs_split t
        split at h
        · next n r' hn =>
          simp only [Option.some.injEq, Prod.mk.injEq] at h
          obtain ⟨rfl, rfl⟩ := h
          refine ⟨w, n, ?_, hW, .number ((isNumber_iff _).1 (readNumber_wf hn))⟩
          rw [List.append_assoc, ← readNumber_split hn]
          exact hw
        · exact (nomatch h)
    · unfold readItems at h
      split at h
      · exact (nomatch h)
      · next hv =>
        obtain ⟨w, v, rfl, hW, hV⟩ := ihv _ _ _ hv
        split at h
        · next hs =>
          obtain ⟨w', rfl, hW'⟩ := skips hs
          simp only [Option.some.injEq, Prod.mk.injEq] at h
          obtain ⟨rfl, rfl⟩ := h
          exact ⟨w ++ v ++ w', by simp, .last hW hV hW'⟩
        · next hs =>
          obtain ⟨w', rfl, hW'⟩ := skips hs
          split at h
          · next hl =>
            simp only [Option.some.injEq, Prod.mk.injEq] at h
            obtain ⟨rfl, rfl⟩ := h
            obtain ⟨u, rfl, hu⟩ := ihi _ _ _ hl
            exact ⟨w ++ v ++ w' ++ ascii "," ++ u, by simp [comma], .more hW hV hW' hu⟩
          · exact (nomatch h)
        · exact (nomatch h)
    · unfold readFields at h
      split at h
      · next hs =>
        obtain ⟨w, rfl, hW⟩ := skips hs
        split at h
        · exact (nomatch h)
        · next hr =>
          obtain ⟨c, rfl, hc⟩ := (readString_iff _ _ _).1 hr
          split at h
          · next hs' =>
            obtain ⟨w', rfl, hW'⟩ := skips hs'
            split at h
            · exact (nomatch h)
            · next hv =>
              obtain ⟨x, v, rfl, hX, hV⟩ := ihv _ _ _ hv
              split at h
              · next hs'' =>
                obtain ⟨y, rfl, hY⟩ := skips hs''
                simp only [Option.some.injEq, Prod.mk.injEq] at h
                obtain ⟨rfl, rfl⟩ := h
                exact ⟨w ++ (ascii "\"" ++ c ++ ascii "\"") ++ w' ++ ascii ":" ++ x ++ v ++ y, by
                  simp [quote_mark, show ascii ":" = ([58] : Bytes) by decide], .last hW ⟨c, rfl, hc⟩ hW' hX hV hY⟩
              · next hs'' =>
                obtain ⟨y, rfl, hY⟩ := skips hs''
                split at h
                · next hl =>
                  simp only [Option.some.injEq, Prod.mk.injEq] at h
                  obtain ⟨rfl, rfl⟩ := h
                  obtain ⟨u, rfl, hu⟩ := ihf _ _ _ hl
                  exact ⟨w ++ (ascii "\"" ++ c ++ ascii "\"") ++ w' ++ ascii ":" ++ x ++ v ++ y ++ ascii "," ++ u, by
                    simp [quote_mark, comma, show ascii ":" = ([58] : Bytes) by decide], .more hW ⟨c, rfl, hc⟩ hW' hX hV hY hu⟩
                · exact (nomatch h)
              · exact (nomatch h)
          · exact (nomatch h)
      · exact (nomatch h)

/-- The reader reads exactly the texts of the grammar, for what they stand for. -/
theorem parse_iff (t : Bytes) (j : Json) : parse t = some j ↔ JsonText t j := by
  constructor
  · intro h
    unfold parse at h
    split at h
    · next j' r hv =>
      split at h
      · next hs =>
        obtain ⟨w', hr, hW'⟩ := skips hs
        rw [List.append_nil] at hr
        subst hr
        obtain ⟨w, v, hv, hW, hV⟩ := (read _).1 _ _ _ hv
        exact ⟨w, v, r, hv, hW, Option.some.inj h ▸ hV, hW'⟩
      · exact (nomatch h)
    · exact (nomatch h)
  · rintro ⟨w, v, w', rfl, hW, hV, hW'⟩
    have he : Ends w' := by
      cases w' with
      | nil => intro c hc; simp at hc
      | cons c w' =>
        refine ends_cons ?_
        rcases hW' c (by simp) with rfl | rfl | rfl | rfl <;> decide
    have h1 := (reads (2 * (w ++ v ++ w').length + 2)).1 v j w' hV (by simp; omega) he
    have hs : skipWs w' = [] := by
      have := skipWs_white (t := []) hW'
      rw [List.append_nil] at this
      rw [this]; rfl
    unfold parse
    rw [List.append_assoc w v w', readValue_white hW, ← List.append_assoc, h1]
    simp only
    rw [if_pos hs]

/-- A text stands for one value. -/
theorem text_unique {t : Bytes} {j j' : Json} (h : JsonText t j) (h' : JsonText t j') : j = j' := by
  rw [← parse_iff] at h h'
  exact Option.some.inj (h.symm.trans h')

theorem writable_iff (j : Json) : (∃ t, JsonText t j) ↔ Grammatical j :=
  ⟨fun ⟨_, h⟩ => parse_wf ((parse_iff _ _).2 h), fun h => ⟨_, (parse_iff _ _).1 (parse_text h)⟩⟩

/-- A way to see what a text stands for. -/
theorem text_of {t : Bytes} {j : Json} (hj : Grammatical j) (h : (parse t).map text = some j.text) : JsonText t j := by
  rw [← parse_iff]
  cases hp : parse t with
  | none => rw [hp] at h; exact (nomatch h)
  | some j' =>
    rw [hp] at h
    have h1 := parse_text (parse_wf hp)
    rw [Option.some.inj h, parse_text hj] at h1
    exact h1.symm

end Json
end Siwe
