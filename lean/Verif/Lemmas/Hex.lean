import Verif.Model.Eth
import Verif.Spec.Eth
/- Helper lemmas about bytes, hex and EIP-55 conversion. -/
namespace Siwe
open Spec

theorem u8_all {p : UInt8 → Prop} (h : ∀ n : Fin 256, p (UInt8.ofNat n.val)) (x : UInt8) : p x := by
  have := h ⟨x.toNat, x.toNat_lt⟩
  simpa using this

/-- value of a hex digit as a byte -/
def nib (c : UInt8) : UInt8 :=
  if 65 ≤ c ∧ c ≤ 70 then c - 65 + 10 else if 97 ≤ c ∧ c ≤ 102 then c - 97 + 10 else c - 48

theorem hexVal_hex {c : UInt8} {i : Nat} (h : isHexDigit c = true) : hexVal c i = .ok (nib c) := by
  unfold hexVal nib
  simp only [isHexDigit, Bool.or_eq_true, Bool.and_eq_true, decide_eq_true_eq] at h
  split
  · rfl
  · split
    · rfl
    · rw [if_pos]
      rcases h with (h | h) | h
      · exact h
      · contradiction
      · contradiction

theorem hexVal_not {c : UInt8} {i : Nat} (h : isHexDigit c = false) :
    hexVal c i = .err (.invalidHexCharacter c i) := by
  unfold hexVal
  simp only [isHexDigit, Bool.or_eq_false_iff, Bool.and_eq_false_iff, decide_eq_false_iff_not] at h
  rw [if_neg (by grind), if_neg (by grind), if_neg (by grind)]

theorem nib_toNat (c : UInt8) : isHexDigit c = true → (nib c).toNat = digitValue c ∧ digitValue c < 16 := by
  revert c; apply u8_all; decide +kernel

theorem nib_or : ∀ a b : Fin 16,
    (UInt8.ofNat a.val <<< 4 ||| UInt8.ofNat b.val).toNat = 16 * a.val + b.val := by decide +kernel

theorem nib_combine {a b : UInt8} (ha : isHexDigit a = true) (hb : isHexDigit b = true) :
    (nib a <<< 4 ||| nib b).toNat = 16 * digitValue a + digitValue b := by
  obtain ⟨h1, h2⟩ := nib_toNat a ha
  obtain ⟨h3, h4⟩ := nib_toNat b hb
  have := nib_or ⟨digitValue a, h2⟩ ⟨digitValue b, h4⟩
  simp only at this
  rw [← h1, ← h3] at this
  simp only [UInt8.ofNat_toNat] at this
  rw [this, h1, h3]

theorem hexDecodePairs_spells : ∀ (s : Bytes) (i : Nat) (bs : Bytes), hexDecodePairs i s = .ok bs →
    Spells s bs
  | [], i, bs, h => by simp [hexDecodePairs] at h; subst h; trivial
  | [_], i, bs, h => by simp [hexDecodePairs] at h
  | a :: b :: rest, i, bs, h => by
    rw [hexDecodePairs] at h
    cases ha : isHexDigit a
    · simp [hexVal_not ha] at h
    cases hb : isHexDigit b
    · simp [hexVal_hex ha, hexVal_not hb] at h
    simp only [hexVal_hex ha, hexVal_hex hb, Res.ok_bind] at h
    cases hr : hexDecodePairs (i + 2) rest with
    | ok t =>
      simp only [hr, Res.ok_bind] at h
      cases h
      exact ⟨ha, hb, nib_combine ha hb, hexDecodePairs_spells rest _ t hr⟩
    | err e => simp [hr] at h
    | panic => simp [hr] at h

theorem spells_length : ∀ {s bs : Bytes}, Spells s bs → s.length = 2 * bs.length
  | [], [], _ => rfl
  | a :: b :: ds, x :: bs, h => by
    have := spells_length h.2.2.2
    simp only [List.length_cons]; omega
  | [], _ :: _, h => h.elim
  | [_], _, h => by cases ‹Bytes› <;> exact h.elim
  | _ :: _ :: _, [], h => h.elim

theorem spells_hex : ∀ {s bs : Bytes}, Spells s bs → ∀ c ∈ s, isHexDigit c = true
  | [], _, _ => by simp
  | a :: b :: ds, x :: bs, h => by
    intro c hc
    simp only [List.mem_cons] at hc
    rcases hc with rfl | rfl | hc
    · exact h.1
    · exact h.2.1
    · exact spells_hex h.2.2.2 c hc
  | [_], _, h => by cases ‹Bytes› <;> exact h.elim
  | _ :: _ :: _, [], h => h.elim

theorem spells_unique : ∀ {s bs cs : Bytes}, Spells s bs → Spells s cs → bs = cs
  | [], [], [], _, _ => rfl
  | a :: b :: ds, x :: bs, y :: cs, h, h' => by
    have := spells_unique h.2.2.2 h'.2.2.2
    have e : x = y := UInt8.toNat_inj.mp (h.2.2.1.trans h'.2.2.1.symm)
    rw [this, e]
  | [], _ :: _, _, h, _ => h.elim
  | [], [], _ :: _, _, h => h.elim
  | [_], _, _, h, _ => by cases ‹Bytes› <;> exact h.elim
  | _ :: _ :: _, [], _, h, _ => h.elim
  | _ :: _ :: _, _ :: _, [], _, h => h.elim

theorem hexDecodePairs_ok : ∀ (s : Bytes) (i : Nat), s.length % 2 = 0 → (∀ c ∈ s, isHexDigit c = true) →
    ∃ bs, hexDecodePairs i s = .ok bs
  | [], i, _, _ => ⟨[], rfl⟩
  | [_], i, h, _ => by simp at h
  | a :: b :: rest, i, h, hh => by
    have h' : rest.length % 2 = 0 := by simp only [List.length_cons] at h; omega
    obtain ⟨bs, hbs⟩ := hexDecodePairs_ok rest (i + 2) h' fun c hc => hh c (by simp [hc])
    refine ⟨(nib a <<< 4 ||| nib b) :: bs, ?_⟩
    rw [hexDecodePairs, hexVal_hex (hh a (by simp)), Res.ok_bind, hexVal_hex (hh b (by simp)), Res.ok_bind,
      hbs, Res.ok_bind]

theorem hexDecodePairs_no_panic : ∀ (s : Bytes) (i : Nat), hexDecodePairs i s ≠ .panic
  | [], i => by simp [hexDecodePairs]
  | [_], i => by simp [hexDecodePairs]
  | a :: b :: rest, i => by
    rw [hexDecodePairs]
    cases ha : isHexDigit a
    · simp [hexVal_not ha]
    cases hb : isHexDigit b
    · simp [hexVal_hex ha, hexVal_not hb]
    simp only [hexVal_hex ha, hexVal_hex hb, Res.ok_bind]
    have := hexDecodePairs_no_panic rest (i + 2)
    cases hr : hexDecodePairs (i + 2) rest <;> simp_all

/-- the error of a failed decode names the first offending character -/
theorem hexDecodePairs_err : ∀ (s : Bytes) (i : Nat) (e : FromHexError), s.length % 2 = 0 →
    hexDecodePairs i s = .err e →
    ∃ j c, e = .invalidHexCharacter c (i + j) ∧ s[j]? = some c ∧ isHexDigit c = false ∧
      ∀ k c', k < j → s[k]? = some c' → isHexDigit c' = true
  | [], i, e, _, h => by simp [hexDecodePairs] at h
  | [_], i, e, h, _ => by simp at h
  | a :: b :: rest, i, e, hl, h => by
    rw [hexDecodePairs] at h
    cases ha : isHexDigit a
    · simp only [hexVal_not ha, Res.err_bind, Res.err.injEq] at h
      exact ⟨0, a, by simp [h], by simp, ha, by omega⟩
    cases hb : isHexDigit b
    · simp only [hexVal_hex ha, hexVal_not hb, Res.ok_bind, Res.err_bind, Res.err.injEq] at h
      refine ⟨1, b, by simp [h], by simp, hb, ?_⟩
      intro k c' hk hc'
      have : k = 0 := by omega
      subst this; simp at hc'; rw [← hc']; exact ha
    simp only [hexVal_hex ha, hexVal_hex hb, Res.ok_bind] at h
    have hl' : rest.length % 2 = 0 := by simp only [List.length_cons] at hl; omega
    cases hr : hexDecodePairs (i + 2) rest with
    | ok t => simp [hr] at h
    | panic => simp [hr] at h
    | err e' =>
      simp only [hr, Res.err_bind, Res.err.injEq] at h
      subst h
      obtain ⟨j, c, h1, h2, h3, h4⟩ := hexDecodePairs_err rest (i + 2) e' hl' hr
      refine ⟨j + 2, c, by rw [h1]; congr 1; omega, by simpa using h2, h3, ?_⟩
      intro k c' hk hc'
      match k, hc' with
      | 0, hc' => simp at hc'; rw [← hc']; exact ha
      | 1, hc' => simp at hc'; rw [← hc']; exact hb
      | k + 2, hc' => exact h4 k c' (by omega) (by simpa using hc')

theorem spells_decode : ∀ {s bs : Bytes} (i : Nat), Spells s bs → hexDecodePairs i s = .ok bs := by
  intro s bs i h
  obtain ⟨cs, hcs⟩ := hexDecodePairs_ok s i (by rw [spells_length h]; omega) (spells_hex h)
  rw [hcs, spells_unique h (hexDecodePairs_spells _ _ _ hcs)]

theorem hexDecode_ok_iff (s bs : Bytes) : hexDecode s = .ok bs ↔ Spells s bs := by
  unfold hexDecode
  constructor
  · intro h
    split at h
    · simp at h
    · exact hexDecodePairs_spells _ _ _ h
  · intro h
    rw [if_neg (by rw [spells_length h]; omega)]
    exact spells_decode 0 h

theorem hexDecode_no_panic (s : Bytes) : hexDecode s ≠ .panic := by
  unfold hexDecode
  split
  · simp
  · exact hexDecodePairs_no_panic _ _

theorem hexDecode_ok {s : Bytes} (hl : s.length % 2 = 0) (hh : ∀ c ∈ s, isHexDigit c = true) :
    ∃ bs, hexDecode s = .ok bs ∧ s.length = 2 * bs.length := by
  obtain ⟨bs, h⟩ := hexDecodePairs_ok s 0 hl hh
  refine ⟨bs, ?_, spells_length (hexDecodePairs_spells _ _ _ h)⟩
  rw [hexDecode, if_neg (by omega), h]

theorem hexDigit_byte (b : UInt8) :
    isHexDigit (hexDigit (b >>> 4)) = true ∧ isHexDigit (hexDigit (b &&& 15)) = true ∧
    isUpperLetter (hexDigit (b >>> 4)) = false ∧ isUpperLetter (hexDigit (b &&& 15)) = false ∧
    b.toNat = 16 * digitValue (hexDigit (b >>> 4)) + digitValue (hexDigit (b &&& 15)) := by
  revert b; apply u8_all; decide +kernel

theorem hexEncode_spells : ∀ bs : Bytes, Spells (hexEncode bs) bs
  | [] => trivial
  | b :: bs => by
    have h := hexDigit_byte b
    have ih := hexEncode_spells bs
    simp only [hexEncode, List.flatMap_cons] at ih ⊢
    exact ⟨h.1, h.2.1, h.2.2.2.2, ih⟩

theorem hexEncode_length (bs : Bytes) : (hexEncode bs).length = 2 * bs.length :=
  spells_length (hexEncode_spells bs)

theorem hexEncode_lower : ∀ bs : Bytes, ∀ c ∈ hexEncode bs, isUpperLetter c = false
  | [] => by simp [hexEncode]
  | b :: bs => by
    have h := hexDigit_byte b
    have ih := hexEncode_lower bs
    intro c hc
    simp only [hexEncode, List.flatMap_cons, List.cons_append, List.nil_append, List.mem_cons] at hc ih
    rcases hc with rfl | rfl | hc
    · exact h.2.2.1
    · exact h.2.2.2.1
    · exact ih c hc

theorem hexEncode_inj {a b : Bytes} (h : hexEncode a = hexEncode b) : a = b :=
  spells_unique (hexEncode_spells a) (h ▸ hexEncode_spells b)

/-! ### EIP-55 -/

/-- the case conversion applied to one digit -/
def eipCase (h : Bytes) (i : Nat) (c : UInt8) : UInt8 :=
  if isUpperLetter c || isLowerLetter c then (if bitOf h (4 * i) then toUpper c else toLower c) else c

/-- the conversion of a digit string starting at index `i` -/
def eipMap (h : Bytes) : Nat → Bytes → Bytes
  | _, [] => []
  | i, c :: cs => eipCase h i c :: eipMap h (i + 1) cs

theorem nibble_bit (b : UInt8) :
    (((b >>> 4) &&& 0x0f ≥ 8) ↔ b.toNat.testBit 7 = true) ∧
    ((b &&& 0x0f ≥ 8) ↔ b.toNat.testBit 3 = true) := by
  revert b; apply u8_all; decide +kernel

theorem digit_class (c : UInt8) : isHexDigit c =
    ((decide (48 ≤ c ∧ c ≤ 57)) || (isUpperLetter c || isLowerLetter c)) := by
  revert c; apply u8_all; decide +kernel

theorem digit_disjoint (c : UInt8) : (48 ≤ c ∧ c ≤ 57) →
    (isUpperLetter c = false ∧ isLowerLetter c = false) := by
  revert c; apply u8_all; decide +kernel

theorem letter_class (c : UInt8) : ((97 ≤ c ∧ c ≤ 102) ∨ (65 ≤ c ∧ c ≤ 70)) ↔
    (isUpperLetter c || isLowerLetter c) = true := by
  revert c; apply u8_all; decide +kernel

theorem eip55Chars_ok (h : Hash) : ∀ (s : Bytes) (i : Nat), (∀ c ∈ s, isHexDigit c = true) →
    i + s.length ≤ 64 → eip55Chars h i s = .ok (eipMap h.bytes i s)
  | [], i, _, _ => rfl
  | c :: cs, i, hh, hl => by
    simp only [List.length_cons] at hl
    have ih := eip55Chars_ok h cs (i + 1) (fun d hd => hh d (by simp [hd])) (by omega)
    have hc : isHexDigit c = true := hh c (by simp)
    rw [eip55Chars, ih]
    by_cases hd : 48 ≤ c ∧ c ≤ 57
    · rw [if_pos hd]
      have := digit_disjoint c hd
      simp [eipMap, eipCase, this]
    · rw [if_neg hd]
      have hlet : (isUpperLetter c || isLowerLetter c) = true := by
        rw [digit_class] at hc; simpa [hd] using hc
      rw [if_pos ((letter_class c).mpr hlet)]
      have hlt : i / 2 < h.bytes.length := by rw [h.len]; omega
      have hbit : bitOf h.bytes (4 * i) =
          if i % 2 = 0 then (h.bytes[i / 2]).toNat.testBit 7 else (h.bytes[i / 2]).toNat.testBit 3 := by
        have e : 4 * i / 8 = i / 2 := by omega
        unfold bitOf
        rw [e, List.getElem?_eq_getElem hlt]
        simp only
        by_cases hp : i % 2 = 0
        · rw [if_pos hp]; congr 1; omega
        · rw [if_neg hp]; congr 1; omega
      rw [List.getElem?_eq_getElem hlt]
      simp only [eipMap, eipCase, hlet, if_true, hbit]
      have nb := nibble_bit h.bytes[i / 2]
      by_cases hp : i % 2 = 0
      · simp only [hp, if_true, nb.1]
        split <;> simp
      · simp only [hp, if_false, nb.2]
        split <;> simp

theorem eip55Chars_panic_iff (h : Hash) : ∀ (s : Bytes) (i : Nat), eip55Chars h i s = .panic ↔
    ∃ j c, s[j]? = some c ∧ (isUpperLetter c || isLowerLetter c) = true ∧ 64 ≤ i + j ∧
      ∀ k d, k < j → s[k]? = some d → isHexDigit d = true
  | [], i => by simp [eip55Chars]
  | c :: cs, i => by
    have ih := eip55Chars_panic_iff h cs (i + 1)
    rw [eip55Chars]
    by_cases hd : 48 ≤ c ∧ c ≤ 57
    · rw [if_pos hd, Res.ok_bind]
      have hx : isHexDigit c = true := by rw [digit_class]; simp [hd]
      have hdis := digit_disjoint c hd
      have : ((eip55Chars h (i + 1) cs >>= fun t => Res.ok (c :: t)) = .panic) ↔
          eip55Chars h (i + 1) cs = .panic := by
        cases eip55Chars h (i + 1) cs <;> simp
      rw [this, ih]
      constructor
      · rintro ⟨j, d, h1, h2, h3, h4⟩
        refine ⟨j + 1, d, by simpa using h1, h2, by omega, ?_⟩
        intro k e hk he
        match k, he with
        | 0, he => simp at he; rw [← he]; exact hx
        | k + 1, he => exact h4 k e (by omega) (by simpa using he)
      · rintro ⟨j, d, h1, h2, h3, h4⟩
        match j, h1, h3, h4 with
        | 0, h1, _, _ => simp at h1; subst h1; simp [hdis] at h2
        | j + 1, h1, h3, h4 =>
          exact ⟨j, d, by simpa using h1, h2, by omega,
            fun k e hk he => h4 (k + 1) e (by omega) (by simpa using he)⟩
    · rw [if_neg hd]
      by_cases hl : (97 ≤ c ∧ c ≤ 102) ∨ (65 ≤ c ∧ c ≤ 70)
      · rw [if_pos hl]
        have hlet := (letter_class c).mp hl
        have hx : isHexDigit c = true := by rw [digit_class]; simp [hlet]
        by_cases hi : 64 ≤ i
        · have : h.bytes[i / 2]? = none := by
            rw [List.getElem?_eq_none]; rw [h.len]; omega
          simp only [this, Res.panic_bind, true_iff]
          exact ⟨0, c, by simp, hlet, by omega, by omega⟩
        · have hlt : i / 2 < h.bytes.length := by rw [h.len]; omega
          rw [List.getElem?_eq_getElem hlt]
          simp only
          have : ∀ r : UInt8, ((eip55Chars h (i + 1) cs >>= fun t => Res.ok (r :: t)) = .panic) ↔
              eip55Chars h (i + 1) cs = .panic := by
            intro r; cases eip55Chars h (i + 1) cs <;> simp
          have key : eip55Chars h (i + 1) cs = .panic ↔ ∃ j d, (c :: cs)[j]? = some d ∧
              (isUpperLetter d || isLowerLetter d) = true ∧ 64 ≤ i + j ∧
              ∀ k e, k < j → (c :: cs)[k]? = some e → isHexDigit e = true := by
            rw [ih]
            constructor
            · rintro ⟨j, d, h1, h2, h3, h4⟩
              refine ⟨j + 1, d, by simpa using h1, h2, by omega, ?_⟩
              intro k e hk he
              match k, he with
              | 0, he => simp at he; rw [← he]; exact hx
              | k + 1, he => exact h4 k e (by omega) (by simpa using he)
            · rintro ⟨j, d, h1, h2, h3, h4⟩
              match j, h1, h3, h4 with
              | 0, h1, h3, _ => omega
              | j + 1, h1, h3, h4 =>
                exact ⟨j, d, by simpa using h1, h2, by omega,
                  fun k e hk he => h4 (k + 1) e (by omega) (by simpa using he)⟩
          rw [← key]
          generalize (if i % 2 = 0 then (h.bytes[i / 2] >>> 4) &&& 0x0f else h.bytes[i / 2] &&& 0x0f) = nbl
          by_cases hn : nbl ≥ 8
          · rw [if_pos hn, Res.ok_bind, this]
          · rw [if_neg hn, Res.ok_bind, this]
      · rw [if_neg hl]
        simp only [Res.err_bind, reduceCtorEq, false_iff]
        rintro ⟨j, d, h1, h2, h3, h4⟩
        have hx : isHexDigit c = false := by
          rw [digit_class]
          have : (isUpperLetter c || isLowerLetter c) ≠ true := fun x => hl ((letter_class c).mpr x)
          simp only [Bool.not_eq_true] at this
          simp [hd, this]
        match j, h1, h4 with
        | 0, h1, _ =>
          simp at h1; subst h1
          exact hl ((letter_class _).mpr h2)
        | j + 1, _, h4 =>
          have := h4 0 c (by omega) (by simp)
          rw [hx] at this; cases this

theorem eip55Chars_err (h : Hash) : ∀ (s : Bytes) (i : Nat) (e : EthError), eip55Chars h i s = .err e →
    ∃ j c, e = .unrecognizedHexCharacter c (i + j) ∧ s[j]? = some c ∧ isHexDigit c = false
  | [], i, e, hh => by simp [eip55Chars] at hh
  | c :: cs, i, e, hh => by
    have ih := eip55Chars_err h cs (i + 1)
    have step : ∀ r : UInt8, (eip55Chars h (i + 1) cs >>= fun t => Res.ok (r :: t)) = .err e →
        ∃ j d, e = .unrecognizedHexCharacter d (i + j) ∧ (c :: cs)[j]? = some d ∧ isHexDigit d = false := by
      intro r hr
      cases hc : eip55Chars h (i + 1) cs with
      | ok t => simp [hc] at hr
      | panic => simp [hc] at hr
      | err e' =>
        simp [hc] at hr; subst hr
        obtain ⟨j, d, h1, h2, h3⟩ := ih e' hc
        exact ⟨j + 1, d, by rw [h1]; congr 1; omega, by simpa using h2, h3⟩
    rw [eip55Chars] at hh
    by_cases hd : 48 ≤ c ∧ c ≤ 57
    · rw [if_pos hd, Res.ok_bind] at hh
      exact step _ hh
    · rw [if_neg hd] at hh
      by_cases hl : (97 ≤ c ∧ c ≤ 102) ∨ (65 ≤ c ∧ c ≤ 70)
      · rw [if_pos hl] at hh
        cases hb : h.bytes[i / 2]? with
        | none => simp [hb] at hh
        | some b =>
          simp only [hb] at hh
          generalize (if i % 2 = 0 then (b >>> 4) &&& 0x0f else b &&& 0x0f) = nbl at hh
          by_cases hn : nbl ≥ 8
          · rw [if_pos hn, Res.ok_bind] at hh; exact step _ hh
          · rw [if_neg hn, Res.ok_bind] at hh; exact step _ hh
      · rw [if_neg hl] at hh
        simp only [Res.err_bind, Res.err.injEq] at hh
        refine ⟨0, c, by rw [← hh]; rfl, by simp, ?_⟩
        rw [digit_class]
        have : (isUpperLetter c || isLowerLetter c) ≠ true := fun x => hl ((letter_class c).mpr x)
        simp only [Bool.not_eq_true] at this
        simp [hd, this]

/-- when the first character that is not a hex digit is at index `j`, and no letter precedes it past index
63, the conversion fails there -/
theorem eipMap_length (h : Bytes) : ∀ (s : Bytes) (i : Nat), (eipMap h i s).length = s.length
  | [], _ => rfl
  | c :: cs, i => by simp [eipMap, eipMap_length h cs (i + 1)]

theorem eipMap_getElem? (h : Bytes) : ∀ (s : Bytes) (i j : Nat),
    (eipMap h i s)[j]? = (s[j]?).map (eipCase h (i + j))
  | [], _, j => by simp [eipMap]
  | c :: cs, i, 0 => by simp [eipMap]
  | c :: cs, i, j + 1 => by
    simp only [eipMap, List.getElem?_cons_succ]
    rw [eipMap_getElem? h cs (i + 1) j]
    congr 2; omega

theorem eipCase_class (c : UInt8) (b : Bool) :
    let r := if isUpperLetter c || isLowerLetter c then (if b then toUpper c else toLower c) else c
    isHexDigit r = isHexDigit c ∧ digitValue r = digitValue c ∧
    (isHexDigit c = true → lowerDigit r = lowerDigit c) ∧
    (isUpperLetter r = true → isHexDigit c = true → b = true) ∧
    (isLowerLetter r = true → isHexDigit c = true → b = false) := by
  revert c; apply u8_all; cases b <;> decide +kernel

theorem lowerDigit_eq_toLower (c : UInt8) : isHexDigit c = true → toLower c = lowerDigit c := by
  revert c; apply u8_all; decide +kernel

theorem map_lower_eq {s : Bytes} (h : ∀ c ∈ s, isHexDigit c = true) :
    s.map toLower = s.map lowerDigit :=
  List.map_congr_left fun c hc => lowerDigit_eq_toLower c (h c hc)

theorem eipCase_fixed (c : UInt8) (b : Bool) :
    (isUpperLetter c = true → b = true) → (isLowerLetter c = true → b = false) →
    (if isUpperLetter c || isLowerLetter c then (if b then toUpper c else toLower c) else c) = c := by
  revert c; apply u8_all; cases b <;> decide +kernel

theorem eipMap_hex (h : Bytes) : ∀ (s : Bytes) (i : Nat), (∀ c ∈ s, isHexDigit c = true) →
    ∀ c ∈ eipMap h i s, isHexDigit c = true
  | [], _, _ => by simp [eipMap]
  | c :: cs, i, hh => by
    intro d hd
    simp only [eipMap, List.mem_cons] at hd
    rcases hd with rfl | hd
    · exact ((eipCase_class c (bitOf h (4 * i))).1).trans (hh c (by simp))
    · exact eipMap_hex h cs (i + 1) (fun d hd => hh d (by simp [hd])) d hd

theorem eipMap_lower (h : Bytes) : ∀ (s : Bytes) (i : Nat), (∀ c ∈ s, isHexDigit c = true) →
    (eipMap h i s).map lowerDigit = s.map lowerDigit
  | [], _, _ => rfl
  | c :: cs, i, hh => by
    simp only [eipMap, List.map_cons]
    rw [eipMap_lower h cs (i + 1) (fun d hd => hh d (by simp [hd]))]
    congr 1
    exact (eipCase_class c (bitOf h (4 * i))).2.2.1 (hh c (by simp))

/-- `eipMap` with the hash of the lower-cased string has EIP-55 case -/
theorem eipMap_case {k : Bytes → Hash} {s : Bytes} (hh : ∀ c ∈ s, isHexDigit c = true) :
    Eip55Case k (eipMap (k (s.map lowerDigit)).bytes 0 s) := by
  intro i c hc
  rw [eipMap_lower _ _ _ hh]
  rw [eipMap_getElem?] at hc
  cases hs : s[i]? with
  | none => simp [hs] at hc
  | some d =>
    simp only [hs, Option.map_some, Option.some.injEq, Nat.zero_add] at hc
    have hd := hh d (List.mem_of_getElem? hs)
    have := eipCase_class d (bitOf (k (s.map lowerDigit)).bytes (4 * i))
    subst hc
    exact ⟨fun h => this.2.2.2.1 h hd, fun h => this.2.2.2.2 h hd⟩

theorem eipMap_fixed {k : Bytes → Hash} {s : Bytes} (hc : Eip55Case k s) :
    eipMap (k (s.map lowerDigit)).bytes 0 s = s := by
  apply List.ext_getElem?
  intro i
  rw [eipMap_getElem?]
  cases hs : s[i]? with
  | none => rfl
  | some c =>
    have := hc i c hs
    simp only [Option.map_some, Nat.zero_add]
    exact congrArg some (eipCase_fixed c _ this.1 this.2)

/-- EIP-55 case is determined by the lower-cased string -/
theorem eip55Case_unique {k : Bytes → Hash} {s t : Bytes} (hs : ∀ c ∈ s, isHexDigit c = true)
    (ht : ∀ c ∈ t, isHexDigit c = true) (h1 : Eip55Case k s) (h2 : Eip55Case k t)
    (h : s.map lowerDigit = t.map lowerDigit) : s = t := by
  have key : ∀ (c d : UInt8) (b : Bool), isHexDigit c = true → isHexDigit d = true →
      lowerDigit c = lowerDigit d →
      (isUpperLetter c = true → b = true) → (isLowerLetter c = true → b = false) →
      (isUpperLetter d = true → b = true) → (isLowerLetter d = true → b = false) → c = d := by
    intro c d b hc hd
    have hc' : ∀ x : UInt8, isHexDigit x = true → x = lowerDigit x ∨
        (isUpperLetter x = true ∧ isLowerLetter (lowerDigit x) = true ∧ x = lowerDigit x - 32) := by
      apply u8_all; decide +kernel
    have hl : ∀ x : UInt8, isUpperLetter x = true → isLowerLetter x = false := by
      apply u8_all; decide +kernel
    have hlow : ∀ x : UInt8, isHexDigit x = true → x = lowerDigit x → isUpperLetter x = false := by
      apply u8_all; decide +kernel
    intro hcd h1 h2 h3 h4
    rcases hc' c hc with e | ⟨e1, e2, e3⟩ <;> rcases hc' d hd with f | ⟨f1, f2, f3⟩
    · rw [e, f, hcd]
    · exfalso
      have hb := h3 f1
      rw [← hcd, ← e] at f2
      have := h2 f2
      rw [hb] at this; cases this
    · exfalso
      have hb := h1 e1
      rw [hcd, ← f] at e2
      have := h4 e2
      rw [hb] at this; cases this
    · rw [e3, f3, hcd]
  apply List.ext_getElem?
  intro i
  have hi : (s.map lowerDigit)[i]? = (t.map lowerDigit)[i]? := by rw [h]
  simp only [List.getElem?_map] at hi
  cases hsi : s[i]? with
  | none =>
    cases hti : t[i]? with
    | none => rfl
    | some d => simp [hsi, hti] at hi
  | some c =>
    cases hti : t[i]? with
    | none => simp [hsi, hti] at hi
    | some d =>
      simp only [hsi, hti, Option.map_some, Option.some.injEq] at hi
      have a := h1 i c hsi
      have b := h2 i d hti
      rw [← h] at b
      exact congrArg some (key c d _ (hs c (List.mem_of_getElem? hsi)) (ht d (List.mem_of_getElem? hti)) hi
        a.1 a.2 b.1 b.2)

theorem startsWith0x_iff (s : Bytes) : startsWith0x s = true ↔ ∃ t, s = [48, 120] ++ t := by
  unfold startsWith0x prefix0x
  rw [List.isPrefixOf_iff_prefix]
  constructor
  · rintro ⟨t, h⟩; exact ⟨t, h.symm⟩
  · rintro ⟨t, h⟩; exact ⟨t, h.symm⟩

@[simp] theorem startsWith0x_append (t : Bytes) : startsWith0x (48 :: 120 :: t) = true :=
  (startsWith0x_iff _).mpr ⟨t, rfl⟩

theorem convertToEip55_hex (E : Env) {ds : Bytes} (hh : ∀ c ∈ ds, isHexDigit c = true)
    (hl : ds.length ≤ 64) :
    convertToEip55 E ([48, 120] ++ ds) =
      .ok ([48, 120] ++ eipMap (E.keccak (ds.map lowerDigit)).bytes 0 ds) := by
  have h1 : startsWith0x ([48, 120] ++ ds) = true := (startsWith0x_iff _).mpr ⟨ds, rfl⟩
  unfold convertToEip55
  simp only [h1, if_true]
  simp only [List.cons_append, List.nil_append, List.drop_succ_cons, List.drop_zero]
  rw [eip55Chars_ok _ ds 0 hh (by omega), map_lower_eq hh]
  rfl

/-- a hex digit string never starts with `0x`, so it is taken as is -/
theorem convertToEip55_hex' (E : Env) {ds : Bytes} (hh : ∀ c ∈ ds, isHexDigit c = true)
    (hl : ds.length ≤ 64) :
    convertToEip55 E ds = .ok ([48, 120] ++ eipMap (E.keccak (ds.map lowerDigit)).bytes 0 ds) := by
  have h1 : startsWith0x ds = false := by
    cases hs : startsWith0x ds
    · rfl
    · obtain ⟨t, rfl⟩ := (startsWith0x_iff _).mp hs
      have := hh 120 (by simp)
      simp [isHexDigit] at this
  unfold convertToEip55
  simp only [h1]
  rw [if_neg (by simp), eip55Chars_ok _ ds 0 hh (by omega), map_lower_eq hh]
  rfl

end Siwe
