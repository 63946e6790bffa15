import Verif.Model.Json
/-
JSON's grammar, RFC 8259, as relations between texts and the values they stand for.  Nothing here is computed: `JsonText t j` says that
`t` is a JSON text and `j` what it stands for.
-/
namespace Siwe.Spec

/-- Section 2, `ws`: space, tab, line feed, carriage return -/
def White (w : Bytes) : Prop := ∀ c ∈ w, c = 32 ∨ c = 9 ∨ c = 10 ∨ c = 13

/-- A run of decimal digits, maybe empty -/
def DigitRun (t : Bytes) : Prop := ∀ c ∈ t, 48 ≤ c ∧ c ≤ 57

/-- Section 6, `int = zero / ( digit1-9 *DIGIT )` -/
def IntText (t : Bytes) : Prop := t = ascii "0" ∨ ∃ c r, t = c :: r ∧ 49 ≤ c ∧ c ≤ 57 ∧ DigitRun r

/-- Section 6, `[ frac ]`, `frac = decimal-point 1*DIGIT` -/
def FracText (t : Bytes) : Prop := t = [] ∨ ∃ ds, t = ascii "." ++ ds ∧ ds ≠ [] ∧ DigitRun ds

/-- Section 6, `[ exp ]`, `exp = e [ minus / plus ] 1*DIGIT` -/
def ExpText (t : Bytes) : Prop :=
  t = [] ∨ ∃ e sign ds, t = e ++ sign ++ ds ∧ (e = ascii "e" ∨ e = ascii "E") ∧
    (sign = [] ∨ sign = ascii "-" ∨ sign = ascii "+") ∧ ds ≠ [] ∧ DigitRun ds

/-- Section 6, `number = [ minus ] int [ frac ] [ exp ]` -/
def NumberText (t : Bytes) : Prop :=
  ∃ sign int frac exp, t = sign ++ int ++ frac ++ exp ∧ (sign = [] ∨ sign = ascii "-") ∧ IntText int ∧ FracText frac ∧ ExpText exp

/-- `HEXDIG`, of either case, and its value -/
def HexDigit (c : UInt8) (v : Nat) : Prop :=
  (48 ≤ c.toNat ∧ c.toNat ≤ 57 ∧ c.toNat = 48 + v) ∨ (65 ≤ c.toNat ∧ c.toNat ≤ 70 ∧ c.toNat + 10 = 65 + v) ∨
    (97 ≤ c.toNat ∧ c.toNat ≤ 102 ∧ c.toNat + 10 = 97 + v)

/-- Section 7, `%x75 4HEXDIG` after a backslash: the text and its number -/
def UnicodeEscape (t : Bytes) (n : Nat) : Prop :=
  ∃ a b c d va vb vc vd, t = [92, 117, a, b, c, d] ∧ HexDigit a va ∧ HexDigit b vb ∧ HexDigit c vc ∧ HexDigit d vd ∧
    n = ((va * 16 + vb) * 16 + vc) * 16 + vd

/-- The first half of a UTF-16 surrogate pair -/
def HighSurrogate (n : Nat) : Prop := 0xD800 ≤ n ∧ n ≤ 0xDBFF

/-- The second half of a UTF-16 surrogate pair -/
def LowSurrogate (n : Nat) : Prop := 0xDC00 ≤ n ∧ n ≤ 0xDFFF

/-- A byte that continues a character: RFC 3629, section 3, `10xxxxxx` -/
def Continues (b : UInt8) (v : Nat) : Prop := b.toNat = 128 + v ∧ v < 64

/-- RFC 3629, section 3: the bytes of a code point -/
def Utf8 (n : Nat) (s : Bytes) : Prop :=
  (∃ a, s = [a] ∧ a.toNat = n ∧ n ≤ 0x7F) ∨
  (∃ a b x y, s = [a, b] ∧ a.toNat = 192 + x ∧ x < 32 ∧ Continues b y ∧ n = 64 * x + y ∧ 0x80 ≤ n) ∨
  (∃ a b c x y z, s = [a, b, c] ∧ a.toNat = 224 + x ∧ x < 16 ∧ Continues b y ∧ Continues c z ∧ n = 64 * (64 * x + y) + z ∧
    0x800 ≤ n) ∨
  (∃ a b c d x y z w, s = [a, b, c, d] ∧ a.toNat = 240 + x ∧ x < 8 ∧ Continues b y ∧ Continues c z ∧ Continues d w ∧
    n = 64 * (64 * (64 * x + y) + z) + w ∧ 0x10000 ≤ n)

/-- Section 7, the escapes of one letter: the letter and the byte it stands for -/
def shortEscapes : List (Char × Nat) :=
  [('"', 0x22), ('\\', 0x5C), ('/', 0x2F), ('b', 0x8), ('f', 0xC), ('n', 0xA), ('r', 0xD), ('t', 0x9)]

/-- Section 7, `*char`: what stands between the quotes of a string, and the string.  A high surrogate with the low surrogate right after
it is one character; any other surrogate stands for itself, as it does in JavaScript. -/
inductive CharsText : Bytes → Bytes → Prop where
  | none : CharsText [] []
  /-- `unescaped`: anything but a quote, a backslash or a control character -/
  | plain {c : UInt8} {t s : Bytes} : 0x20 ≤ c → c ≠ 0x22 → c ≠ 0x5C → CharsText t s → CharsText (c :: t) (c :: s)
  | short {e : Char} {v : Nat} {t s : Bytes} : (e, v) ∈ shortEscapes → CharsText t s →
      CharsText (0x5C :: UInt8.ofNat e.toNat :: t) (UInt8.ofNat v :: s)
  | single {u t s x : Bytes} {n : Nat} : UnicodeEscape u n →
      ¬(HighSurrogate n ∧ ∃ u' n' t', t = u' ++ t' ∧ UnicodeEscape u' n' ∧ LowSurrogate n') →
      Utf8 n x → CharsText t s → CharsText (u ++ t) (x ++ s)
  | pair {u u' t s x : Bytes} {n n' : Nat} : UnicodeEscape u n → HighSurrogate n → UnicodeEscape u' n' → LowSurrogate n' →
      Utf8 (0x10000 + (n - 0xD800) * 0x400 + (n' - 0xDC00)) x → CharsText t s → CharsText (u ++ u' ++ t) (x ++ s)

/-- Section 7, `string = quotation-mark *char quotation-mark` -/
def StringText (t s : Bytes) : Prop := ∃ c, t = ascii "\"" ++ c ++ ascii "\"" ∧ CharsText c s

mutual
/-- Section 3, `value` -/
inductive ValueText : Bytes → Json → Prop where
  | null : ValueText (ascii "null") .null
  | true : ValueText (ascii "true") (.bool .true)
  | false : ValueText (ascii "false") (.bool .false)
  | number {t : Bytes} : NumberText t → ValueText t (.num t)
  | string {t s : Bytes} : StringText t s → ValueText t (.str s)
  | emptyArray {w : Bytes} : White w → ValueText (ascii "[" ++ w ++ ascii "]") (.arr [])
  | array {t : Bytes} {l : List Json} : ItemsText t l → ValueText (ascii "[" ++ t ++ ascii "]") (.arr l)
  | emptyObject {w : Bytes} : White w → ValueText (ascii "{" ++ w ++ ascii "}") (.obj [])
  | object {t : Bytes} {l : List (Bytes × Json)} : MembersText t l → ValueText (ascii "{" ++ t ++ ascii "}") (.obj l)
/-- Section 5, `value *( value-separator value )` with the white space around -/
inductive ItemsText : Bytes → List Json → Prop where
  | last {w t w' : Bytes} {j : Json} : White w → ValueText t j → White w' → ItemsText (w ++ t ++ w') [j]
  | more {w t w' u : Bytes} {j : Json} {l : List Json} : White w → ValueText t j → White w' → ItemsText u l →
      ItemsText (w ++ t ++ w' ++ ascii "," ++ u) (j :: l)
/-- Section 4, `member *( value-separator member )`, `member = string name-separator value`, with the white space around -/
inductive MembersText : Bytes → List (Bytes × Json) → Prop where
  | last {w k w' x t y name : Bytes} {j : Json} : White w → StringText k name → White w' → White x → ValueText t j → White y →
      MembersText (w ++ k ++ w' ++ ascii ":" ++ x ++ t ++ y) [(name, j)]
  | more {w k w' x t y u name : Bytes} {j : Json} {l : List (Bytes × Json)} : White w → StringText k name → White w' → White x →
      ValueText t j → White y → MembersText u l →
      MembersText (w ++ k ++ w' ++ ascii ":" ++ x ++ t ++ y ++ ascii "," ++ u) ((name, j) :: l)
end

/-- Section 2, `JSON-text = ws value ws` -/
def JsonText (t : Bytes) (j : Json) : Prop := ∃ w v w', t = w ++ v ++ w' ∧ White w ∧ ValueText v j ∧ White w'

end Siwe.Spec
