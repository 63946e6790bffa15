import Verif.Spec.JsonGrammar
/- Texts: sequences of Unicode characters in UTF-8 (RFC 3629). -/
namespace Siwe.Spec

/-- The number of a Unicode character: not a surrogate, at most U+10FFFF. -/
def ScalarValue (n : Nat) : Prop := n < 0xD800 ∨ (0xE000 ≤ n ∧ n ≤ 0x10FFFF)

/-- `b` is a text in UTF-8. -/
inductive IsUtf8 : Bytes → Prop
  | nil : IsUtf8 []
  | cons {n : Nat} {c b : Bytes} : ScalarValue n → Utf8 n c → IsUtf8 b → IsUtf8 (c ++ b)

end Siwe.Spec
