import Verif.Model.Basic
/-
Independent specification of Ethereum address and signature spellings: hex digits, and EIP-55:
"if the i-th digit is a letter, print it in uppercase if the (4*i)-th bit of the hash of the lowercase
hexadecimal address is 1, otherwise in lowercase".
-/
namespace Siwe.Spec

/-- `0`-`9`, `A`-`F` or `a`-`f` -/
def isHexDigit (c : UInt8) : Bool := (48 ≤ c && c ≤ 57) || (65 ≤ c && c ≤ 70) || (97 ≤ c && c ≤ 102)
/-- `A`-`F` -/
def isUpperLetter (c : UInt8) : Bool := 65 ≤ c && c ≤ 70
/-- `a`-`f` -/
def isLowerLetter (c : UInt8) : Bool := 97 ≤ c && c ≤ 102
/-- the digit in lower case -/
def lowerDigit (c : UInt8) : UInt8 := if isUpperLetter c then c + 32 else c

/-- The value of a hex digit. -/
def digitValue (c : UInt8) : Nat :=
  if isUpperLetter c then c.toNat - 55 else if isLowerLetter c then c.toNat - 87 else c.toNat - 48

/-- Bit `k` of a byte string, counted from the most significant bit of the first byte. -/
def bitOf (bs : Bytes) (k : Nat) : Bool :=
  match bs[k / 8]? with
  | some b => b.toNat.testBit (7 - k % 8)
  | none => false

/-- The letters of `digits` have the case EIP-55 prescribes, for the hash function `keccak`. -/
def Eip55Case (keccak : Bytes → Hash) (digits : Bytes) : Prop :=
  ∀ i c, digits[i]? = some c →
    (isUpperLetter c = true → bitOf (keccak (digits.map lowerDigit)).bytes (4 * i) = true) ∧
    (isLowerLetter c = true → bitOf (keccak (digits.map lowerDigit)).bytes (4 * i) = false)

/-- `0x` followed by `n` hex digits. -/
def HexString (n : Nat) (s : Bytes) : Prop :=
  ∃ digits, s = [48, 120] ++ digits ∧ digits.length = n ∧ ∀ c ∈ digits, isHexDigit c = true

/-- A checksummed Ethereum address. -/
def IsAddress (keccak : Bytes → Hash) (s : Bytes) : Prop :=
  ∃ digits, s = [48, 120] ++ digits ∧ digits.length = 40 ∧ (∀ c ∈ digits, isHexDigit c = true) ∧
    Eip55Case keccak digits

/-- Two hex digits per byte, most significant first: `ds` spells `bs`, in any letter case. -/
def Spells : Bytes → Bytes → Prop
  | [], [] => True
  | a :: b :: ds, x :: bs => isHexDigit a = true ∧ isHexDigit b = true ∧
      x.toNat = 16 * digitValue a + digitValue b ∧ Spells ds bs
  | _, _ => False

end Siwe.Spec

namespace Siwe.Spec

/-- `ds` is the usual decimal notation of `n`: digits, no superfluous leading zero, value `n`. -/
def IsDecimal (n : Nat) (ds : Bytes) : Prop :=
  ds ≠ [] ∧ (∀ c ∈ ds, 48 ≤ c ∧ c ≤ 57) ∧ (1 < ds.length → ds.head? ≠ some 48) ∧
    ds.foldl (fun a c => 10 * a + (c.toNat - 48)) 0 = n

/-- What a wallet signs for a personal message (EIP-191, version `E`). -/
def IsPersonalMessage (message signed : Bytes) : Prop :=
  ∃ len, IsDecimal message.length len ∧
    signed = [0x19] ++ ascii "Ethereum Signed Message:\n" ++ len ++ message

end Siwe.Spec
