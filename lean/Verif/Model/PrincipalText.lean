import Verif.Model.Eth
/-
The texts of principals as init_upgrade.rs:89-92 and test_canister/src/lib.rs:52-55 read them: `Principal::from_text` and the
`Display` of `Principal` in the crate `ic_principal` 0.1.1, on top of `data_encoding` 2.5 and `crc32fast` 1.3, which are
dependencies.  Most of the model takes `Principal::from_text` as a parameter (`Env.principalFromText`); here it is written
out, for the theorems about the texts of targets (C101, C102) and for the tests in Conformance/.

Simplifications: `crc32fast` computes the checksum with tables, here bit by bit; `data_encoding` works on blocks of five
bytes, here on bits.
-/
namespace Siwe.PrincipalText

/-- One bit of CRC-32 (`crc32fast::hash`, called by `from_text`, init_upgrade.rs:91). -/
def crcBit (c : Nat) : Nat := if c % 2 = 1 then c / 2 ^^^ 0xedb88320 else c / 2

/-- One byte of CRC-32. -/
def crcByte (c : Nat) (b : UInt8) : Nat :=
  crcBit (crcBit (crcBit (crcBit (crcBit (crcBit (crcBit (crcBit (c ^^^ b.toNat))))))))

/-- `crc32fast::hash` (init_upgrade.rs:91) -/
def crc32 (bs : Bytes) : Nat := bs.foldl crcByte 0xffffffff ^^^ 0xffffffff

/-- `u32::to_be_bytes` of the checksum (init_upgrade.rs:91) -/
def crcBytes (bs : Bytes) : Bytes :=
  (fun c => [UInt8.ofNat (c / 16777216), UInt8.ofNat (c / 65536), UInt8.ofNat (c / 256), UInt8.ofNat c]) (crc32 bs)

/-- The bits of a byte, the most significant first. -/
def byteBits (b : UInt8) : List Bool :=
  [b.toNat.testBit 7, b.toNat.testBit 6, b.toNat.testBit 5, b.toNat.testBit 4,
    b.toNat.testBit 3, b.toNat.testBit 2, b.toNat.testBit 1, b.toNat.testBit 0]

/-- The number with the given bits, the most significant first. -/
def bitsNat (l : List Bool) : Nat := l.foldl (fun n b => 2 * n + b.toNat) 0

/-- The digit of `BASE32_NOPAD` with the given value. -/
def digit (v : Nat) : UInt8 := if v < 26 then UInt8.ofNat (65 + v) else UInt8.ofNat (24 + v)

/-- `BASE32_NOPAD.encode` on bits (`Display`, used by `from_text`, init_upgrade.rs:91): a digit for every five bits, the last
ones filled up with zeros. -/
def encodeBits : List Bool → Bytes
  | [] => []
  | [a] => [digit (bitsNat [a, false, false, false, false])]
  | [a, b] => [digit (bitsNat [a, b, false, false, false])]
  | [a, b, c] => [digit (bitsNat [a, b, c, false, false])]
  | [a, b, c, d] => [digit (bitsNat [a, b, c, d, false])]
  | a :: b :: c :: d :: e :: l => digit (bitsNat [a, b, c, d, e]) :: encodeBits l

/-- `BASE32_NOPAD.encode` -/
def encode (bs : Bytes) : Bytes := encodeBits (bs.flatMap byteBits)

/-- The loop in the `Display` of `Principal`: as long as there are more than five characters, five of them and a dash. -/
def dashed : Bytes → Bytes
  | a :: b :: c :: d :: e :: f :: l => a :: b :: c :: d :: e :: 45 :: dashed (f :: l)
  | s => s

/-- The `Display` of `Principal`, called by `from_text` (init_upgrade.rs:91) and by `to_text` (test_canister/src/lib.rs:44):
base 32, in lower case, of the checksum followed by the bytes. -/
def toText (p : Bytes) : Bytes := dashed ((encode (crcBytes p ++ p)).map toLower)

/-- The bits of a digit of `BASE32_NOPAD`. -/
def digitBits (c : UInt8) : Option (List Bool) :=
  (fun v => [Nat.testBit v 4, Nat.testBit v 3, Nat.testBit v 2, Nat.testBit v 1, Nat.testBit v 0]) <$>
    if 65 ≤ c ∧ c ≤ 90 then some (c.toNat - 65)
    else if 50 ≤ c ∧ c ≤ 55 then some (c.toNat - 24)
    else none

/-- The bits of a text of digits. -/
def textBits : Bytes → Option (List Bool)
  | [] => some []
  | c :: cs =>
    match digitBits c, textBits cs with
    | some x, some l => some (x ++ l)
    | _, _ => none

/-- The bytes of a sequence of bits, and the remaining bits. -/
def bitsBytes : List Bool → Bytes × List Bool
  | a :: b :: c :: d :: e :: f :: g :: h :: l =>
    (fun r => (UInt8.ofNat (bitsNat [a, b, c, d, e, f, g, h]) :: r.1, r.2)) (bitsBytes l)
  | l => ([], l)

/-- `BASE32_NOPAD.decode` (in `from_text`, init_upgrade.rs:91); it insists on the number of digits that bytes have, and on
zeros as the remaining bits. -/
def decode (t : Bytes) : Option Bytes :=
  match textBits t with
  | none => none
  | some l => (fun r => if r.2.length < 5 ∧ r.2.all (! ·) then some r.1 else none) (bitsBytes l)

/-- `Principal::from_text` (init_upgrade.rs:91, test_canister/src/lib.rs:54): in upper case and without dashes, decode; the
length and the checksum must be right; and the principal's text must be the given one, up to case. -/
def fromText (t : Bytes) : Option Bytes :=
  match decode ((t.map toUpper).filter (· ≠ 45)) with
  | none => none
  | some bs =>
    if bs.length < 4 then none
    else if 29 < (bs.drop 4).length then none
    else if crcBytes (bs.drop 4) ≠ bs.take 4 then none
    else if t.map toLower ≠ toText (bs.drop 4) then none
    else some (bs.drop 4)

end Siwe.PrincipalText
