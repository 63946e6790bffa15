import Verif.Model.Basic
/-
`hex` crate 0.4.3 (`hex::encode`, `hex::decode`), used at packages/ic_siwe/src/eth.rs:65,82,88,116,128,134,
210,231 and packages/ic_siwe/src/rand.rs:9.  Dependency modelled from its published source.
-/
namespace Siwe

/-- `hex::FromHexError` (`InvalidStringLength` cannot arise from `hex::decode` into a `Vec`). -/
inductive FromHexError where
  | invalidHexCharacter (c : UInt8) (index : Nat)
  | oddLength
  deriving DecidableEq, Repr

/-- `hex::val`: the value of one hex digit. -/
def hexVal (c : UInt8) (idx : Nat) : Res FromHexError UInt8 :=
  if 65 ≤ c ∧ c ≤ 70 then .ok (c - 65 + 10)
  else if 97 ≤ c ∧ c ≤ 102 then .ok (c - 97 + 10)
  else if 48 ≤ c ∧ c ≤ 57 then .ok (c - 48)
  else .err (.invalidHexCharacter c idx)

/-- The `chunks(2)` loop of `hex::decode`, `i` is the byte index of the current pair. -/
def hexDecodePairs (i : Nat) : Bytes → Res FromHexError Bytes
  | [] => .ok []
  | [_] => .err .oddLength -- not reached: the length was checked to be even
  | a :: b :: rest => do
    let h ← hexVal a i
    let l ← hexVal b (i + 1)
    let t ← hexDecodePairs (i + 2) rest
    .ok ((h <<< 4 ||| l) :: t)

/-- `hex::decode`. -/
def hexDecode (s : Bytes) : Res FromHexError Bytes :=
  if s.length % 2 ≠ 0 then .err .oddLength else hexDecodePairs 0 s

/-- The table `b"0123456789abcdef"` of `hex::encode`. -/
def hexDigit (n : UInt8) : UInt8 := if n < 10 then 48 + n else 87 + n

/-- `hex::encode`. -/
def hexEncode (bs : Bytes) : Bytes := bs.flatMap fun (b : UInt8) => [hexDigit (b >>> 4), hexDigit (b &&& 15)]

end Siwe
