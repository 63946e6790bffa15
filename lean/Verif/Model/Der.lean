import Verif.Model.Basic
/-
Which session keys `create_delegation` takes for DER: `simple_asn1::from_der` of the crate `simple_asn1` 0.6.2, called in
delegation.rs:122-124, which is a dependency.  Most of the model takes whether it succeeds as a parameter (`Env.derOk`); here
it is written out, for the theorems about session keys (C103).

Simplifications: only success or failure is modelled, not the parsed blocks; that of the contents of texts and dates
(`UTF8String`, `PrintableString`, `TeletexString`, `IA5String`, `UTCTime`, `GeneralizedTime`, `UniversalString`, `BMPString`) is a
parameter; the depth of the call stack is not bounded.
-/
namespace Siwe.Der

/-- `decode_base127` (called by `from_der`, delegation.rs:122): seven bits per byte, up to a byte without the high bit -/
def base128 : Nat → Bytes → Option (Nat × Bytes)
  | _, [] => none
  | acc, b :: bs => if b < 128 then some (acc * 128 + b.toNat, bs) else base128 (acc * 128 + (b.toNat - 128)) bs

/-- `decode_tag` (called by `from_der`, delegation.rs:122): class, tag and the rest.  Whether it is constructed only matters
for what other classes are parsed to. -/
def decodeTag : Bytes → Option (Nat × Nat × Bytes)
  | [] => none
  | b :: bs =>
    if b.toNat % 32 = 31 then
      match base128 0 bs with
      | none => none
      | some (tag, rest) => some (b.toNat / 64, tag, rest)
    else some (b.toNat / 64, b.toNat % 32, bs)

/-- The loop of `decode_length`. -/
def lengthBytes : Nat → Nat → Bytes → Option (Nat × Bytes)
  | 0, acc, bs => some (acc, bs)
  | _ + 1, _, [] => none
  | n + 1, acc, b :: bs => lengthBytes n (acc * 256 + b.toNat) bs

/-- `decode_length` (called by `from_der`, delegation.rs:122); a `usize` of a canister has four bytes -/
def decodeLength : Bytes → Option (Nat × Bytes)
  | [] => none
  | b :: bs =>
    if b < 128 then some (b.toNat, bs)
    else if 4 < b.toNat - 128 then none
    else lengthBytes (b.toNat - 128) 0 bs

/-- The arm of `BIT STRING`: the number of unused bits is at most that of all bits. -/
def bitString : Bytes → Bool
  | [] => true
  | b :: bs => decide (b.toNat ≤ bs.length * 8)

/-- The loop over the components of an object identifier; `n` bounds their number. -/
def components : Nat → Bytes → Bool
  | _, [] => true
  | 0, _ => false
  | n + 1, bs =>
    match base128 0 bs with
    | none => false
    | some (_, rest) => components n rest

/-- The arm of `OBJECT IDENTIFIER`. -/
def objectIdentifier : Bytes → Bool
  | [] => false
  | _ :: bs => components bs.length bs

/-- The `match` on the tag of a universal value; `nested` parses the contents of sequences and sets, `texts` those of texts and
dates. -/
def contents (texts : Nat → Bytes → Bool) (nested : Bytes → Bool) (tag : Nat) (body : Bytes) : Bool :=
  if tag = 1 then body.length == 1
  else if tag = 3 then bitString body
  else if tag = 6 then objectIdentifier body
  else if tag = 16 ∨ tag = 17 then nested body
  else if tag ∈ [12, 19, 20, 22, 23, 24, 28, 30] then texts tag body
  else true

/-- The loop of `from_der_`; `n` bounds the number of values and the depth.  An empty buffer is an error of `from_der_`, which its
calls on the contents of sequences and sets catch. -/
def values (texts : Nat → Bytes → Bool) : Nat → Bytes → Bool
  | _, [] => true
  | 0, _ => false
  | n + 1, bs =>
    match decodeTag bs with
    | none => false
    | some (cls, tag, rest) =>
      match decodeLength rest with
      | none => false
      | some (len, rest) =>
        if rest.length < len then false
        else if cls = 0 ∧ contents texts (values texts n) tag (rest.take len) = false then false
        else values texts n (rest.drop len)

/-- `simple_asn1::from_der` succeeds (delegation.rs:122-124). -/
def fromDer (texts : Nat → Bytes → Bool) (bs : Bytes) : Bool := !bs.isEmpty && values texts bs.length bs

end Siwe.Der
