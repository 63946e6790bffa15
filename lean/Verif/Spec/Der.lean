import Verif.Model.Der
import Verif.Model.Env
/- Sequences of ASN.1 values in the encoding of X.690, and public keys (RFC 5280, SubjectPublicKeyInfo). -/
namespace Siwe.Spec

/-- The value of digits to the base 128, the most significant first; the high bits do not count. -/
def base128Value (ds : Bytes) : Nat := ds.foldl (fun n d => n * 128 + d.toNat % 128) 0

/-- The value of big-endian bytes. -/
def base256Value (ds : Bytes) : Nat := ds.foldl (fun n d => n * 256 + d.toNat) 0

/-- Identifier octets (X.690, 8.1.2) with their class and tag: one byte, or more with tags from 31 on (smaller tags in this
form are tolerated). -/
inductive IsIdentifier : Bytes → Nat → Nat → Prop
  | low (b : UInt8) : b.toNat % 32 < 31 → IsIdentifier [b] (b.toNat / 64) (b.toNat % 32)
  | high (b : UInt8) (ds : Bytes) (last : UInt8) : b.toNat % 32 = 31 → (∀ d ∈ ds, 128 ≤ d.toNat) → last.toNat < 128 →
      IsIdentifier (b :: (ds ++ [last])) (b.toNat / 64) (base128Value (ds ++ [last]))

/-- Length octets (X.690, 8.1.3) of a length below 2^32, not necessarily the shortest. -/
inductive IsLength : Bytes → Nat → Prop
  | short (b : UInt8) : b.toNat < 128 → IsLength [b] b.toNat
  | long (b : UInt8) (ds : Bytes) : ds.length ≤ 4 → b.toNat = 128 + ds.length → IsLength (b :: ds) (base256Value ds)

/-- The contents of a universal value have the form its tag asks for (but for sequences and sets); `texts` are the requirements
for texts and dates. -/
structure ContentsOk (texts : Nat → Bytes → Prop) (tag : Nat) (body : Bytes) : Prop where
  boolean : tag = 1 → body.length = 1
  bitString : tag = 3 → ∀ b bs, body = b :: bs → b.toNat ≤ 8 * bs.length
  objectId : tag = 6 → ∃ b bs, body = b :: bs ∧ ∀ d, bs.getLast? = some d → d.toNat < 128
  text : tag ∈ [12, 19, 20, 22, 23, 24, 28, 30] → texts tag body

/-- A sequence of values; sequences and sets hold such sequences. -/
inductive IsValues (texts : Nat → Bytes → Prop) : Bytes → Prop
  | nil : IsValues texts []
  | cons (cls tag : Nat) (idn len body rest : Bytes) : IsIdentifier idn cls tag → IsLength len body.length →
      (cls = 0 → ContentsOk texts tag body) → (cls = 0 → tag = 16 ∨ tag = 17 → IsValues texts body) →
      IsValues texts rest → IsValues texts (idn ++ len ++ body ++ rest)

/-- A value with a one-byte tag and the shortest length (X.690, 10.1). -/
def IsTlv (tag : UInt8) (body bs : Bytes) : Prop :=
  (body.length < 128 ∧ bs = tag :: UInt8.ofNat body.length :: body) ∨
  (128 ≤ body.length ∧ ∃ ds, ds.head? ≠ some 0 ∧ base256Value ds = body.length ∧ bs = tag :: UInt8.ofNat (128 + ds.length) :: (ds ++ body))

/-- A public key (RFC 5280, 4.1): a sequence of the algorithm, that is a sequence of an object identifier and parameters, and a
bit string; of less than 4 GiB. -/
def IsPublicKey (texts : Nat → Bytes → Prop) (bs : Bytes) : Prop :=
  ∃ first components params key oid algorithm bits, (∀ d, List.getLast? components = some d → UInt8.toNat d < 128) ∧
    IsValues texts params ∧ IsTlv 6 (first :: components) oid ∧ IsTlv 48 (oid ++ params) algorithm ∧ IsTlv 3 (0 :: key) bits ∧
    IsTlv 48 (algorithm ++ bits) bs ∧ bs.length < 2 ^ 32

/-- The public keys of `Ed25519KeyIdentity` (RFC 8410). -/
def IsEd25519Key (bs : Bytes) : Prop :=
  ∃ key, List.length key = 32 ∧ bs = [0x30, 0x2a, 0x30, 0x05, 0x06, 0x03, 0x2b, 0x65, 0x70, 0x03, 0x21, 0x00] ++ key

/-- The public keys of `ECDSAKeyIdentity` (RFC 5480, curve P-256, uncompressed). -/
def IsP256Key (bs : Bytes) : Prop :=
  ∃ key, List.length key = 65 ∧ bs = [0x30, 0x59, 0x30, 0x13, 0x06, 0x07, 0x2a, 0x86, 0x48, 0xce, 0x3d, 0x02, 0x01, 0x06, 0x08, 0x2a,
    0x86, 0x48, 0xce, 0x3d, 0x03, 0x01, 0x07, 0x03, 0x42, 0x00] ++ key

/-- Session keys are parsed as the crate `simple_asn1` parses them, with these requirements for texts and dates. -/
def UsesDer (E : Env) (texts : Nat → Bytes → Bool) : Prop := E.derOk = Der.fromDer texts

/-- A nonempty sequence of ASN.1 values. -/
def IsDer (texts : Nat → Bytes → Bool) (bs : Bytes) : Prop := bs ≠ [] ∧ IsValues (fun t b => texts t b = true) bs

end Siwe.Spec
