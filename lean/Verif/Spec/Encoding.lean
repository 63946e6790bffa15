import Verif.Model.HashTree
import Verif.Model.HashM
import Batteries.Data.List.Basic
/- Standard encodings, from the decoder's side: LEB128, DER, CBOR, and the IC's representation-independent hash. -/
namespace Siwe.Spec

/-! ### unsigned LEB128 -/

/-- The number denoted by little-endian base-128 digits, ignoring each byte's top bit. -/
def lebValue : Bytes → Nat
  | [] => 0
  | b :: rest => b.toNat % 128 + 128 * lebValue rest

/-- `bs` is an unsigned LEB128 encoding of `n`: the top bit is set on every byte but the last. -/
def IsLeb128 (n : Nat) (bs : Bytes) : Prop :=
  ∃ init last, bs = init ++ [last] ∧ (∀ b ∈ init, 128 ≤ b.toNat) ∧ last.toNat < 128 ∧ lebValue bs = n

/-! ### DER -/

/-- Value of big-endian base-256 digits. -/
def beValue (bs : Bytes) : Nat := bs.foldl (fun acc b => 256 * acc + b.toNat) 0

/-- Read a DER length: short form, or long form with up to eight length bytes. -/
def readDerLength : Bytes → Option (Nat × Bytes)
  | [] => none
  | b :: rest =>
    if b.toNat < 128 then some (b.toNat, rest)
    else
      let k := b.toNat - 128
      if k = 0 ∨ 8 < k ∨ rest.length < k then none
      else some (beValue (rest.take k), rest.drop k)

/-- Read one element with the given tag: its contents and what follows it. -/
def readDer (tag : UInt8) : Bytes → Option (Bytes × Bytes)
  | [] => none
  | t :: rest =>
    if t ≠ tag then none
    else
      match readDerLength rest with
      | none => none
      | some (n, rest) => if rest.length < n then none else some (rest.take n, rest.drop n)

/-- Base-128 components of an object identifier body after its first byte; `acc` is the component being read. -/
def readOidRest : Bytes → Nat → List Nat
  | [], _ => []
  | b :: rest, acc =>
    let acc' := 128 * acc + b.toNat % 128
    if b.toNat < 128 then acc' :: readOidRest rest 0 else readOidRest rest acc'

/-- An object identifier body: the first byte holds two components. -/
def readOid : Bytes → List Nat
  | [] => []
  | b :: rest => min (b.toNat / 40) 2 :: (b.toNat - 40 * min (b.toNat / 40) 2) :: readOidRest rest 0

/-- The IC's reading of a canister-signature public key: a DER `SubjectPublicKeyInfo` whose algorithm is the OID
1.3.6.1.4.1.56387.1.2 and whose bit string (no unused bits) is a length byte, that many bytes of canister id, and
the seed.  Gives canister id and seed. -/
def readCanisterKey (key : Bytes) : Option (Bytes × Bytes) := do
  let (spki, after) ← readDer 0x30 key
  guard (after = [])
  let (algorithm, rest) ← readDer 0x30 spki
  let (oid, after) ← readDer 0x06 algorithm
  guard (after = [])
  guard (readOid oid = [1, 3, 6, 1, 4, 1, 56387, 1, 2])
  let (bits, after) ← readDer 0x03 rest
  guard (after = [])
  match bits with
  | 0 :: len :: raw => do
    guard (len.toNat ≤ raw.length)
    some (raw.take len.toNat, raw.drop len.toNat)
  | _ => none

/-! ### CBOR (RFC 8949) -/

/-- Read the head of a data item: major type, argument, rest. -/
def readHead : Bytes → Option (Nat × Nat × Bytes)
  | [] => none
  | b :: rest =>
    let major := b.toNat / 32
    let info := b.toNat % 32
    if info < 24 then some (major, info, rest)
    else
      let width := if info = 24 then 1 else if info = 25 then 2 else if info = 26 then 4
        else if info = 27 then 8 else 0
      if width = 0 ∨ rest.length < width then none
      else some (major, beValue (rest.take width), rest.drop width)

/-- Read a head of the given major type. -/
def readMajor (major : Nat) (bs : Bytes) : Option (Nat × Bytes) :=
  match readHead bs with
  | some (m, n, rest) => if m = major then some (n, rest) else none
  | none => none

/-- Read a byte string (major type 2) or text string (major type 3). -/
def readString (major : Nat) (bs : Bytes) : Option (Bytes × Bytes) :=
  match readMajor major bs with
  | some (n, rest) => if rest.length < n then none else some (rest.take n, rest.drop n)
  | none => none

/-- Read a hash tree as the IC interface specification lays it out: arrays `[0]`, `[1, l, r]`, `[2, label, t]`,
`[3, leaf]`, `[4, digest]`.  The first argument bounds the nesting. -/
def readTree : Nat → Bytes → Option (HashTree × Bytes)
  | 0, _ => none
  | fuel + 1, bs => do
    let (len, bs) ← readMajor 4 bs
    let (kind, bs) ← readMajor 0 bs
    if (len, kind) = (1, 0) then some (.empty, bs)
    else if (len, kind) = (3, 1) then do
      let (l, bs) ← readTree fuel bs
      let (r, bs) ← readTree fuel bs
      some (.fork l r, bs)
    else if (len, kind) = (3, 2) then do
      let (label, bs) ← readString 2 bs
      let (t, bs) ← readTree fuel bs
      some (.labeled label t, bs)
    else if (len, kind) = (2, 3) then do
      let (leaf, bs) ← readString 2 bs
      some (.leaf leaf, bs)
    else if (len, kind) = (2, 4) then do
      let (digest, bs) ← readString 2 bs
      if h : digest.length = 32 then some (.pruned ⟨digest, h⟩, bs) else none
    else none

/-- Read a canister signature: the self-describing tag 55799 and the map `{"certificate": …, "tree": …}`, nothing
after it. -/
def readSignature (bs : Bytes) : Option (Bytes × HashTree) := do
  let (tag, bs) ← readMajor 6 bs
  guard (tag = 55799)
  let (entries, bs) ← readMajor 5 bs
  guard (entries = 2)
  let (key, bs) ← readString 3 bs
  guard (key = ascii "certificate")
  let (certificate, bs) ← readString 2 bs
  let (key, bs) ← readString 3 bs
  guard (key = ascii "tree")
  let (tree, bs) ← readTree bs.length bs
  guard (bs = [])
  some (certificate, tree)

/-- Every label and leaf is shorter than 2^64 bytes (no Rust buffer is longer). -/
def Addressable : HashTree → Prop
  | .empty => True
  | .fork l r => Addressable l ∧ Addressable r
  | .labeled label t => label.length < 2 ^ 64 ∧ Addressable t
  | .leaf c => c.length < 2 ^ 64
  | .pruned _ => True

/-! ### representation-independent hash -/

mutual
/-- The IC's hash of a value. -/
inductive IsValueHash (E : Env) : Value → Hash → Prop
  | blob (b : Bytes) : IsValueHash E (.bytes b) (E.sha256 b)
  | text (s : Bytes) : IsValueHash E (.string s) (E.sha256 s)
  | nat (n : UInt64) (bs : Bytes) : IsLeb128 n.toNat bs → (bs.length = 1 ∨ bs.getLast? ≠ some 0) →
      IsValueHash E (.u64 n) (E.sha256 bs)
  | array (vs : List Value) (cat : Bytes) : IsArrayInput E vs cat → IsValueHash E (.array vs) (E.sha256 cat)
/-- The concatenated hashes of an array's elements. -/
inductive IsArrayInput (E : Env) : List Value → Bytes → Prop
  | nil : IsArrayInput E [] []
  | cons (v : Value) (vs : List Value) (h : Hash) (cat : Bytes) : IsValueHash E v h → IsArrayInput E vs cat →
      IsArrayInput E (v :: vs) (h.bytes ++ cat)
end

/-- `chunk` is the hash of the key followed by the hash of the value. -/
def IsPairHash (E : Env) (kv : Bytes × Value) (chunk : Bytes) : Prop :=
  ∃ h, IsValueHash E kv.2 h ∧ chunk = (E.sha256 kv.1).bytes ++ h.bytes

/-- The IC's hash of a map: the hash of its pair hashes in lexicographic order. -/
def IsMapHash (E : Env) (entries : List (Bytes × Value)) (h : Hash) : Prop :=
  ∃ chunks sorted : List Bytes, List.Forall₂ (IsPairHash E) entries chunks ∧ sorted.Perm chunks ∧
    sorted.Pairwise (fun a b => compare a b ≠ .gt) ∧ h = E.sha256 sorted.flatten

end Siwe.Spec
