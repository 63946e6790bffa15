import Verif.Model.Message
import Verif.Model.SigMap
/-
packages/ic_siwe/src/delegation.rs, and the two serializers it uses (`simple_asn1::to_der`, `serde_cbor`),
which are dependencies modelled from their published source.
-/
namespace Siwe

/-- delegation.rs:20-27 `DelegationError`.  The two messages of `InvalidSessionKey` are two constructors (the
DER parser's own error text is left out); `SerializationError` cannot arise when writing to a `Vec`. -/
inductive DelegationError where
  | signatureNotFound
  | witnessHashMismatch (witnessHash rootHash : Hash)
  | sessionKeyEmpty
  | sessionKeyNotDer
  | invalidExpiration
  | signatureExpired
  deriving DecidableEq

/-- delegation.rs:54-58 `Delegation` -/
structure Delegation where
  pubkey : Bytes
  expiration : UInt64
  targets : Option (List Bytes)
  deriving DecidableEq

/-- delegation.rs:61-64 `SignedDelegation` -/
structure SignedDelegation where
  delegation : Delegation
  signature : Bytes
  deriving DecidableEq

/-- delegation.rs:92-93 the feature test of `generate_seed` -/
def uriInSeed (s : Settings) : Bool :=
  match s.runtimeFeatures with
  | some features => features.contains .includeUriInSeed
  | none => false

/-- delegation.rs:81-99 the byte string hashed by `generate_seed` -/
def seedInput (s : Settings) (address : EthAddress) : Bytes :=
  asU8 s.salt.length :: s.salt ++ asU8 address.str.length :: address.str
    ++ (if uriInSeed s then asU8 s.uri.length :: s.uri else [])

/-- delegation.rs:79-103 `generate_seed` -/
def generateSeed (E : Env) (s : Settings) (address : EthAddress) : Hash :=
  hashBytes E (seedInput s address)

/-- delegation.rs:110-138 `create_delegation` -/
def createDelegation (E : Env) (s : Settings) (sessionKey : Bytes) (expiration : UInt64) :
    Res DelegationError Delegation :=
  if sessionKey.isEmpty then .err .sessionKeyEmpty
  else if !E.derOk sessionKey then .err .sessionKeyNotDer
  else if expiration = 0 then .err .invalidExpiration
  else .ok ⟨sessionKey, expiration, s.targets⟩

/-- delegation.rs:146-171 `witness` -/
def witness (E : Env) (m : SigMap) (now : UInt64) (seed delegationHash : Hash) :
    Res DelegationError HashTree :=
  let seedHash := hashBytes E seed.bytes
  if m.isExpired now seedHash delegationHash then .err .signatureExpired
  else
    match m.witness E seedHash delegationHash with
    | none => .err .signatureNotFound
    | some w =>
      let witnessHash := w.reconstruct E
      let rootHash := m.rootHash E
      if witnessHash ≠ rootHash then .err (.witnessHashMismatch witnessHash rootHash)
      else .ok w

/-- delegation.rs:193-205 the map built by `create_delegation_hash`, in one possible iteration order -/
def delegationMap (d : Delegation) : List (Bytes × Value) :=
  [(ascii "pubkey", .bytes d.pubkey), (ascii "expiration", .u64 d.expiration)]
    ++ (match d.targets with
        | some ts => [(ascii "targets", .array (ts.map .bytes))]
        | none => [])

/-- delegation.rs:193-210 `create_delegation_hash` -/
def createDelegationHash {ε : Type} (E : Env) (d : Delegation) : Res ε Hash := do
  let h ← hashOfMap E (delegationMap d)
  .ok (hashWithDomain E (ascii "ic-request-auth-delegation") h.bytes)

/-! ### `simple_asn1::to_der` for the blocks used at delegation.rs:231-235 -/

/-- big-endian base-256 digits without leading zeros; `fuel` digits at most (8 suffice for a `usize`) -/
def beBytes : Nat → Nat → Bytes
  | 0, _ => []
  | fuel + 1, n => if n = 0 then [] else beBytes fuel (n / 256) ++ [UInt8.ofNat n]

/-- `simple_asn1::encode_len` -/
def derLen (n : Nat) : Bytes :=
  if n < 128 then [UInt8.ofNat n]
  else let b := beBytes 8 n; (0x80 ||| UInt8.ofNat b.length) :: b

/-- tag, length, contents -/
def derTlv (tag : UInt8) (contents : Bytes) : Bytes := tag :: derLen contents.length ++ contents

/-- base-128 digits of one OID component, most significant first, high bit on all but the last -/
def oidComponent (n : Nat) : Bytes :=
  if n < 128 then [UInt8.ofNat n]
  else if n < 16384 then [0x80 ||| UInt8.ofNat (n / 128), UInt8.ofNat (n % 128)]
  else [0x80 ||| UInt8.ofNat (n / 16384), 0x80 ||| UInt8.ofNat (n / 128 % 128), UInt8.ofNat (n % 128)]

/-- `ObjectIdentifier` body: the first two components share a byte -/
def oidBody : List Nat → Bytes
  | a :: b :: rest => UInt8.ofNat (a * 40 + b) :: rest.flatMap oidComponent
  | _ => []

/-- delegation.rs:231 -/
def canisterSigOid : List Nat := [1, 3, 6, 1, 4, 1, 56387, 1, 2]

/-- delegation.rs:220-236 `create_user_canister_pubkey`.  `to_der` cannot fail on these blocks. -/
def createUserCanisterPubkey (canisterId seed : Bytes) : Bytes :=
  let key := asU8 canisterId.length :: canisterId ++ seed
  let algorithm := derTlv 0x30 (derTlv 0x06 (oidBody canisterSigOid))
  let subjectPublicKey := derTlv 0x03 (0 :: key)
  derTlv 0x30 (algorithm ++ subjectPublicKey)

/-! ### `serde_cbor` for `CertificateSignature`, delegation.rs:66-70, 181-191, 245-256 -/

/-- `n` big-endian bytes of `x` -/
def beFixed : Nat → Nat → Bytes
  | 0, _ => []
  | w + 1, x => beFixed w (x / 256) ++ [UInt8.ofNat x]

/-- `serde_cbor::ser::Serializer::write_u64`: header of a major type (already shifted) with argument `n` -/
def cborHead (major : UInt8) (n : Nat) : Bytes :=
  if n < 24 then [major ||| UInt8.ofNat n]
  else if n < 256 then [major ||| 24, UInt8.ofNat n]
  else if n < 65536 then (major ||| 25) :: beFixed 2 n
  else if n < 4294967296 then (major ||| 26) :: beFixed 4 n
  else (major ||| 27) :: beFixed 8 n

/-- `serialize_bytes` -/
def cborBytes (b : Bytes) : Bytes := cborHead 0x40 b.length ++ b
/-- `serialize_str` -/
def cborText (b : Bytes) : Bytes := cborHead 0x60 b.length ++ b

/-- `impl Serialize for HashTree` (ic_certified_map): `[0]`, `[1, l, r]`, `[2, label, t]`, `[3, leaf]`,
`[4, digest]` -/
def cborTree : HashTree → Bytes
  | .empty => cborHead 0x80 1 ++ cborHead 0x00 0
  | .fork l r => cborHead 0x80 3 ++ cborHead 0x00 1 ++ cborTree l ++ cborTree r
  | .labeled label t => cborHead 0x80 3 ++ cborHead 0x00 2 ++ cborBytes label ++ cborTree t
  | .leaf c => cborHead 0x80 2 ++ cborHead 0x00 3 ++ cborBytes c
  | .pruned h => cborHead 0x80 2 ++ cborHead 0x00 4 ++ cborBytes h.bytes

/-- delegation.rs:181-191 `create_certified_signature` and 245-256 `cbor_serialize`: the self-describe tag and
a two-entry map. -/
def createCertifiedSignature (certificate : Bytes) (tree : HashTree) : Bytes :=
  [0xd9, 0xd9, 0xf7] ++ cborHead 0xa0 2
    ++ cborText (ascii "certificate") ++ cborBytes certificate
    ++ cborText (ascii "tree") ++ cborTree tree

end Siwe
