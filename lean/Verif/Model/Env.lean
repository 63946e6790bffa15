import Verif.Model.Basic
/-
The parameters of the model: everything the code calls whose inner working is not modelled.
All theorems are stated for an arbitrary `Env`.
-/
namespace Siwe

/-- A parsed URL, reduced to what settings.rs:180-197 looks at
(`Url::has_authority`, `Url::has_host`/`Url::host_str`; the latter two agree in the `url` crate). -/
structure ParsedUrl where
  hasAuthority : Bool
  hostStr : Option Bytes
  deriving DecidableEq

/-- A 28-byte SHA-224 digest. -/
structure Hash28 where
  bytes : Bytes
  len : bytes.length = 28
  deriving DecidableEq

/-- External functions used by the modelled code. -/
structure Env where
  /-- `sha2::Sha256` -/
  sha256 : Bytes → Hash
  /-- `sha2::Sha224`, used inside `Principal::self_authenticating` -/
  sha224 : Bytes → Hash28
  /-- `tiny_keccak::Keccak::v256` -/
  keccak : Bytes → Hash
  /-- `k256::ecdsa::Signature::from_slice` on 64 bytes succeeds -/
  sigOk : Bytes → Bool
  /-- `k256::ecdsa::VerifyingKey::recover_from_prehash(hash, r‖s, recovery_id)`; the result is the key's
  uncompressed SEC1 encoding without its first byte (64 bytes x‖y) -/
  recoverKey : Hash → Bytes → UInt8 → Option Bytes
  /-- `simple_asn1::from_der` succeeds -/
  derOk : Bytes → Bool
  /-- `url::Url::parse` -/
  urlParse : Bytes → Option ParsedUrl
  /-- `Principal::from_text` -/
  principalFromText : Bytes → Option Bytes
  /-- states of `ChaCha20Rng` -/
  Rng : Type
  /-- `ChaCha20Rng::from_seed` -/
  rngFromSeed : Bytes → Rng
  /-- `fill_bytes` of a 10-byte buffer: the buffer and the next state -/
  rngFill10 : Rng → { b : Bytes // b.length = 10 } × Rng
  /-- `ic_cdk::id()`: this canister's principal, at most 29 bytes -/
  canisterId : Bytes
  canisterId_len : canisterId.length ≤ 29

end Siwe
