import Verif.Spec.Message
import Verif.Model.Delegation
/- The string an identity is derived from, and the setting it depends on. -/
namespace Siwe.Spec

/-- The `IncludeUriInSeed` feature is on. -/
def UsesUri (s : Settings) : Prop := ∃ fs, s.runtimeFeatures = some fs ∧ .includeUriInSeed ∈ fs

/-- The string hashed into the seed of an identity: salt, address and, when `uri` is given, the URI, each
preceded by its length modulo 256. -/
def identityString (salt address : Bytes) (uri : Option Bytes) : Bytes :=
  UInt8.ofNat salt.length :: salt ++ UInt8.ofNat address.length :: address ++
    (match uri with
      | some u => UInt8.ofNat u.length :: u
      | none => [])

/-- What the identity string ends with for the URI, if it is included. -/
def uriPart : Option Bytes → Bytes
  | some u => UInt8.ofNat u.length :: u
  | none => []

/-- The principal of a public key, by the IC interface specification ("Principals", self-authenticating ids): the SHA-224
hash of the DER-encoded key followed by the byte 0x02. -/
def principalOfKey (E : Env) (key : Bytes) : Bytes := (E.sha224 key).bytes ++ [0x02]

/-- The string that is hashed for an address's identity under a configuration. -/
def IdentityInput (s : Settings) (addr x : Bytes) : Prop :=
  (UsesUri s ∧ x = identityString s.salt addr (some s.uri)) ∨ (¬UsesUri s ∧ x = identityString s.salt addr none)

end Siwe.Spec
