import Verif.Model.IdentityJson
import Verif.Spec.Der
import Verif.Spec.Client
/- Vocabulary for reloading a page: the session keys @dfinity/identity generates, and the chains its JSON form is able to carry. -/
namespace Siwe.Spec

/-- The session identities with these numbers are pairs of an Ed25519 public key and its private key, of 32 bytes each and no two the
same, and `K` gives the public keys in the form of RFC 8410. -/
def GeneratedKeys (P : IdentityJson.KeyPairs) (K : SessionKeys) (sessions : List Nat) : Prop :=
  ∀ n ∈ sessions, (P.pub n).length = 32 ∧ (P.priv n).length = 32 ∧ P.number (P.pub n) (P.priv n) = some n ∧
    K n = [0x30, 0x2a, 0x30, 0x05, 0x06, 0x03, 0x2b, 0x65, 0x70, 0x03, 0x21, 0x00] ++ P.pub n

/-- Both keys and the signature of the chain have at least 32 bytes. -/
def LongEnough (c : Chain) : Prop :=
  32 ≤ c.delegation.pubkey.length ∧ 32 ≤ c.signature.length ∧ 32 ≤ c.publicKey.length

end Siwe.Spec
