import Verif.Spec.Request
import Verif.Spec.Nonce
/- What a user signs, and for which app. -/
namespace Siwe.Spec

/-- The text asks to sign in to the domain: it begins as ERC-4361 prescribes for it. -/
def AsksFor (domain text : Bytes) : Prop :=
  ∃ rest, text = domain ++ ascii " wants you to sign in with your Ethereum account:\n" ++ rest

end Siwe.Spec
