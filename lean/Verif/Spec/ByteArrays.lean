import Verif.Model.ByteArrays
/-
The bytes of a decoded reply, and of the chain made from it.
-/
namespace Siwe.Spec

/-- The array was decoded from these bytes. -/
def ElementsAre (a : JsBytes) (b : Bytes) : Prop := a.elements = b

/-- The decoded reply of the canister `sd`. -/
structure Decodes (d : DecodedDelegation) (sd : SignedDelegation) : Prop where
  pubkey : ElementsAre d.pubkey sd.delegation.pubkey
  expiration : d.expiration = sd.delegation.expiration
  targets : d.targets = sd.delegation.targets
  signature : ElementsAre d.signature sd.signature

/-- The chain consists of exactly the bytes of `c`. -/
def SameBytes (x : DecodedChain) (c : Chain) : Prop :=
  x.pubkey = some c.delegation.pubkey ∧ x.expiration = c.delegation.expiration ∧ x.targets = c.delegation.targets ∧
    x.signature = c.signature ∧ x.publicKey = c.publicKey

/-- The array is a `Uint8Array` that has its buffer to itself. -/
def OwnsBuffer : JsBytes → Prop
  | .window buffer offset length _ => offset = 0 ∧ length = buffer.length
  | .numbers _ => False

end Siwe.Spec
