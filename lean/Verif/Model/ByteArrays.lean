import Verif.Model.Client
/-
packages/ic_siwe_js/src/delegation.ts down to the byte arrays of JavaScript.  `service.interface.ts:30-37` types the byte strings of a
reply as `Uint8Array | number[]`.  A `Uint8Array` is a window on an `ArrayBuffer` that may be larger; its property `buffer` is the whole
`ArrayBuffer`.  An array of numbers has no such property.

Simplification: the identity library's `new Delegation` and `DelegationChain.fromDelegations` are taken as constructors that keep what
they are given.
-/
namespace Siwe

/-- service.interface.ts:30 and 35, `Uint8Array | number[]`: a window of `length` bytes from `offset` on a buffer, or an array of numbers -/
inductive JsBytes where
  | window (buffer : Bytes) (offset length : Nat) (fits : offset + length ≤ buffer.length)
  | numbers (l : Bytes)

/-- The bytes an array has as its elements. -/
def JsBytes.elements : JsBytes → Bytes
  | .window buffer offset length _ => (buffer.drop offset).take length
  | .numbers l => l

/-- The property `buffer`; `none` is `undefined`. -/
def JsBytes.buffer : JsBytes → Option Bytes
  | .window buffer _ _ _ => some buffer
  | .numbers _ => none

/-- service.interface.ts:8-12 and 34-37, a `SignedDelegation` as it is decoded; `targets` is `[] | [Array<Principal>]` -/
structure DecodedDelegation where
  pubkey : JsBytes
  expiration : UInt64
  targets : Option (List Bytes)
  signature : JsBytes

/-- delegation.ts:11-16 `asSignature`, delegation.ts:21-28 `asDerEncodedPublicKey`: the assignment to a property of `undefined` in the third
line throws (`none`) -/
def asBuffer (a : JsBytes) : Option Bytes := a.buffer

/-- What `createDelegationChain` makes: the public key in the delegation may be `undefined`. -/
structure DecodedChain where
  pubkey : Option Bytes
  expiration : UInt64
  targets : Option (List Bytes)
  signature : Bytes
  publicKey : Bytes
  deriving DecidableEq

/-- delegation.ts:30-47 `createDelegationChain`; `none` if it throws -/
def createChain (d : DecodedDelegation) (publicKey : JsBytes) : Option DecodedChain :=
  match asBuffer d.signature with
  | none => none
  | some signature =>
    match asBuffer publicKey with
    | none => none
    | some key => some ⟨d.pubkey.buffer, d.expiration, d.targets, signature, key⟩

end Siwe
