import Verif.Model.Storage
import Verif.Spec.Eth
import Verif.Spec.JsonGrammar
/-
Specifications of the JSON texts: what the object printed for a message contains, when @dfinity/identity's JSON forms are
lossless, and which stored texts hold an identity.
-/
namespace Siwe.Spec

/-- The object has the message's ten fields under their Rust names, in their order, texts as strings and numbers in decimals. -/
def IsObjectOf (m : SiweMessage) (j : Json) : Prop :=
  ∃ version chainId issuedAt expirationTime, IsDecimal m.version.toNat version ∧ IsDecimal m.chainId.toNat chainId ∧
    IsDecimal m.issuedAt.toNat issuedAt ∧ IsDecimal m.expirationTime.toNat expirationTime ∧
    j = .obj [(ascii "scheme", .str m.scheme), (ascii "domain", .str m.domain), (ascii "address", .str m.address),
      (ascii "statement", .str m.statement), (ascii "uri", .str m.uri), (ascii "version", .num version),
      (ascii "chain_id", .num chainId), (ascii "nonce", .str m.nonce), (ascii "issued_at", .num issuedAt),
      (ascii "expiration_time", .num expirationTime)]

/-- `fromJSON` of the text of what `toJSON` returned gives the value back; `toJSON` returns a JSON array or object, one that
JSON has a text for. -/
structure Lossless (L : IdentityLib) : Prop where
  key : ∀ k, L.keyFromJson (L.keyToJson k).text = some k
  keyText : ∀ k, ∃ t, JsonText t (L.keyToJson k)
  keyShape : ∀ k, (∃ l, L.keyToJson k = .arr l) ∨ ∃ l, L.keyToJson k = .obj l
  chain : ∀ c, L.chainFromJson (L.chainToJson c).text = some c
  chainText : ∀ c, ∃ t, JsonText t (L.chainToJson c)
  chainShape : ∀ c, (∃ l, L.chainToJson c = .arr l) ∨ ∃ l, L.chainToJson c = .obj l

/-- The object's value under a name: that of the last field so named. -/
def HasField (j : Json) (name : Bytes) (v : Json) : Prop :=
  ∃ before after, j = .obj (before ++ (name, v) :: after) ∧ ∀ f ∈ after, f.1 ≠ name

/-- JavaScript's falsy JSON values: `null`, `false`, the empty string, and numbers with no digit but zeros before `e` or `E`. -/
def Falsy (v : Json) : Prop :=
  v = .null ∨ v = .bool false ∨ v = .str [] ∨
    ∃ t, v = .num t ∧ ∀ c ∈ t.takeWhile (fun c => decide (c ≠ 101 ∧ c ≠ 69)), ¬(49 ≤ c ∧ c ≤ 57)

/-- A text found in local storage holds an identity: it is a JSON text of an object with an address, a session identity and a
delegation chain, none of them falsy, and the latter two are accepted by @dfinity/identity. -/
def HoldsIdentity (L : IdentityLib) (t : Bytes) (address : Json) (i : Identity) : Prop :=
  ∃ j session chain, JsonText t j ∧
    HasField j (ascii "address") address ∧ ¬Falsy address ∧
    HasField j (ascii "sessionIdentity") session ∧ ¬Falsy session ∧
    HasField j (ascii "delegationChain") chain ∧ ¬Falsy chain ∧
    L.keyFromJson session.text = some i.session ∧ L.chainFromJson chain.text = some i.chain

end Siwe.Spec
