import Verif.Model.Json
import Verif.Model.Client
/-
packages/ic_siwe_js/src/local-storage.ts, with the text that local storage holds.  `Model/Client.lean` keeps the saved values
themselves; here is the JSON they are saved as, and how any text found there is read.
-/
namespace Siwe

/-- @dfinity/identity's JSON forms of session identities and delegation chains: the values `toJSON()` returns
(local-storage.ts:46-47), and `fromJSON`, which is given a text and may throw (local-storage.ts:26-28). -/
structure IdentityLib where
  keyToJson : Nat → Json
  keyFromJson : Bytes → Option Nat
  chainToJson : Chain → Json
  chainFromJson : Bytes → Option Chain

/-- The value of a property of what `JSON.parse` returned; `none` is `undefined`.  Of several fields with the same name the last
counts (ECMA-262, InternalizeJSONProperty); values other than objects have none of the properties asked for. -/
def Json.field (k : Bytes) : Json → Option Json
  | .obj l => (l.reverse.find? fun f => f.1 == k).map (·.2)
  | _ => none

/-- Whether a value counts as true in a condition.  A number is false if all digits before its exponent are zero; that a number may be
too small for a double is not modelled. -/
def Json.truthy : Json → Bool
  | .null => false
  | .bool b => b
  | .num t => (t.takeWhile fun c => decide (c ≠ 101 ∧ c ≠ 69)).any fun c => decide (49 ≤ c ∧ c ≤ 57)
  | .str s => !s.isEmpty
  | .arr _ => true
  | .obj _ => true

/-- local-storage.ts:22, a field that is not falsy -/
def Json.required (k : Bytes) (j : Json) : Option Json :=
  match j.field k with
  | none => none
  | some v => if v.truthy then some v else none

/-- local-storage.ts:14-33 `loadIdentity`; `none` if it throws.  The address is whatever value is found, a string or not.
`JSON.parse` may return `null`, of which line 22 asks a property and throws. -/
def loadIdentity (L : IdentityLib) (item : Option Bytes) : Option (Json × Identity) :=
  match item with
  | none => none
  | some [] => none
  | some t =>
    match Json.parse t with
    | none => none
    | some s =>
      match s.required (ascii "address"), s.required (ascii "sessionIdentity"), s.required (ascii "delegationChain") with
      | some address, some session, some chain =>
        match L.chainFromJson chain.text with
        | none => none
        | some d =>
          match L.keyFromJson session.text with
          | none => none
          | some k => some (address, ⟨k, d⟩)
      | _, _, _ => none

/-- local-storage.ts:38-51 `saveIdentity`: the text that is stored -/
def saveIdentity (L : IdentityLib) (s : Stored) : Bytes :=
  Json.text (.obj [
    (ascii "address", .str s.address),
    (ascii "sessionIdentity", L.keyToJson s.session),
    (ascii "delegationChain", L.chainToJson s.chain)])

end Siwe
