import Verif.Model.Candid
import Verif.Spec.Interface
/- The Candid specification's rules of subtyping, for the types of the interface. -/
namespace Siwe.Spec
open Candid

/-- A field of this type may be left out. -/
def MayBeMissing (e : Ty) : Prop := (∃ t, e = .opt t) ∨ e = .prim .null

/-- `CanSend w e`: a value of type `w` may be sent where the type `e` is read (`w <: e` in the Candid specification). -/
inductive CanSend : Ty → Ty → Prop where
  | prim (p : Prim) : CanSend (.prim p) (.prim p)
  /-- anything may be sent for an option -/
  | opt (w e : Ty) : CanSend w (.opt e)
  | vec {w e : Ty} : CanSend w e → CanSend (.vec w) (.vec e)
  /-- every field that is read is sent, or may be missing; more fields may be sent -/
  | record {ws es : Fields} : (∀ l w e, ws.find l = some w → es.find l = some e → CanSend w e) →
      (∀ l e, ws.find l = none → es.find l = some e → MayBeMissing e) → CanSend (.record ws) (.record es)
  /-- every case that may be sent is known; more cases may be known -/
  | variant {ws es : Fields} : (∀ l w e, ws.find l = some w → es.find l = some e → CanSend w e) →
      (∀ l w, ws.find l = some w → es.find l ≠ none) → CanSend (.variant ws) (.variant es)

/-- The Candid specification's hash of a name: the sum of its bytes, each times 223 to the power of the number of bytes after it. -/
def nameHash : Bytes → Nat
  | [] => 0
  | b :: bs => b.toNat * 223 ^ bs.length + nameHash bs

/-- A list of features: of a variant that has no cases but features, without a payload. -/
def FeatureList (t : Ty) : Prop :=
  ∃ ws : Fields, t = .vec (.variant ws) ∧ ∀ l w, ws.find l = some w → w = .prim .null ∧ ∃ f, l = label (featureName f)

end Siwe.Spec
