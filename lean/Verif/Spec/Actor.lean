import Verif.Model.Actor
/-
What an app relies on when the client calls the canister.
-/
namespace Siwe.Spec

/-- The app's options set this property to this value. -/
def Sets (options : Option JsObject) (name : Bytes) (value : JsValue) : Prop := ∃ o, options = some o ∧ o name = some value

/-- The app's options do not mention this property. -/
def LeavesOut (options : Option JsObject) (name : Bytes) : Prop := ∀ o, options = some o → o name = none

/-- The app was built for the Internet Computer: `DFX_NETWORK` is `ic`. -/
def BuiltForIc (network : Option (Option Bytes)) : Prop := network = some (some (ascii "ic"))

/-- The client accepts an answer if it is certified under the key its agent uses. -/
def Accepts (certified : Bytes → Bytes → Prop) (icKey hostKey : Bytes) (agent : JsObject) (answer : Bytes) : Prop :=
  certified (rootKeyUsed icKey hostKey agent) answer

end Siwe.Spec
