import Verif.Spec.Awaiting
import Verif.Spec.MappingAnswers
/-
C125: the part of what happened that concerns one user.
-/
namespace Siwe.Spec

/-- The event is about the address: a message asked for or a login tried with it; or it is about the canister as a whole: an
installation, an upgrade, the arrival of randomness. -/
def Event.isAbout (addr : Bytes) (e : Event) : Bool :=
  match e.call with
  | .install _ | .upgrade _ | .rngSeeded _ => true
  | .prepareLogin a => a == addr
  | .login _ a _ _ => a == addr
  | _ => false

/-- The events, with their times and replies, that are about the address. -/
def about (addr : Bytes) (es : List Event) : List Event := es.filter (Event.isAbout addr)

/-- The same answer, or two messages that differ in the nonce only. -/
def SameUpToNonce (r r' : Reply) : Prop :=
  r = r' ∨ ∃ (m : Shown) (text nonce text' nonce' : Bytes), r = .prepared ⟨text, nonce⟩ ∧ r' = .prepared ⟨text', nonce'⟩ ∧
    IsSiweText { m with nonce := nonce } text ∧ IsSiweText { m with nonce := nonce' } text'

end Siwe.Spec
