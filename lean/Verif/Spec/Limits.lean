import Verif.Model.Limits
import Verif.Spec.Trace
/- What calls do on a machine with limits. -/
namespace Siwe.Spec

/-- The calls of a history with their times and answers, on a machine with limits. -/
def limitedTrace {E : Env} (L : Limits) (s : State E) : History → List Event
  | [] => []
  | (now, op) :: rest => ⟨now, op, (L.step s now op).2⟩ :: limitedTrace L (L.step s now op).1 rest

/-- Users call the canister's methods; they do not install or upgrade it, or seed its generator. -/
def UserCall : Op → Prop
  | .install _ | .upgrade _ | .rngSeeded _ => False
  | _ => True

/-- Everyone prepares a sign-in before logging in with it: an address and a nonce are used to log in only after a message was issued for
them. -/
def PreparesFirst (es : List Event) : Prop :=
  ∀ before e after sig addr key nonce, es = before ++ e :: after → e.call = .login sig addr key nonce →
    ∃ e' ∈ before, ∃ text, e'.Issues addr nonce text

end Siwe.Spec
