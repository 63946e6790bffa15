import Verif.Spec.Client
/-
The states that say that something is going on.
-/
namespace Siwe.Spec

/-- A call is fetching a message. -/
def Preparing : Pc → Bool
  | .prepActor _ _ | .prepSent _ _ | .prepReplied _ _ _ => true
  | _ => false

/-- A wallet has been asked for a signature and has not answered. -/
def Signing : Pc → Bool
  | .signing _ _ => true
  | _ => false

/-- The states that say so are true to it. -/
structure BusyTruthfully (c : Client) : Prop where
  preparing : c.ctx.prepareLoginStatus = .preparing → ∃ pc ∈ c.tasks, Preparing pc = true
  loggingIn : c.ctx.loginStatus = .loggingIn → ∃ pc ∈ c.tasks, RunningLogin pc = true
  signing : c.ctx.signMessageStatus = .pending → ∃ pc ∈ c.tasks, Signing pc = true

end Siwe.Spec
