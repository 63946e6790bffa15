import Verif.Spec.Trace
import Verif.Spec.Embedding
/-
Replicas of one canister whose hash maps keep their entries in different orders.
-/
namespace Siwe.Spec

/-- Two states that differ at most in the order in which the pending sign-ins are kept. -/
def SameButOrder {E : Env} (s s' : State E) : Prop :=
  ∃ M, s.lib.messages.Perm M ∧ s' = { s with lib := { s.lib with messages := M } }

/-- A replica that has made these observations and is in this state: between the calls its pending sign-ins may be rearranged in any way. -/
inductive Replica (E : Env) : List Event → State E → Prop
  | new : Replica E [] (State.fresh E)
  | rearranged {es : List Event} {s s' : State E} : Replica E es s → SameButOrder s s' → Replica E es s'
  | called {es : List Event} {s : State E} (now : UInt64) (op : Op) : Replica E es s →
      Replica E (es ++ [⟨now, op, (step s now op).2⟩]) (step s now op).1

/-- The calls among the observations. -/
def callsAmong (es : List Event) : History := es.map fun e => (e.time, e.call)

/-- The same of a canister that embeds the library: only the order of the library's pending sign-ins may differ. -/
def AppSameButOrder {E : Env} (s s' : AppState E) : Prop :=
  ∃ M, s.lib.messages.Perm M ∧ s' = { s with lib := { s.lib with messages := M } }

/-- A replica of such a canister. -/
inductive AppReplica (E : Env) : List LibEvent → AppState E → Prop
  | new : AppReplica E [] (AppState.fresh E)
  | rearranged {es : List LibEvent} {s s' : AppState E} : AppReplica E es s → AppSameButOrder s s' → AppReplica E es s'
  | used {es : List LibEvent} {s : AppState E} (now : UInt64) (c : LibCall) : AppReplica E es s →
      AppReplica E (es ++ [⟨now, c, (appStep s now c).2⟩]) (appStep s now c).1

/-- The uses of the library among the observations. -/
def usesAmong (es : List LibEvent) : LibHistory := es.map fun e => (e.time, e.call)

end Siwe.Spec
