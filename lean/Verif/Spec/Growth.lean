import Verif.Spec.Config
/- Counting the messages that were issued. -/
namespace Siwe.Spec

/-- The call issued a sign-in message. -/
def Event.isIssue (e : Event) : Bool :=
  match e.reply with
  | .prepared _ => true
  | _ => false

/-- The number of messages issued in the period from `x` before to `p` after the time `t`. -/
def issuedAround (es : List Event) (t x p : Nat) : Nat :=
  es.countP fun e => e.isIssue && decide (t ≤ e.time.toNat + x ∧ e.time.toNat ≤ t + p)

/-- Every message was issued to be signed within `x` nanoseconds, at most. -/
def SignInsWithin (E : Env) (es : List Event) (x : Nat) : Prop :=
  ∀ before e after s p, es = before ++ e :: after → e.isIssue = true → InForce E before s p → s.signInExpiresIn.toNat ≤ x

end Siwe.Spec
