import Verif.Spec.Client
import Verif.Spec.Trace
/- How an app is meant to use the browser client, and how often messages are issued and used. -/
namespace Siwe.Spec

/-- The app calls `login()` only when no `login()` of the page is running and no login has succeeded since `clear()` was called or the
page was loaded. -/
def AppWaits (E : Env) (K : SessionKeys) (hs : List Happening) : Prop :=
  ∀ before after, hs = before ++ .login :: after →
    (∀ pc ∈ (worldAfter E K before).client.tasks, RunningLogin pc = false) ∧
    (worldAfter E K before).client.ctx.loginStatus ≠ .success

/-- How many of the requests are logins with the nonce. -/
def loginsWith (nonce : Bytes) (log : List Output) : Nat :=
  log.countP fun o => match o with
    | .login _ _ _ n => n == nonce
    | _ => false

/-- How many times the canister has answered with a message with the nonce. -/
def timesIssued (E : Env) (nonce : Bytes) (calls : History) : Nat :=
  (trace E calls).countP fun e => match e.reply with
    | .prepared p => p.nonce == nonce
    | _ => false

end Siwe.Spec
