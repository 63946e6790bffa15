import Verif.Model.FullCanister
import Verif.Spec.CandidWire
import Verif.Spec.Config
/-
What can be observed of the deployed canister: the bytes it is sent and its replies.
-/
namespace Siwe.Spec
open StableBTree Candid Wire

/-- A message sent to the canister and the reply. -/
structure Exchange where
  time : UInt64
  message : RawMessage
  reply : Reply

/-- The exchanges with a canister that is sent messages one after the other. -/
def exchanges {E : Env} (c : Canister E) : List (UInt64 × RawMessage) → List Exchange
  | [] => []
  | (t, m) :: rest => ⟨t, m, (stepBytes c t m).2⟩ :: exchanges (stepBytes c t m).1 rest

/-- The deployed canister after messages, since it was created. -/
def deployed (E : Env) (ms : List (UInt64 × RawMessage)) : Canister E := (runBytes (Canister.fresh E) ms).1

/-- All exchanges since the canister was created. -/
def conversation (E : Env) (ms : List (UInt64 × RawMessage)) : List Exchange := exchanges (Canister.fresh E) ms

/-- The calls among the exchanges, without the messages that are none. -/
inductive Understood : List Exchange → List Event → Prop
  | nil : Understood [] []
  | call (x op xs es) : Requests x.message op → Understood xs es → Understood (x :: xs) (⟨x.time, op, x.reply⟩ :: es)
  | refused (x xs es) : (∀ op, ¬Requests x.message op) → Understood xs es → Understood (x :: xs) es

/-- The exchange is a request for the sign-in message of the address that was answered with the text and nonce. -/
def Exchange.Issues (x : Exchange) (addr nonce text : Bytes) : Prop :=
  Requests x.message (.prepareLogin addr) ∧ x.reply = .prepared ⟨text, nonce⟩

/-- The exchange is a login that succeeded. -/
def Exchange.LogsIn (x : Exchange) (sig addr key nonce : Bytes) (ld : LoginDetails) : Prop :=
  Requests x.message (.login sig addr key nonce) ∧ x.reply = .loggedIn ld

end Siwe.Spec
