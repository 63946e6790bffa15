import Verif.Model.Provider
import Verif.Model.ErrorText
/-
packages/test_canister/src/lib.rs: an app canister that asks the provider for the address of its caller.

Simplifications: principals are their bytes; their text form `toText` is a parameter; the call of the provider is executed at some
point of the provider's history, or fails (`failed`: not delivered, rejected, or the reply does not decode); a call to any other
canister answers whatever that canister likes.
-/
namespace Siwe

/-- lib.rs:8-10 `SIWE_PROVIDER_CANISTER` -/
abbrev TestCanister := Option Bytes

/-- lib.rs:49-56 `init`; `expect` on a text that is no principal traps -/
def testInit (E : Env) (provider : Bytes) : Res Empty TestCanister :=
  match E.principalFromText provider with
  | none => .panic
  | some p => .ok (some p)

/-- How the call of `get_address` ends. -/
inductive CallResult where
  | failed
  | address (a : Bytes)
  | error (text : Bytes)

/-- What the provider's reply is for the caller of the inter-canister call. -/
def Reply.asCallResult (derText : Bytes) : Reply → CallResult
  | .bytes a => .address a
  | .err e => .error (e.text derText)
  | _ => .failed

/-- lib.rs:16-45 `whoami`; `callGetAddress` is the outcome of calling `get_address` of a canister with an argument -/
def whoami (toText : Bytes → Bytes) (t : TestCanister) (caller : Bytes) (callGetAddress : Bytes → Bytes → CallResult) :
    Res Bytes (Bytes × Bytes) :=
  match t with
  | none => .panic
  | some provider =>
    match callGetAddress provider caller with
    | .failed => .err (ascii "Failed to get the caller address")
    | .error e => .err e
    | .address a => .ok (toText caller, a)

end Siwe
