import Verif.Model.Client
import Verif.Model.ErrorText
/-
packages/ic_siwe_js/src/error.ts: what the app is given for what was thrown.  JavaScript can throw any value; those that are not `Error`
objects are numbered.  Of an `Error` object only the message is kept.
-/
namespace Siwe

/-- A thrown value. -/
inductive Thrown where
  | error (message : Bytes)
  | other (value : Nat)
  deriving DecidableEq

/-- error.ts:1-5 `normalizeError`, as the message of the `Error` it returns -/
def normalizeError : Thrown → Bytes
  | .error message => message
  | .other _ => ascii "An unknown error occurred."

/-- What is thrown for each error of the client: index.ts:101, 137-139, 181, 185, 192-194, 226; siwe-provider.ts:50, 79, 105 for the canister's
errors.  The wallet, the agent and local storage throw values of their own (`lib`).  The errors of index.ts:209-211 and siwe-provider.ts:44, 68, 95 do not
arise. -/
def ClientError.thrown (derText : Bytes) (lib : Thrown) : ClientError → Thrown
  | .noProvider => .error (ascii "No Ethereum provider found")
  | .noAccount => .error (ascii "No Ethereum address available. Call login after the user has connected their wallet.")
  | .isPreparing => .error (ascii "Don't call login while prepareLogin is in progress")
  | .isLoggingIn => .error (ascii "Don't call login while login is in progress")
  | .noSignature => .error (ascii "signMessage returned no data.")
  | .canister e => .error (e.text derText)
  | .wallet => lib
  | .network => lib
  | .storage => lib

/-- The message the app sees in `prepareLoginError`, `loginError` or `signMessageError`, and in the rejected promise: index.ts:161-168, 228-235,
293-301.  (An error caught twice is normalised twice; the second time changes nothing.) -/
def ClientError.message (derText : Bytes) (lib : Thrown) (e : ClientError) : Bytes := normalizeError (e.thrown derText lib)

end Siwe
