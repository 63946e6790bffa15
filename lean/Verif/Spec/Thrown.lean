import Verif.Model.Thrown
import Verif.Spec.ErrorText
/-
Why a call of the client failed.
-/
namespace Siwe.Spec

/-- A failure found by the client itself, or a refusal by the canister. -/
inductive Cause where
  | noProvider | noAccount | isPreparing | isLoggingIn | noSignature
  | refused (r : Reason)
  deriving DecidableEq

/-- The cause; `none` for what the wallet, the agent or local storage threw. -/
def cause : ClientError → Option Cause
  | .noProvider => some .noProvider
  | .noAccount => some .noAccount
  | .isPreparing => some .isPreparing
  | .isLoggingIn => some .isLoggingIn
  | .noSignature => some .noSignature
  | .canister e => some (.refused (reason e))
  | .wallet | .network | .storage => none

end Siwe.Spec
