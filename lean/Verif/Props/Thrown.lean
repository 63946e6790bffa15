import Verif.Spec.Thrown
import Verif.Props.ErrorText
/-
C142: what the app is told of a failure gives the reason.
-/
namespace Siwe
open Spec

/-- The client's own messages, and the one for anything that is not an `Error`. -/
def ownMessages : List Bytes :=
  [ascii "No Ethereum provider found",
   ascii "No Ethereum address available. Call login after the user has connected their wallet.",
   ascii "Don't call login while prepareLogin is in progress",
   ascii "Don't call login while login is in progress",
   ascii "signMessage returned no data.",
   ascii "An unknown error occurred."]

theorem own_apart : ∀ m ∈ ownMessages, ∀ i : Fin 23, (head i).isPrefixOf m = false := by decide +kernel

theorem text_not_own (d : Bytes) (e : ProviderError) : e.text d ∉ ownMessages := by
  intro h
  have := own_apart _ h (headOf (reason e))
  rw [text_eq, List.isPrefixOf_iff_prefix.mpr (List.prefix_append _ _)] at this
  cases this

/-- C142: two failures that the client found or the canister reported, and for which the app sees the same message, have the same cause,
with the details of a refusal; whatever the DER parser said. -/
theorem C142_message_gives_cause (derText derText' : Bytes) (lib lib' : Thrown) (e e' : ClientError) (c c' : Cause)
    (hc : cause e = some c) (hc' : cause e' = some c') (h : e.message derText lib = e'.message derText' lib') : c = c' := by
  have own : ∀ (d : Bytes) (p : ProviderError) (m : Bytes), m ∈ ownMessages → p.text d ≠ m :=
    fun d p m hm he => text_not_own d p (he ▸ hm)
  cases e <;> cases hc <;> cases e' <;> cases hc' <;> simp only [ClientError.message, ClientError.thrown, normalizeError] at h
  all_goals first
    | rfl
    | exact congrArg Cause.refused (C67_text_gives_reason _ _ _ _ h)
    | exact absurd h (own _ _ _ (by decide +kernel))
    | exact absurd h.symm (own _ _ _ (by decide +kernel))
    | exact absurd h (by decide +kernel)

/-- C142: and it is never the message that says nothing. -/
theorem C142_not_unknown (derText : Bytes) (lib : Thrown) (e : ClientError) (c : Cause) (hc : cause e = some c) :
    e.message derText lib ≠ ascii "An unknown error occurred." := by
  have own : ∀ p : ProviderError, p.text derText ≠ ascii "An unknown error occurred." :=
    fun p he => text_not_own derText p (by rw [he]; decide +kernel)
  cases e with
  | canister p => exact own p
  | wallet | network | storage => cases hc
  | _ => simp only [ClientError.message, ClientError.thrown, normalizeError]; decide +kernel

/-- C142: of what the wallet, the agent or local storage threw, the app sees the message if it is an `Error`.

Missing: other values, see `C142_reason_lost`. -/
theorem C142_thrown_by_libraries_partial (derText m : Bytes) (e : ClientError) (hc : cause e = none) :
    e.message derText (.error m) = m := by
  cases e with
  | wallet | network | storage => rfl
  | _ => cases hc

/-- C142: of all other values the app sees the same message, so that it cannot tell a refusal by the user from another failure. -/
theorem C142_reason_lost (derText : Bytes) (v v' : Nat) (e : ClientError) (hc : cause e = none) :
    e.message derText (.other v) = e.message derText (.other v') ∧ e.message derText (.other v) = ascii "An unknown error occurred." := by
  cases e with
  | wallet | network | storage => exact ⟨rfl, rfl⟩
  | _ => cases hc

/-- Non-vacuity: causes of both kinds, and a failure of the wallet. -/
example : cause .noAccount = some .noAccount ∧ cause (.canister (.login .messageNotFound)) = some (.refused .messageNotFound) ∧
    (ClientError.canister (.login .messageNotFound)).message [] (.other 0) = ascii "Message not found" ∧ cause .wallet = none := by
  decide +kernel

end Siwe
