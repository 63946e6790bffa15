import Verif.Spec.PrincipalKinds
import Verif.Props.MappingAnswers
import Verif.Props.TestCanister
/-
C136: only holders of keys have addresses: neither canisters nor those who do not sign have one.
-/
namespace Siwe
open Spec

theorem kind_of_key (E : Env) (key : Bytes) :
    principalKind (principalOfKey E key) = .keyHolder ∧ (principalOfKey E key).length = 29 := by
  simp [principalKind, principalOfKey, Hash28.len]

theorem signedInAs_kind {E : Env} {es : List Event} {a p : Bytes} (h : SignedInAs E es a p) : principalKind p = .keyHolder ∧ p.length = 29 := by
  obtain ⟨_, _, _, _, _, ld, _, _, _, rfl⟩ := h
  exact kind_of_key E _

/-- C136: after any calls, a principal for which `get_address` names an address is that of a key, of 29 bytes; and so is the principal
that `get_principal` names for an address. -/
theorem C136_only_key_holders (E : Env) (h : History) (now : UInt64) (p a : Bytes)
    (hr : (step (stateAfter E h) now (.getAddress p)).2 = .bytes a ∨ (step (stateAfter E h) now (.getCallerAddress p)).2 = .bytes a ∨
      (step (stateAfter E h) now (.getPrincipal a)).2 = .bytes p) : principalKind p = .keyHolder ∧ p.length = 29 := by
  rcases hr with hr | hr | hr
  · exact signedInAs_kind (C43_get_address E h now p a hr)
  · exact signedInAs_kind (C43_get_caller_address E h now p a hr)
  · exact signedInAs_kind (C43_get_principal E h now a p hr)

/-- C136: whoever calls without a signature, and any canister, is told that there is no address, or that the mapping is disabled. -/
theorem C136_others_are_told_so (E : Env) (h : History) (now : UInt64) (caller : Bytes) (hk : principalKind caller ≠ .keyHolder)
    (hl : caller.length ≤ 29) :
    (step (stateAfter E h) now (.getCallerAddress caller)).2 = .err .noAddress ∨
      (step (stateAfter E h) now (.getCallerAddress caller)).2 = .err .principalToEthDisabled := by
  have ha := C72_get_caller_address E h now caller
  have hno := fun a hr => hk (C136_only_key_holders E h now caller a (.inr (.inl hr))).1
  generalize (step (stateAfter E h) now (.getCallerAddress caller)).2 = r at ha hno
  cases ha <;> simp_all
  all_goals omega

/-- C136: an app's canister is told no address for a caller that does not sign or is itself a canister. -/
theorem C136_whoami (E : Env) (toText : Bytes → Bytes) (h : History) (now : UInt64) (derText : Bytes)
    (call : Bytes → Bytes → CallResult) (hc : Reaches E h now derText call) (text : Bytes) (t : TestCanister)
    (hi : testInit E text = .ok t) (hp : E.principalFromText text = some E.canisterId) (caller : Bytes)
    (hk : principalKind caller ≠ .keyHolder) (who address : Bytes) : whoami toText t caller call ≠ .ok (who, address) := fun hw =>
  hk (signedInAs_kind (C71_whoami_is_the_caller E toText h now derText call hc text t hi hp caller who address hw).2).1

/-- Non-vacuity: after the example login the user's principal has an address; an anonymous caller and the canister itself have none. -/
example : (step (stateAfter Toy.env Ex.loggedIn) 200 (.getCallerAddress Ex.alicePrincipal)).2 = .bytes Ex.alice ∧
    principalKind [4] = .anonymous ∧ principalKind [0, 0, 0, 0, 0, 0, 0, 7, 1, 1] = .canister ∧ principalKind [] = .management ∧
    (step (stateAfter Toy.env Ex.loggedIn) 200 (.getCallerAddress [4])).2 = .err .noAddress := by
  decide +kernel

end Siwe
