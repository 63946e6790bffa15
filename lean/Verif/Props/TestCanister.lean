import Verif.Model.TestCanister
import Verif.Props.ErrorText
/- Property C71: an app canister that asks the provider who its caller is. -/
namespace Siwe
open Spec

/-- The calls of the app canister reach the provider, in the state after the history, or fail; other canisters answer in any way. -/
structure Spec.Reaches (E : Env) (h : History) (now : UInt64) (derText : Bytes) (callGetAddress : Bytes → Bytes → CallResult) :
    Prop where
  provider : ∀ p, callGetAddress E.canisterId p = .failed ∨
    callGetAddress E.canisterId p = ((step (stateAfter E h) now (.getAddress p)).2).asCallResult derText

/-- C71: what `whoami` tells a caller is the caller's own principal and an address that logged in with a key of that principal. -/
theorem C71_whoami_is_the_caller (E : Env) (toText : Bytes → Bytes) (h : History) (now : UInt64) (derText : Bytes)
    (call : Bytes → Bytes → CallResult) (hc : Reaches E h now derText call) (text : Bytes) (t : TestCanister)
    (hi : testInit E text = .ok t) (hp : E.principalFromText text = some E.canisterId) (caller who address : Bytes)
    (hw : whoami toText t caller call = .ok (who, address)) :
    who = toText caller ∧ SignedInAs E (trace E h) address caller := by
  simp only [testInit, hp] at hi
  cases hi
  simp only [whoami] at hw
  rcases hc.provider caller with h1 | h1
  · rw [h1] at hw; cases hw
  · rw [h1] at hw
    cases hr : (step (stateAfter E h) now (.getAddress caller)).2 with
    | bytes a =>
      rw [hr] at hw
      cases hw
      exact ⟨rfl, C43_get_address E h now caller address hr⟩
    | err e => rw [hr] at hw; cases hw
    | _ => rw [hr] at hw; cases hw

/-- C71: if `get_address` has an answer for the caller and the call goes through, `whoami` gives it; if the provider refuses,
`whoami` passes its text on. -/
theorem C71_whoami_answers (E : Env) (toText : Bytes → Bytes) (h : History) (now : UInt64) (derText : Bytes)
    (call : Bytes → Bytes → CallResult) (hc : Reaches E h now derText call) (text : Bytes) (t : TestCanister)
    (hi : testInit E text = .ok t) (hp : E.principalFromText text = some E.canisterId) (caller : Bytes)
    (hf : call E.canisterId caller ≠ .failed) :
    (∀ a, (step (stateAfter E h) now (.getAddress caller)).2 = .bytes a → whoami toText t caller call = .ok (toText caller, a)) ∧
    (∀ e, (step (stateAfter E h) now (.getAddress caller)).2 = .err e → whoami toText t caller call = .err (e.text derText)) := by
  simp only [testInit, hp] at hi
  cases hi
  have h1 := (hc.provider caller).resolve_left hf
  constructor
  · intro a ha
    rw [ha] at h1
    simp only [whoami, h1, Reply.asCallResult]
  · intro e he
    rw [he] at h1
    simp only [whoami, h1, Reply.asCallResult]

/-- C71: right after a login (with the mapping kept), the user of the returned key learns the address that logged in. -/
theorem C71_whoami_after_login (E : Env) (toText : Bytes → Bytes) (h : History) (i : SettingsInput)
    (hk : LastArgument (trace E h) i) (hf : .disablePrincipalToEthMapping ∉ i.runtimeFeatures.getD []) (t₁ t₂ : UInt64)
    (sig addr key nonce : Bytes) (d : LoginDetails) (hr : (step (stateAfter E h) t₁ (.login sig addr key nonce)).2 = .loggedIn d)
    (derText : Bytes) (call : Bytes → Bytes → CallResult)
    (hc : Reaches E (h ++ [(t₁, .login sig addr key nonce)]) t₂ derText call) (text : Bytes) (t : TestCanister)
    (hi : testInit E text = .ok t) (hp : E.principalFromText text = some E.canisterId)
    (hn : call E.canisterId (principalOfKey E d.userCanisterPubkey) ≠ .failed) :
    whoami toText t (principalOfKey E d.userCanisterPubkey) call = .ok (toText (principalOfKey E d.userCanisterPubkey), addr) :=
  (C71_whoami_answers E toText _ t₂ derText call hc text t hi hp _ hn).1 _
    ((C44_after_login E h i hk t₁ sig addr key nonce d hr t₂).1 hf)

/-- C71: once installed, `whoami` never traps; if the call fails it says so. -/
theorem C71_whoami_total (E : Env) (toText : Bytes → Bytes) (call : Bytes → Bytes → CallResult) (text : Bytes) (t : TestCanister)
    (hi : testInit E text = .ok t) (caller : Bytes) :
    whoami toText t caller call ≠ .panic ∧
    ∃ p, E.principalFromText text = some p ∧
      (call p caller = .failed → whoami toText t caller call = .err (ascii "Failed to get the caller address")) := by
  unfold testInit at hi
  cases hp : E.principalFromText text with
  | none => rw [hp] at hi; cases hi
  | some p =>
    rw [hp] at hi
    cases hi
    refine ⟨?_, p, rfl, fun hc => by simp only [whoami, hc]⟩
    simp only [whoami]
    split <;> exact nofun

/-- Calls that reach the provider after the example login. -/
def Ex.call (target p : Bytes) : CallResult :=
  if target = Toy.env.canisterId then ((step (stateAfter Toy.env Ex.loggedIn) 200 (.getAddress p)).2).asCallResult [] else .failed

/-- Non-vacuity: the signed-in user learns their address, others are told that there is none. -/
example : Reaches Toy.env Ex.loggedIn 200 [] Ex.call ∧ testInit Toy.env Toy.env.canisterId = .ok (some Toy.env.canisterId) ∧
    Toy.env.principalFromText Toy.env.canisterId = some Toy.env.canisterId ∧
    whoami id (some Toy.env.canisterId) Ex.alicePrincipal Ex.call = .ok (Ex.alicePrincipal, Ex.alice) ∧
    whoami id (some Toy.env.canisterId) [4] Ex.call = .err (ascii "No address found for the given principal") ∧
    whoami id (some []) [4] Ex.call = .err (ascii "Failed to get the caller address") := by
  refine ⟨⟨fun p => .inr ?_⟩, by decide, by decide, by decide +kernel⟩
  rw [Ex.call, if_pos rfl]

end Siwe
