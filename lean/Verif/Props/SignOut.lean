import Verif.Spec.SignOut
import Verif.Spec.Account
import Verif.Props.App
import Verif.Lemmas.Managers
import Verif.Props.LoginHistory
/-
C127: what ends a session.
-/
namespace Siwe
open Spec

namespace SignOut

theorem leads_mono {E : Env} {valid valid' : Bytes → Bytes → Bytes → Prop} (hv : ∀ k m s, valid k m s → valid' k m s) {k k' : Bytes}
    {ds : List SignedDelegation} (h : Leads E valid k ds k') : Leads E valid' k ds k' := by
  induction h with
  | here k => exact .here k
  | next k m k' d ds h1 h2 _ ih => exact .next k m k' d ds h1 (hv _ _ _ h2) ih

theorem accepted_mono {E : Env} {valid valid' : Bytes → Bytes → Bytes → Prop} (hv : ∀ k m s, valid k m s → valid' k m s) {now now' : UInt64}
    {r : Request} (h : Accepted E valid now r) (hn : ∀ d ∈ r.chain, now'.toNat ≤ d.delegation.expiration.toNat) : Accepted E valid' now' r := by
  obtain ⟨h1, ⟨k, h2, h3⟩, h4⟩ := h
  exact ⟨h1, ⟨k, leads_mono hv h2, hv _ _ _ h3⟩, fun d hd => ⟨hn d hd, (h4 d hd).2⟩⟩

theorem check_mono {E : Env} {other : Bytes → Bytes → Bytes → Prop} {h h' : History} (hp : h <+: h') (k m s : Bytes)
    (hc : checkAfter E other h k m s) : checkAfter E other h' k m s := by
  rcases hc with ⟨h1, c, g1, g2⟩ | hc
  · exact .inl ⟨h1, c, g1.trans hp, g2⟩
  · exact .inr hc

end SignOut
open SignOut

/-- C127: nothing ends a session before its time: a request that is accepted once is accepted at any time until its delegations expire,
whatever happens meanwhile in the page and at the canister, signing out, upgrades and new installations included. -/
theorem C127_nothing_ends_it (E : Env) (K : SessionKeys) (other : Bytes → Bytes → Bytes → Prop) (before after : List Happening)
    (now now' : UInt64) (r : Request) (ha : Accepted E (checkAfter E other (worldAfter E K before).calls) now r)
    (hn : ∀ d ∈ r.chain, now'.toNat ≤ d.delegation.expiration.toNat) :
    Accepted E (checkAfter E other (worldAfter E K (before ++ after)).calls) now' r := by
  rw [worldAfter_append]
  obtain ⟨l, hl⟩ := run_calls E K after (worldAfter E K before)
  exact accepted_mono (check_mono ⟨l, hl.symm⟩) ha hn

/-- A check of signatures that takes one byte for the session key's. -/
def Ex.oneByte (k _ sig : Bytes) : Prop := k = Ex.keys 0 ∧ sig = [1]

theorem Ex.pageRequest : Accepted Toy.env (checkAfter Toy.env Ex.oneByte (worldAfter Toy.env Ex.keys Ex.signIn).calls)
    Ex.identity.chain.delegation.expiration (requestWith Toy.env Ex.identity [5] [3] [1]) := by
  refine accepted_mono ?_ Ex.pageAccepted ?_
  · rintro k m s (h | ⟨rfl, h⟩)
    · exact .inl ⟨_, _, List.take_prefix _ _, h⟩
    · refine .inr ⟨?_, rfl, h⟩
      rintro ⟨seed, hs⟩
      rw [show readCanisterKey (Ex.keys 0) = none by decide +kernel] at hs
      cases hs
  · intro d hd
    cases List.mem_singleton.mp hd
    exact Nat.le_refl _

/-- C127 is false of the code: signing out is a matter of the page alone. -/
theorem C127_not_ended : ¬SignOutEnds Toy.env Ex.keys := fun h =>
  h Ex.oneByte Ex.signIn [] Ex.identity Ex.signIn_identity _ [5] [3] [1]
    (C127_nothing_ends_it Toy.env Ex.keys Ex.oneByte Ex.signIn [.clear] _ _ _ Ex.pageRequest fun d hd => by
      cases List.mem_singleton.mp hd
      exact Nat.le_refl _)

/-- C127, proved part: a session ends by itself.  The canister had issued a message, to the displayed account with a nonce of its logins
(or with a colliding storage key); when that is longer ago than sessions are configured to last, no request made with the identity is
accepted, whatever check of signatures there is.  Missing from C127: that signing out ends it sooner. -/
theorem C127_ends_by_itself_partial (E : Env) (K : SessionKeys) (hs : List Happening) (i : Identity)
    (hi : (worldAfter E K hs).client.ctx.identity = some i) (x : Nat) (hx : SessionsLast (worldAfter E K hs).calls x) :
    ∃ account nonce login issue addr' nonce' text d, (worldAfter E K hs).client.ctx.identityAddress = some account ∧
      login ∈ trace E (worldAfter E K hs).calls ∧ login.LogsIn account (K i.session) nonce d ∧
      issue ∈ trace E (worldAfter E K hs).calls ∧ issue.Issues addr' nonce' text ∧
      ((addr' = account ∧ nonce' = nonce) ∨ KeyCollision E account nonce addr' nonce') ∧
      ∀ (valid : Bytes → Bytes → Bytes → Prop) (now : UInt64) (id canister sig : Bytes), issue.time.toNat + x < now.toNat →
        ¬Accepted E valid now (requestWith E i id canister sig) := by
  obtain ⟨account, sig, nonce, d, e, h1, _, _, h4, h5, h6, _, _, h9, _⟩ := C57_identity_provenance E K hs i hi
  obtain ⟨b, a, ht⟩ := List.append_of_mem h4
  obtain ⟨c1, c2, e1, e2, e3, e4⟩ := traceFrom_split ht
  rw [h5, h6] at e3
  obtain ⟨b', issue, a', addr', nonce', text, s, p, g1, _, g3, g4, g5, g6, _⟩ := C19_expiration E c1 _ _ _ _ _ _ e3.symm
  have hmem : ∀ y ∈ trace E c1, y ∈ trace E (worldAfter E K hs).calls := fun y hy => by
    rw [ht]; exact List.mem_append_left _ (by rw [show b = trace E c1 from e2]; exact hy)
  refine ⟨account, nonce, e, issue, addr', nonce', text, d, h1, h4, ⟨⟨sig, h5⟩, h6⟩, hmem _ (by rw [g1]; simp), g3, g4, ?_⟩
  intro valid now id canister rsig hlt ha
  have hle := (ha.2.2 ⟨i.chain.delegation, i.chain.signature⟩ (by simp [requestWith])).1
  obtain ⟨b2, y, a2, j, q1, _, q3, _, q5⟩ := g5
  have := hx (y.time, y.call) (by
    rw [← traceFrom_timesCalls (State.fresh E) (worldAfter E K hs).calls]
    exact List.mem_map.mpr ⟨y, hmem _ (by rw [q1]; simp), rfl⟩) j q3
  rw [← q5.session] at this
  change now.toNat ≤ i.chain.delegation.expiration.toNat at hle
  rw [h9, g6] at hle
  omega

/-- C127, proved part: and the page forgets it: after `clear()`, with no login running, the session is neither displayed nor stored, until
`login()` is called again; a login makes a session key of its own (C56). -/
theorem C127_forgotten_partial (E : Env) (K : SessionKeys) (before after : List Happening)
    (hr : ∀ pc ∈ (worldAfter E K before).client.tasks, RunningLogin pc = false) (hl : .login ∉ after) :
    (worldAfter E K (before ++ .clear :: after)).client.ctx.identity = none ∧
    (worldAfter E K (before ++ .clear :: after)).client.storage = none := by
  obtain ⟨h1, _, _, h2⟩ := C60_signed_out_partial E K before after hr hl
  exact ⟨h1, h2⟩

/-- Non-vacuity: the example's page shows an identity, its message was issued at time 5 and sessions last thirty minutes. -/
example : (worldAfter Toy.env Ex.keys Ex.signIn).client.ctx.identity = some Ex.identity ∧
    SessionsLast (worldAfter Toy.env Ex.keys Ex.signIn).calls 1800000000000 ∧
    ∀ pc ∈ (worldAfter Toy.env Ex.keys Ex.signIn).client.tasks, RunningLogin pc = false := by
  refine ⟨Ex.signIn_identity, ?_, by decide +kernel⟩
  intro y hy j hj
  have h2 : ((worldAfter Toy.env Ex.keys Ex.signIn).calls.map (·.2)).all (fun | .install j => decide (j = Ex.input) | .upgrade _ => false | _ => true) = true := by
    decide +kernel
  have h3 := List.all_eq_true.mp h2 _ (List.mem_map_of_mem hy)
  rcases hj with hj | hj <;> rw [hj] at h3
  · rw [of_decide_eq_true h3]; decide
  · cases h3

end Siwe
