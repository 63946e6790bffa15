import Verif.Props.Client
/- C76: whether a displayed identity is expired. -/
namespace Siwe
open Spec

/-- C76, proved part: a displayed identity was not yet expired when the canister accepted the login it comes from, if sessions are
configured to last at least as long as sign-ins (the proviso C20 needs).  Missing: later, see below. -/
theorem C76_unexpired_at_login_partial (E : Env) (K : SessionKeys) (hs : List Happening) (i : Identity)
    (h : (worldAfter E K hs).client.ctx.identity = some i) :
    ∃ calls t sig account nonce d later, (worldAfter E K hs).client.ctx.identityAddress = some account ∧
      (worldAfter E K hs).calls = calls ++ (t, Op.login sig account (K i.session) nonce) :: later ∧
      (step (stateAfter E calls) t (.login sig account (K i.session) nonce)).2 = .loggedIn d ∧
      i.chain.delegation.expiration = d.expiration ∧
      ((∀ s p, InForce E (trace E calls) s p → s.signInExpiresIn.toNat ≤ s.sessionExpiresIn.toNat) →
        t.toNat < i.chain.delegation.expiration.toNat) := by
  obtain ⟨account, sig, nonce, d, e, g1, _, _, g2, g3, g4, _, _, g5, _⟩ := C57_identity_provenance E K hs i h
  obtain ⟨b, a, hb⟩ := List.append_of_mem g2
  obtain ⟨h1, h2, q1, q2, q3, q4⟩ := traceFrom_split hb
  rw [g3] at q1 q3
  rw [g4] at q3
  refine ⟨h1, e.time, sig, account, nonce, d, h2, g1, q1, q3.symm, g5, fun hc => ?_⟩
  rw [g5]
  exact C20_unexpired_partial E h1 e.time sig account (K i.session) nonce d q3.symm hc

/-- Non-vacuity: the example's identity, and how long it lasts. -/
example : (worldAfter Toy.env Ex.keys Ex.signIn).client.ctx.identity = some Ex.identity ∧
    Ex.identity.chain.delegation.expiration = 1800000000005 := ⟨Ex.signIn_identity, by decide +kernel⟩

/-- What a user would expect: a page that is loaded after time `t` shows no identity that was expired at `t`. -/
def ShowsUnexpired (E : Env) (K : SessionKeys) : Prop :=
  ∀ hs t op i, (worldAfter E K (hs ++ [.other t op, .load])).client.ctx.identity = some i →
    t.toNat < i.chain.delegation.expiration.toNat

/-- That fails of the code: `loadIdentity` does not look at the expiration. -/
theorem C76_not_checked : ¬ShowsUnexpired Toy.env Ex.keys := by
  intro H
  have := H Ex.signIn 1900000000000 (.getPrincipal Ex.alice) Ex.identity (by decide +kernel)
  exact absurd this (by decide +kernel)

end Siwe
