import Verif.Spec.Binding
import Verif.Props.ClientMore
/-
C126: a signature opens one session, for the session key that is presented first with it.
-/
namespace Siwe
open Spec

/-- What the signature does not cover: wherever a login succeeds, it succeeds as well with any other acceptable session key, and to the
same identity and until the same time. -/
theorem C126_any_key (E : Env) (h : History) (now : UInt64) (sig addr key key' nonce : Bytes) (d : LoginDetails)
    (hr : (step (stateAfter E h) now (.login sig addr key nonce)).2 = .loggedIn d) (hk : key' ≠ []) (hder : E.derOk key' = true) :
    (step (stateAfter E h) now (.login sig addr key' nonce)).2 = .loggedIn d := by
  have h1 := C14_decision E h now sig addr key nonce
  rw [hr] at h1
  refine C14_one_answer _ _ _ _ _ _ _ _ (C14_decision E h now sig addr key' nonce) ?_
  cases h1 with
  | success m txt s seed _ g1 g2 g3 g4 g5 g6 g7 g8 g9 g10 => exact .success m txt s seed d g1 g2 g3 g4 hk hder g7 g8 g9 g10

/-- C126 is false of the code: the text that is signed does not name the session key. -/
theorem C126_not_bound : ¬BoundToKey Toy.env := by
  intro hb
  have := hb Ex.prepared 100 Ex.aliceSig Ex.alice Ex.key [48, 9] (Ex.nonce 3) Ex.details Ex.details (by decide +kernel) (by decide +kernel)
  exact absurd this (by decide)

/-- C126, proved part: once a login was tried with a nonce, by anyone and for any session key, every other login with it is told that
there is no such message, unless the canister issued the nonce to the address again (or with a colliding storage key).  So a signature
opens one session at most, and an owner whose signature was used by somebody else is not logged in but told.  Missing from C126: that the
session is for the owner's key. -/
theorem C126_first_only_partial (E : Env) (h1 h2 : History) (t now : UInt64) (sig sig' addr key key' nonce : Bytes)
    (ha : IsAddress E.keccak addr) (hs : HexString 130 sig) (hs' : HexString 130 sig') :
    (step (stateAfter E (h1 ++ (t, .login sig addr key nonce) :: h2)) now (.login sig' addr key' nonce)).2 = .err (.login .messageNotFound) ∨
    ∃ e ∈ traceFrom (stateAfter E (h1 ++ [(t, .login sig addr key nonce)])) h2, ∃ addr' nonce' text,
      e.Issues addr' nonce' text ∧ ((addr' = addr ∧ nonce' = nonce) ∨ KeyCollision E addr nonce addr' nonce') := by
  by_cases hp : ∃ m, Pending (stateAfter E (h1 ++ (t, .login sig addr key nonce) :: h2)) addr nonce m
  · obtain ⟨m, hp⟩ := hp
    exact .inr (attempt_spent E h1 h2 t sig addr key nonce m ha hs hp)
  · refine .inl (C14_one_answer _ _ _ _ _ _ _ _ (C14_decision E _ now sig' addr key' nonce) ?_)
    exact .notFound ha hs' fun ⟨m, txt, h, _⟩ => hp ⟨m, h⟩

/-- C126, proved part, in the page: if somebody else's login with the page's message was executed before the page's own, `login()` is
rejected, and the state says so: the message was not found.  (Unless the canister issued the nonce to the account again in between, or with a
colliding storage key.) -/
theorem C126_page_told_partial (E : Env) (K : SessionKeys) (w : World) (i : Nat) (account : Bytes) (p : PrepareLoginOkResponse)
    (sig : Bytes) (n : Nat) (h1 : w.client.tasks[i]? = some (.loginSent account p sig n)) (ha : IsAddress E.keccak account)
    (hs : HexString 130 sig) (before after : History) (t : UInt64) (sig' key : Bytes) (hs' : HexString 130 sig')
    (hc : w.calls = before ++ (t, .login sig' account key p.nonce) :: after) (now : UInt64) (cert : Option Bytes)
    (between : List Happening) (hb : ∀ x ∈ between, Leaves i x = true) (w' : World)
    (hw : w' = w.run E K (.execute i now cert :: between ++ [.resume i .settled])) :
    (w'.client.tasks[i]? = some (.failed (.canister (.login .messageNotFound))) ∧ w'.client.ctx.loginStatus = .error ∧
      w'.client.ctx.loginError = some (.canister (.login .messageNotFound))) ∨
    ∃ e ∈ traceFrom (stateAfter E (before ++ [(t, .login sig' account key p.nonce)])) after, ∃ addr' nonce' text,
      e.Issues addr' nonce' text ∧ ((addr' = account ∧ nonce' = p.nonce) ∨ KeyCollision E account p.nonce addr' nonce') := by
  rcases C126_first_only_partial E before after t now sig' sig account key (K n) p.nonce ha hs' hs with h | h
  · rw [← hc] at h
    exact .inl (C66_login_error_reported E K w i _ _ now cert between _ h1 rfl (fun _ h => nomatch h) h hb w' hw)
  · exact .inr h

/-- Non-vacuity: the example's signature, used first by somebody with a key of their own, then by its owner. -/
example : (step (stateAfter Toy.env Ex.prepared) 50 (.login Ex.aliceSig Ex.alice [48, 9] (Ex.nonce 3))).2 = .loggedIn Ex.details ∧
    (step (stateAfter Toy.env (Ex.prepared ++ [(50, .login Ex.aliceSig Ex.alice [48, 9] (Ex.nonce 3))])) 100
      (.login Ex.aliceSig Ex.alice Ex.key (Ex.nonce 3))).2 = .err (.login .messageNotFound) := by
  decide +kernel

/-- Non-vacuity: the page's login is on its way when somebody who has seen the signature logs in with it. -/
example : (worldAfter Toy.env Ex.keys (Ex.page ++ Ex.fetches 0 Ex.alice 5 ++ (Ex.finishes 0 Ex.aliceSig 100).take 2 ++
      [.other 50 (.login Ex.aliceSig Ex.alice [48, 9] (Ex.nonce 3))])).client.tasks[0]?.map (Pc.request Ex.keys none) =
      some (some (.login Ex.aliceSig Ex.alice (Ex.keys 0) (Ex.nonce 3))) ∧
    (worldAfter Toy.env Ex.keys (Ex.page ++ Ex.fetches 0 Ex.alice 5 ++ (Ex.finishes 0 Ex.aliceSig 100).take 2 ++
      [.other 50 (.login Ex.aliceSig Ex.alice [48, 9] (Ex.nonce 3)), .execute 0 100 none, .resume 0 .settled])).client.ctx.loginError =
      some (.canister (.login .messageNotFound)) := by
  decide +kernel

end Siwe
