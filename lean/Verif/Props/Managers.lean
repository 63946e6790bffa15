import Verif.Lemmas.Managers
import Verif.Props.Client
/- C83: several managers in a page. -/
namespace Siwe
open Spec

theorem pageAfter_append (E : Env) (K : SessionKeys) (hs hs' : List PageHappening) :
    pageAfter E K (hs ++ hs') = (pageAfter E K hs).run E K hs' := by simp [pageAfter, Page.run]

/-- C83: making another manager changes nothing of what the page displays, stores and does: the store, local storage, the running calls
and the other managers' wallets stay, and nothing is asked of anybody. -/
theorem C83_another_manager (E : Env) (K : SessionKeys) (hs : List PageHappening) :
    (pageAfter E K (hs ++ [.create])).world.client.ctx = (pageAfter E K hs).world.client.ctx ∧
    (pageAfter E K (hs ++ [.create])).world.client.storage = (pageAfter E K hs).world.client.storage ∧
    (pageAfter E K (hs ++ [.create])).world.client.tasks = (pageAfter E K hs).world.client.tasks ∧
    (pageAfter E K (hs ++ [.create])).world.client.generated = (pageAfter E K hs).world.client.generated ∧
    (pageAfter E K (hs ++ [.create])).world.calls = (pageAfter E K hs).world.calls ∧
    (pageAfter E K (hs ++ [.create])).world.log = (pageAfter E K hs).world.log ∧
    (pageAfter E K (hs ++ [.create])).wallets = (pageAfter E K hs).wallets ++ [none] ∧
    (pageAfter E K (hs ++ [.create])).owners = (pageAfter E K hs).owners := by
  obtain ⟨hs', _, v, h⟩ := page_like E K hs
  rw [pageAfter_append]
  generalize pageAfter E K hs = p at h
  have c := create_same E K hs'
  rw [h] at c
  have k := create_keeps p.world.client
  have c' := congrArg (fun w => w.client.ctx) c
  exact ⟨c', k.2.1, k.1, k.2.2.1, rfl, rfl, rfl, rfl⟩

/-- C83: whatever managers a page has made, an identity is displayed only after the canister accepted a login of the displayed account
(see C57). -/
theorem C83_identity_provenance (E : Env) (K : SessionKeys) (hs : List PageHappening) (i : Identity)
    (h : (pageAfter E K hs).world.client.ctx.identity = some i) :
    ∃ account sig nonce d e, (pageAfter E K hs).world.client.ctx.identityAddress = some account ∧
      (pageAfter E K hs).world.client.ctx.delegationChain = some i.chain ∧
      Output.login sig account i.session nonce ∈ (pageAfter E K hs).world.log ∧
      e ∈ trace E (pageAfter E K hs).world.calls ∧ e.call = .login sig account (K i.session) nonce ∧ e.reply = .loggedIn d ∧
      i.chain.publicKey = d.userCanisterPubkey ∧ i.chain.delegation.pubkey = K i.session ∧
      i.chain.delegation.expiration = d.expiration ∧
      ∃ e' ∈ trace E (pageAfter E K hs).world.calls, ∃ addr' nonce' text, e'.Issues addr' nonce' text ∧
        ((addr' = account ∧ nonce' = nonce) ∨ KeyCollision E account nonce addr' nonce') ∧ Signs E sig text account := by
  obtain ⟨hs', _, v, hw⟩ := page_like E K hs
  have := C57_identity_provenance E K hs' i
  rw [hw] at this
  exact this h

/-- C83: no two login calls of a page, on whatever managers, carry the public key of the same session identity. -/
theorem C83_fresh_session_keys (E : Env) (K : SessionKeys) (hK : Function.Injective K) (hs : List PageHappening) :
    ((sentSessions (pageAfter E K hs).world.log).map K).Nodup := by
  obtain ⟨hs', _, v, hw⟩ := page_like E K hs
  have := C56_fresh_session_keys E K hK hs'
  rw [hw] at this
  exact this

/-- C83: a request for a signature comes from a call of some manager and goes to the wallet the app has set last on that manager; if it has
set none there, to a wallet that was injected into the page since it was loaded.  The other managers' wallets do not matter. -/
theorem C83_which_wallet_signs (E : Env) (K : SessionKeys) (hs : List PageHappening) (x : PageHappening) (os : List Output)
    (h : (pageAfter E K (hs ++ [x])).world.log = (pageAfter E K hs).world.log ++ os) (wallet : Wallet) (account text : Bytes)
    (ho : Output.sign wallet account text ∈ os) :
    ∃ i a j, x = .resume i a ∧ (managerOfCalls hs)[i]? = some j ∧
      ((managerWallets hs)[j]? = some (some wallet) ∨ (managerWallets hs)[j]? = some none ∧ PageInjected hs wallet) := by
  have ok := pageOk E K hs
  rw [pageAfter_append] at h
  generalize pageAfter E K hs = p at ok h
  have none : p.world.log = p.world.log ++ os → False := by
    intro h
    have : os = [] := List.self_eq_append_right.mp h
    subst this
    cases ho
  have quiet : ∀ j y new, (∀ w : World, (w.step E K y).log = w.log) → (p.on E K j y new).world.log = p.world.log ++ os → False := by
    intro j y new hy h
    unfold Page.on at h
    split at h
    · exact none h
    · simp only [hy] at h; exact none h
  cases x with
  | resume i a =>
    simp only [Page.run, List.foldl_cons, List.foldl_nil, Page.step] at h
    split at h
    · exact (none h).elim
    · next j hj =>
      refine ⟨i, a, j, rfl, ok.owners ▸ hj, ok.wallet j wallet ?_⟩
      unfold Page.on at h
      split at h
      · exact (none h).elim
      · next v hv =>
        rw [hv]
        simp only [World.step] at h
        split at h
        · exact (none h).elim
        · have := List.append_cancel_left h
          subst this
          exact congrArg some ((resume_wallet (p.world.withWallet v).client _ a).2 wallet account text ho)
  | execute i t c =>
    simp only [Page.run, List.foldl_cons, List.foldl_nil, Page.step, World.step] at h
    split at h
    · exact (none h).elim
    · split at h <;> exact (none h).elim
  | lagging i t c seen =>
    simp only [Page.run, List.foldl_cons, List.foldl_nil, Page.step, World.step] at h
    split at h
    · exact (none h).elim
    · split at h <;> exact (none h).elim
  | setWallet j w => exact (quiet _ _ _ (fun _ => rfl) h).elim
  | prepareLogin j => exact (quiet _ _ _ (fun _ => rfl) h).elim
  | login j => exact (quiet _ _ _ (fun _ => rfl) h).elim
  | clear j => exact (quiet _ _ _ (fun _ => rfl) h).elim
  | _ => exact (none h).elim

/-- C83: signing out on any manager signs the page out: if `clear()` is called on one while no `login` is running on any, then whatever happens
later, making managers and reloading included, nobody is displayed as signed in and nothing is stored, until `login()` is called on some
manager.  (A running `login` is the exception of C60.) -/
theorem C83_signed_out (E : Env) (K : SessionKeys) (before after : List PageHappening) (j : Nat)
    (hj : j < (managerWallets before).length)
    (hr : ∀ pc ∈ (pageAfter E K before).world.client.tasks, RunningLogin pc = false) (hl : ∀ k, .login k ∉ after) :
    (pageAfter E K (before ++ .clear j :: after)).world.client.ctx.identity = none ∧
    (pageAfter E K (before ++ .clear j :: after)).world.client.ctx.identityAddress = none ∧
    (pageAfter E K (before ++ .clear j :: after)).world.client.ctx.delegationChain = none ∧
    (pageAfter E K (before ++ .clear j :: after)).world.client.storage = none := by
  obtain ⟨hb, _, v, hw⟩ := page_like E K before
  have hlt : j < (pageAfter E K before).wallets.length := (pageOk E K before).count ▸ hj
  have e : pageAfter E K (before ++ .clear j :: after) = ((pageAfter E K before).step E K (.clear j)).run E K after := by
    rw [pageAfter_append]; rfl
  rw [e]
  generalize pageAfter E K before = p at hr hw hlt
  -- the page right after `clear()`, as one with a single manager
  have h1 : Like E K (p.step E K (.clear j)) (hb ++ [.clear]) := by
    refine ⟨v, ?_⟩
    rw [worldAfter_append, hw]
    simp only [Page.step, Page.on, List.getElem?_eq_getElem hlt]
    rfl
  obtain ⟨ha, h2, v', h3⟩ := run_like after h1
  have h4 : .login ∉ ha := by
    intro h
    rcases h2 _ h with h | ⟨e, he, h⟩
    · rcases h with h | ⟨_, h⟩ <;> cases h
    · cases e with
      | login k => exact hl k he
      | _ => cases h
  have := C60_signed_out_partial E K hb ha (by rw [hw]; exact hr) h4
  rw [show hb ++ .clear :: ha = hb ++ [.clear] ++ ha by simp, h3] at this
  exact this

/-! Examples. -/

/-- The page makes a second manager, with another wallet; the user starts to log in with the first and logs in with the second. -/
def Ex.managers : List PageHappening :=
  [.other 1 (.install Ex.input), .other 2 (.rngSeeded [1, 2, 3]), .setWallet 0 7, .prepareLogin 0, .resume 0 .settled,
    .resume 0 (.addresses [Ex.alice]), .resume 0 .settled, .create, .setWallet 1 8, .execute 0 5 none, .resume 0 .settled,
    .login 1, .resume 1 .settled, .resume 1 (.addresses [Ex.alice]), .resume 1 (.signature Ex.aliceSig), .resume 1 .settled,
    .execute 1 100 none, .resume 1 .settled, .execute 1 110 (some [9]), .resume 1 .settled]

/-- Non-vacuity: the second manager's login uses the message fetched by the first and its own wallet, and succeeds; a third manager
leaves the user signed in; signing out on the first signs out for all. -/
example : managerWallets Ex.managers = [some 7, some 8] ∧ managerOfCalls Ex.managers = [0, 1] ∧
    (pageAfter Toy.env Ex.keys Ex.managers).world.log.filterMap (fun | .sign w a _ => some (w, a) | _ => none) = [(8, Ex.alice)] ∧
    (pageAfter Toy.env Ex.keys (Ex.managers ++ [.create])).world.client.ctx.identity.map (·.session) = some 0 ∧
    (pageAfter Toy.env Ex.keys (Ex.managers ++ [.create])).world.client.ctx.loginStatus = .success ∧
    (∀ pc ∈ (pageAfter Toy.env Ex.keys Ex.managers).world.client.tasks, RunningLogin pc = false) ∧
    (pageAfter Toy.env Ex.keys (Ex.managers ++ .clear 0 :: [.create, .load])).world.client.ctx.identity = none := by
  decide +kernel

end Siwe
