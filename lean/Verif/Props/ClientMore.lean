import Verif.Lemmas.ClientErrors
import Verif.Props.Client
/- Properties C65, C66: the browser client's wallet and the errors it reports. -/
namespace Siwe
open Spec

/-! ### C65 -/

/-- C65: a request for a signature goes to the wallet the app has set last since the page was loaded; if it has set none, to a
wallet that was injected into the page since then. -/
theorem C65_which_wallet_signs (E : Env) (K : SessionKeys) (hs : List Happening) (x : Happening) (os : List Output)
    (h : (worldAfter E K (hs ++ [x])).log = (worldAfter E K hs).log ++ os) (wallet : Wallet) (account text : Bytes)
    (ho : Output.sign wallet account text ∈ os) :
    appWallet hs = some wallet ∨ appWallet hs = none ∧ InjectedSinceLoad hs wallet := by
  have e : worldAfter E K (hs ++ [x]) = (worldAfter E K hs).step E K x := by simp [worldAfter, World.run]
  rw [e] at h
  refine (walletOk E K hs).wallet wallet ?_
  generalize worldAfter E K hs = w at h
  have none : w.log = w.log ++ os → False := by
    intro h
    have : os = [] := List.self_eq_append_right.mp h
    subst this
    cases ho
  cases x with
  | resume i a =>
    simp only [World.step] at h
    split at h
    · exact (none h).elim
    · have := List.append_cancel_left h
      subst this
      exact (resume_wallet w.client _ a).2 wallet account text ho
  | execute i now cert =>
    simp only [World.step] at h
    split at h
    · exact (none h).elim
    · split at h
      · exact (none h).elim
      · exact (none h).elim
  | lagging i now cert seen =>
    simp only [World.step] at h
    split at h
    · exact (none h).elim
    · split at h
      · exact (none h).elim
      · exact (none h).elim
  | _ => exact (none h).elim

/-- C65: without a wallet, neither `prepareLogin()` nor `login()` asks anybody for anything: they are rejected. -/
theorem C65_no_wallet (E : Env) (K : SessionKeys) (w : World) (h1 : w.client.wallet = none) (h2 : w.client.injected = none) :
    (w.run E K [.prepareLogin, .resume w.client.tasks.length .settled]).client.tasks[w.client.tasks.length]? =
      some (.failed .noProvider) ∧
    (w.run E K [.prepareLogin, .resume w.client.tasks.length .settled]).log = w.log ∧
    (∃ e, (e = .noProvider ∨ e = .isPreparing ∨ e = .isLoggingIn) ∧
      (w.run E K [.login, .resume w.client.tasks.length .settled]).client.tasks[w.client.tasks.length]? = some (.failed e)) ∧
    (w.run E K [.login, .resume w.client.tasks.length .settled]).log = w.log := by
  have hs : w.client.setupWalletClient = (w.client, false) := by simp [Client.setupWalletClient, h1, h2]
  have k : ∀ (c : Client) (pc : Pc), ({ w with client := w.client.start (c, pc) } : World).client.tasks[w.client.tasks.length]? =
      some pc := by
    intro c pc
    simp [Client.start]
  have r : ∀ (c : Client) (pc : Pc) (a : Answer), (World.step E K { w with client := w.client.start (c, pc) }
      (.resume w.client.tasks.length a)).client.tasks[w.client.tasks.length]? =
        some ((w.client.start (c, pc)).resume pc a).2.1 ∧
      (World.step E K { w with client := w.client.start (c, pc) } (.resume w.client.tasks.length a)).log =
        w.log ++ ((w.client.start (c, pc)).resume pc a).2.2 := by
    intro c pc a
    simp only [World.step, k]
    refine ⟨?_, trivial⟩
    rw [List.getElem?_set_self]
    simp [Client.start]
  refine ⟨?_, ?_, ?_⟩
  · simp only [World.run, List.foldl_cons, List.foldl_nil]
    rw [show World.step E K w .prepareLogin = { w with client := w.client.start (w.client, .prepWallet none false) } by
      simp [World.step, Client.startPrepareLogin, hs], (r _ _ _).1]
    rfl
  · simp only [World.run, List.foldl_cons, List.foldl_nil]
    rw [show World.step E K w .prepareLogin = { w with client := w.client.start (w.client, .prepWallet none false) } by
      simp [World.step, Client.startPrepareLogin, hs], (r _ _ _).2]
    simp [Client.resume, Client.prepareFails]
  · simp only [World.run, List.foldl_cons, List.foldl_nil]
    by_cases hp : w.client.ctx.prepareLoginStatus = .preparing
    · rw [show World.step E K w .login = { w with client := w.client.start ((w.client.loginFails .isPreparing).1,
        .failed .isPreparing) } by simp [World.step, Client.startLogin, hp], (r _ _ _).1, (r _ _ _).2]
      exact ⟨⟨_, .inr (.inl rfl), rfl⟩, by simp [Client.resume]⟩
    · by_cases hl : w.client.ctx.loginStatus = .loggingIn
      · rw [show World.step E K w .login = { w with client := w.client.start ((w.client.loginFails .isLoggingIn).1,
          .failed .isLoggingIn) } by simp [World.step, Client.startLogin, hp, hl], (r _ _ _).1, (r _ _ _).2]
        exact ⟨⟨_, .inr (.inr rfl), rfl⟩, by simp [Client.resume]⟩
      · rw [show World.step E K w .login = { w with client := w.client.start (w.client, .loginWallet false) } by
          simp [World.step, Client.startLogin, hp, hl, hs], (r _ _ _).1, (r _ _ _).2]
        exact ⟨⟨_, .inl rfl, rfl⟩, by simp [Client.resume, Client.loginFails]⟩

/-- Non-vacuity: the example sign-in's request is its ninth step in the page; a page with an injected wallet, after the app's wallet was
lost by reloading; a page without a wallet. -/
def Ex.reinjected : List Happening := Ex.page ++ [.inject (some 8), .load] ++ (Ex.fetches 0 Ex.alice 5).dropLast

example : (worldAfter Toy.env Ex.keys (Ex.page ++ Ex.fetches 0 Ex.alice 5)).log.any (fun | .sign 7 _ _ => true | _ => false) = true ∧
    (worldAfter Toy.env Ex.keys (Ex.page ++ (Ex.fetches 0 Ex.alice 5).dropLast)).log.length = 1 ∧
    appWallet (Ex.page ++ (Ex.fetches 0 Ex.alice 5).dropLast) = some 7 ∧
    (worldAfter Toy.env Ex.keys (Ex.reinjected ++ [.resume 0 .settled])).log.any (fun | .sign 8 _ _ => true | _ => false) = true ∧
    appWallet Ex.reinjected = none ∧ injectedWallet Ex.reinjected = some 8 ∧
    (worldAfter Toy.env Ex.keys []).client.wallet = none ∧ (worldAfter Toy.env Ex.keys []).client.injected = none := by
  decide +kernel

/-! ### C66 -/

/-- C66: if the canister answers a request of a `prepareLogin()` with an error, then when the answer arrives (whatever else happened
in between, short of reloading the page) the promise is rejected with that error and the state shows it. -/
theorem C66_prepare_error_reported (E : Env) (K : SessionKeys) (w : World) (i : Nat) (a : Bytes) (t : UInt64)
    (cert : Option Bytes) (between : List Happening) (e : ProviderError)
    (h1 : w.client.tasks[i]? = some (.prepSent none a)) (h2 : (step (stateAfter E w.calls) t (.prepareLogin a)).2 = .err e)
    (hb : ∀ x ∈ between, Leaves i x = true) (w' : World)
    (hw : w' = w.run E K (.execute i t cert :: between ++ [.resume i .settled])) :
    w'.client.tasks[i]? = some (.failed (.canister e)) ∧ w'.client.ctx.prepareLoginStatus = .error ∧
      w'.client.ctx.prepareLoginError = some (.canister e) := by
  subst hw
  have hi : i < w.client.tasks.length := (List.getElem?_eq_some_iff.mp h1).1
  have g1 : (w.step E K (.execute i t cert)).client.tasks[i]? = some (.prepReplied none a (.err e)) := by
    simp only [World.step, h1, Pc.request, Pc.answered, h2]
    rw [List.getElem?_set_self hi]
  have g2 := task_left_run (E := E) (K := K) between g1 hb
  rw [List.cons_append, run_cons', run_append', run_cons']
  generalize (w.step E K (.execute i t cert)).run E K between = w2 at g2 ⊢
  have hi2 : i < w2.client.tasks.length := (List.getElem?_eq_some_iff.mp g2).1
  simp only [World.run, List.foldl_nil, World.step, g2]
  refine ⟨?_, rfl, rfl⟩
  rw [List.getElem?_set_self hi2]
  rfl

/-- C66: likewise for the message a `login()` fetches for itself; the `login()` goes on to be rejected with that error. -/
theorem C66_fetch_error_reported (E : Env) (K : SessionKeys) (w : World) (i : Nat) (a b : Bytes) (t : UInt64)
    (cert : Option Bytes) (between between' : List Happening) (e : ProviderError)
    (h1 : w.client.tasks[i]? = some (.prepSent (some b) a)) (h2 : (step (stateAfter E w.calls) t (.prepareLogin a)).2 = .err e)
    (hb : ∀ x ∈ between, Leaves i x = true) (hb' : ∀ x ∈ between', Leaves i x = true) (w' w'' : World)
    (hw : w' = w.run E K (.execute i t cert :: between ++ [.resume i .settled]))
    (hw' : w'' = w'.run E K (between' ++ [.resume i .settled])) :
    w'.client.ctx.prepareLoginStatus = .error ∧ w'.client.ctx.prepareLoginError = some (.canister e) ∧
    w''.client.tasks[i]? = some (.failed (.canister e)) ∧ w''.client.ctx.loginStatus = .error ∧
      w''.client.ctx.loginError = some (.canister e) := by
  subst hw hw'
  have hi : i < w.client.tasks.length := (List.getElem?_eq_some_iff.mp h1).1
  have g1 : (w.step E K (.execute i t cert)).client.tasks[i]? = some (.prepReplied (some b) a (.err e)) := by
    simp only [World.step, h1, Pc.request, Pc.answered, h2]
    rw [List.getElem?_set_self hi]
  have g2 := task_left_run (E := E) (K := K) between g1 hb
  rw [List.cons_append, run_cons', run_append', run_append', run_cons' _ (.resume i .settled) []]
  generalize (w.step E K (.execute i t cert)).run E K between = w2 at g2 ⊢
  have hi2 : i < w2.client.tasks.length := (List.getElem?_eq_some_iff.mp g2).1
  have g3 : (w2.step E K (.resume i .settled)).client.tasks[i]? = some (.loginPrepareFailed (.canister e)) := by
    simp only [World.step, g2]
    rw [List.getElem?_set_self hi2]
    rfl
  have g4 := task_left_run (E := E) (K := K) between' g3 hb'
  refine ⟨?_, ?_, ?_⟩
  · simp only [World.run, List.foldl_nil, World.step, g2]; rfl
  · simp only [World.run, List.foldl_nil, World.step, g2]; rfl
  · rw [show (w2.step E K (.resume i .settled)).run E K [] = w2.step E K (.resume i .settled) from rfl, run_cons']
    generalize (w2.step E K (.resume i .settled)).run E K between' = w3 at g4 ⊢
    have hi3 : i < w3.client.tasks.length := (List.getElem?_eq_some_iff.mp g4).1
    simp only [World.run, List.foldl_nil, World.step, g4]
    refine ⟨?_, rfl, rfl⟩
    rw [List.getElem?_set_self hi3]
    rfl

/-- C66: likewise for the login call and the request of the delegation: the `login()` is rejected with the canister's error. -/
theorem C66_login_error_reported (E : Env) (K : SessionKeys) (w : World) (i : Nat) (pc : Pc) (op : Op) (t : UInt64)
    (cert : Option Bytes) (between : List Happening) (e : ProviderError)
    (h1 : w.client.tasks[i]? = some pc) (h2 : pc.request K cert = some op) (h3 : ∀ a, op ≠ .prepareLogin a)
    (h4 : (step (stateAfter E w.calls) t op).2 = .err e) (hb : ∀ x ∈ between, Leaves i x = true) (w' : World)
    (hw : w' = w.run E K (.execute i t cert :: between ++ [.resume i .settled])) :
    w'.client.tasks[i]? = some (.failed (.canister e)) ∧ w'.client.ctx.loginStatus = .error ∧
      w'.client.ctx.loginError = some (.canister e) := by
  subst hw
  have hi : i < w.client.tasks.length := (List.getElem?_eq_some_iff.mp h1).1
  have g1 : (w.step E K (.execute i t cert)).client.tasks[i]? = some (pc.answered (.err e)) := by
    simp only [World.step, h1, h2, h4]
    rw [List.getElem?_set_self hi]
  have g2 := task_left_run (E := E) (K := K) between g1 hb
  rw [List.cons_append, run_cons', run_append', run_cons']
  generalize (w.step E K (.execute i t cert)).run E K between = w2 at g2 ⊢
  have hi2 : i < w2.client.tasks.length := (List.getElem?_eq_some_iff.mp g2).1
  simp only [World.run, List.foldl_nil, World.step, g2]
  cases pc <;> simp only [Pc.request, reduceCtorEq, Option.some.injEq] at h2
  · exact absurd h2.symm (h3 _)
  · refine ⟨?_, rfl, rfl⟩
    rw [List.getElem?_set_self hi2]
    rfl
  · refine ⟨?_, rfl, rfl⟩
    rw [List.getElem?_set_self hi2]
    rfl

/-- C66: and so it is when a replica that lags behind answers the request of the delegation with an error. -/
theorem C66_lagging_error_reported (E : Env) (K : SessionKeys) (w : World) (i : Nat) (a : Bytes) (n : Nat) (d : LoginDetails) (t : UInt64)
    (cert : Option Bytes) (seen : Nat) (between : List Happening) (e : ProviderError)
    (h1 : w.client.tasks[i]? = some (.delegationSent a n d))
    (h4 : (step (stateAfter E (w.calls.take seen)) t (.getDelegation cert a (K n) d.expiration)).2 = .err e)
    (hb : ∀ x ∈ between, Leaves i x = true) (w' : World)
    (hw : w' = w.run E K (.lagging i t cert seen :: between ++ [.resume i .settled])) :
    w'.client.tasks[i]? = some (.failed (.canister e)) ∧ w'.client.ctx.loginStatus = .error ∧
      w'.client.ctx.loginError = some (.canister e) := by
  subst hw
  have hi : i < w.client.tasks.length := (List.getElem?_eq_some_iff.mp h1).1
  have g1 : (w.step E K (.lagging i t cert seen)).client.tasks[i]? = some (.delegationReplied a n d (.err e)) := by
    simp only [World.step, h1, Pc.query, h4]
    rw [List.getElem?_set_self hi]
    rfl
  have g2 := task_left_run (E := E) (K := K) between g1 hb
  rw [List.cons_append, run_cons', run_append', run_cons']
  generalize (w.step E K (.lagging i t cert seen)).run E K between = w2 at g2 ⊢
  have hi2 : i < w2.client.tasks.length := (List.getElem?_eq_some_iff.mp g2).1
  simp only [World.run, List.foldl_nil, World.step, g2]
  refine ⟨?_, rfl, rfl⟩
  rw [List.getElem?_set_self hi2]
  rfl

/-- C66: the page never invents an error of the canister: whenever a promise has been rejected with one, or the state shows one, the
canister gave it in answer to a request of this page. -/
theorem C66_errors_are_the_canisters (E : Env) (K : SessionKeys) (hs : List Happening) (e : ProviderError)
    (h : (∃ i : Nat, (worldAfter E K hs).client.tasks[i]? = some (.failed (.canister e))) ∨
      (worldAfter E K hs).client.ctx.prepareLoginError = some (.canister e) ∨
      (worldAfter E K hs).client.ctx.loginError = some (.canister e) ∨
      (worldAfter E K hs).client.ctx.signMessageError = some (.canister e)) :
    ∃ op, AnsweredWith E (worldAfter E K hs).calls op (.err e) ∧ Requested K (worldAfter E K hs).log op := by
  have x := worldErr E K hs
  rcases h with ⟨i, h⟩ | h | h | h
  · exact x.tasks _ (List.mem_of_getElem? h) _ rfl e rfl
  · exact x.ctx.prepare _ h e rfl
  · exact x.ctx.login _ h e rfl
  · exact x.ctx.sign _ h e rfl

/-- The wallet offers an address without a checksum: the canister refuses to prepare. -/
def Ex.badAddress : Bytes := ascii "0x00"

/-- Non-vacuity: a `prepareLogin()` whose request is on its way and will be refused; a `login()` in the same situation; a
`login()` after a successful one, whose message is used up (C62): the canister's error is reported. -/
example : (worldAfter Toy.env Ex.keys (Ex.page ++ (Ex.pagePrepares 0 Ex.badAddress 5).take 4)).client.tasks[0]? =
      some (.prepSent none Ex.badAddress) ∧
    (step (stateAfter Toy.env (worldAfter Toy.env Ex.keys (Ex.page ++ (Ex.pagePrepares 0 Ex.badAddress 5).take 4)).calls) 5
      (.prepareLogin Ex.badAddress)).2 = .err (.eth .addressFormatError) ∧
    (worldAfter Toy.env Ex.keys (Ex.page ++ Ex.pagePrepares 0 Ex.badAddress 5)).client.ctx.prepareLoginError =
      some (.canister (.eth .addressFormatError)) ∧
    (worldAfter Toy.env Ex.keys (Ex.page ++ (Ex.fetches 0 Ex.badAddress 5).take 6)).client.tasks[0]? =
      some (.prepSent (some Ex.badAddress) Ex.badAddress) ∧
    (worldAfter Toy.env Ex.keys (Ex.page ++ Ex.fetches 0 Ex.badAddress 5)).client.ctx.loginError =
      some (.canister (.eth .addressFormatError)) ∧
    (worldAfter Toy.env Ex.keys (Ex.signIn ++ [.login, .resume 1 .settled, .resume 1 (.addresses [Ex.alice]),
      .resume 1 (.signature Ex.aliceSig), .resume 1 .settled, .execute 1 200 none, .resume 1 .settled])).client.ctx.loginError =
      some (.canister (.login .messageNotFound)) := by
  decide +kernel

/-- Non-vacuity: a replica that has not executed the login is asked for the delegation. -/
example : (worldAfter Toy.env Ex.keys (Ex.page ++ Ex.fetches 0 Ex.alice 5 ++ (Ex.finishes 0 Ex.aliceSig 100).take 4)).client.tasks[0]? =
      some (.delegationSent Ex.alice 0 Ex.details) ∧
    (worldAfter Toy.env Ex.keys (Ex.page ++ Ex.fetches 0 Ex.alice 5 ++ (Ex.finishes 0 Ex.aliceSig 100).take 4 ++
      [.lagging 0 110 (some [9]) 3, .resume 0 .settled])).client.ctx.loginError =
      some (.canister (.delegation .signatureNotFound)) := by
  decide +kernel

end Siwe
