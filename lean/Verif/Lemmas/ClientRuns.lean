import Verif.Lemmas.Client
/- More invariants of the browser client: accounts, signing out, reported status. -/
namespace Siwe
open Spec

/-! ### Accounts -/

/-- All accounts a call works with satisfy `P`. -/
def Pc.only (P : Bytes → Prop) : Pc → Prop
  | .prepWallet f _ | .prepAddresses f => ∀ x, f = some x → P x
  | .prepActor f x | .prepSent f x | .prepReplied f x _ => (∀ y, f = some y → P y) ∧ P x
  | .loginPrepared x _ | .signing x _ | .loginActor x _ _ _ | .loginSent x _ _ _ | .loginReplied x _ _ _ _
  | .delegationSent x _ _ | .delegationReplied x _ _ _ => P x
  | _ => True

theorem prepareFails_only {P : Bytes → Prop} (c : Client) (f : Option Bytes) (e : ClientError) :
    (c.prepareFails f e).2.1.only P ∧ (c.prepareFails f e).2.2 = [] := by
  cases f <;> exact ⟨trivial, rfl⟩

theorem requestSignature_only {P : Bytes → Prop} {a : Bytes} (h : P a) (c : Client) (p : PrepareLoginOkResponse) :
    (c.requestSignature a p).2.1.only P ∧ ∀ o ∈ (c.requestSignature a p).2.2, P o.account := by
  unfold Client.requestSignature
  refine ⟨h, ?_⟩
  intro o ho
  simp only at ho
  split at ho
  · simp only [List.mem_singleton] at ho; subst ho; exact h
  · cases ho

theorem resume_only {P : Bytes → Prop} (c : Client) (pc : Pc) (ans : Answer) (h : pc.only P)
    (ha : ∀ x l, ans = .addresses (x :: l) → P x) :
    (c.resume pc ans).2.1.only P ∧ ∀ o ∈ (c.resume pc ans).2.2, P o.account := by
  have fails : ∀ f e, (c.prepareFails f e).2.1.only P ∧ ∀ o ∈ (c.prepareFails f e).2.2, P o.account := by
    intro f e
    refine ⟨(prepareFails_only c f e).1, ?_⟩
    rw [(prepareFails_only (P := P) c f e).2]; simp
  have lfails : ∀ e, (c.loginFails e).2.1.only P ∧ ∀ o ∈ (c.loginFails e).2.2, P o.account := by
    intro e; exact ⟨trivial, by simp [Client.loginFails]⟩
  have sfails : ∀ e, (c.signatureFails e).2.1.only P ∧ ∀ o ∈ (c.signatureFails e).2.2, P o.account := by
    intro e; exact ⟨trivial, by simp [Client.signatureFails, Client.loginFails]⟩
  unfold Client.resume
  split
  · exact ⟨h, by simp⟩
  · exact fails _ _
  · next l =>
    unfold Client.prepareWith
    split
    · exact fails _ _
    · next x l =>
      split
      · exact fails _ _
      · exact ⟨⟨h, ha x l rfl⟩, by simp⟩
  · exact fails _ _
  · exact ⟨h, by simpa [Output.account] using h.2⟩
  · exact fails _ _
  · exact fails _ _
  · next f x r =>
    unfold Client.prepareReply
    split
    · refine ⟨?_, by simp⟩
      cases f with
      | none => exact trivial
      | some y => exact h.1 y rfl
    · exact fails _ _
    · exact fails _ _
  · exact fails _ _
  · exact ⟨trivial, by simp⟩
  · exact lfails _
  · unfold Client.loginWith
    split
    · exact lfails _
    · next x l =>
      have hx := ha x l rfl
      split
      · exact lfails _
      · split
        · exact requestSignature_only hx _ _
        · refine ⟨?_, by simp⟩
          intro y hy; cases hy; exact hx
  · exact lfails _
  · exact requestSignature_only h _ _
  · exact lfails _
  · unfold Client.signed
    split
    · exact sfails _
    · exact ⟨h, by simp⟩
  · exact sfails _
  · refine ⟨h, ?_⟩
    intro o ho
    simp only [List.mem_singleton] at ho; subst ho; exact h
  · exact lfails _
  · exact lfails _
  · unfold Client.loginReply
    split
    · refine ⟨h, ?_⟩
      intro o ho
      simp only [List.mem_singleton] at ho; subst ho; exact h
    · exact lfails _
    · exact lfails _
  · exact lfails _
  · exact lfails _
  · unfold Client.delegationReply
    split
    · rw [if_neg (by simp)]
      exact ⟨trivial, by simp⟩
    · exact lfails _
    · exact lfails _
  · unfold Client.delegationReply
    split
    · rw [if_pos rfl]
      exact lfails _
    · exact lfails _
    · exact lfails _
  · exact lfails _
  · exact ⟨h, by simp⟩

/-- Only accounts with `P` are worked with. -/
structure OnlyOk (P : Bytes → Prop) (w : World) : Prop where
  tasks : ∀ pc ∈ w.client.tasks, pc.only P
  log : ∀ o ∈ w.log, P o.account

theorem OnlyOk.join {P : Bytes → Prop} {w : World} (x : OnlyOk P w) (c : Client) (pc : Pc) (h : pc.only P) :
    OnlyOk P { w with client := w.client.start (c, pc) } := by
  refine ⟨fun pc' hpc => ?_, x.log⟩
  rcases List.mem_append.mp hpc with hpc | hpc
  · exact x.tasks pc' hpc
  · simp only [List.mem_singleton] at hpc
    subst hpc; exact h

theorem onlyOk_step {E : Env} {K : SessionKeys} {P : Bytes → Prop} {w : World} (x : OnlyOk P w) (e : Happening)
    (ha : ∀ i y l, e = .resume i (.addresses (y :: l)) → P y) : OnlyOk P (w.step E K e) := by
  cases e with
  | load => exact ⟨by simp [World.step, Client.load, Client.construct], x.log⟩
  | create => exact ⟨by simpa only [World.step, (create_keeps w.client).1] using x.tasks, x.log⟩
  | setWallet y => exact ⟨x.tasks, x.log⟩
  | inject y => exact ⟨x.tasks, x.log⟩
  | clear => exact ⟨x.tasks, x.log⟩
  | other now op => exact ⟨x.tasks, x.log⟩
  | prepareLogin => exact x.join _ _ (fun _ h => by cases h)
  | login =>
    simp only [World.step, Client.startLogin]
    split
    · exact x.join _ _ trivial
    · split
      · exact x.join _ _ trivial
      · exact x.join _ _ trivial
  | execute i now cert =>
    simp only [World.step]
    split
    · exact x
    · next pc hpc =>
      split
      · exact x
      · next op hop =>
        refine ⟨fun pc' h' => ?_, x.log⟩
        rcases mem_set h' with rfl | h'
        · have := x.tasks pc (List.mem_of_getElem? hpc)
          cases pc <;> simp [Pc.request] at hop <;> exact this
        · exact x.tasks pc' h'
  | lagging i now cert seen =>
    simp only [World.step]
    split
    · exact x
    · next pc hpc =>
      split
      · exact x
      · next op hop =>
        refine ⟨fun pc' h' => ?_, x.log⟩
        rcases mem_set h' with rfl | h'
        · have := x.tasks pc (List.mem_of_getElem? hpc)
          cases pc <;> simp [Pc.query] at hop <;> exact this
        · exact x.tasks pc' h'
  | resume i ans =>
    simp only [World.step]
    split
    · exact x
    · next pc hpc =>
      obtain ⟨k1, k2⟩ := resume_only w.client pc ans (x.tasks pc (List.mem_of_getElem? hpc)) (fun y l h => ha i y l (by rw [h]))
      refine ⟨fun pc' h' => ?_, fun o ho => ?_⟩
      · rcases mem_set h' with rfl | h'
        · exact k1
        · exact x.tasks pc' h'
      · rcases List.mem_append.mp ho with ho | ho
        · exact x.log o ho
        · exact k2 o ho

theorem onlyOk {E : Env} {K : SessionKeys} {P : Bytes → Prop} (hs : List Happening)
    (ha : ∀ i y l, Happening.resume i (.addresses (y :: l)) ∈ hs → P y) : OnlyOk P (worldAfter E K hs) := by
  have : ∀ w, OnlyOk P w → OnlyOk P (World.run E K w hs) := by
    clear * - ha
    induction hs with
    | nil => exact fun w x => x
    | cons e hs ih =>
      exact fun w x => ih (fun i y l h => ha i y l (List.mem_cons_of_mem _ h)) _
        (onlyOk_step x e fun i y l h => ha i y l (by rw [h]; exact List.mem_cons_self))
  exact this _ ⟨by simp [World.initial, Client.load, Client.construct], by simp [World.initial]⟩

/-! ### Signing out -/

/-- Nobody is signed in and no `login` is running. -/
structure OutClient (c : Client) : Prop where
  storage : c.storage = none
  identity : c.ctx.identity = none
  address : c.ctx.identityAddress = none
  chain : c.ctx.delegationChain = none

theorem OutClient.of {c c' : Client} (x : OutClient c) (h2 : c'.storage = c.storage)
    (h3 : c'.ctx.identityAddress = c.ctx.identityAddress) (h4 : c'.ctx.identity = c.ctx.identity)
    (h5 : c'.ctx.delegationChain = c.ctx.delegationChain) : OutClient c' :=
  ⟨h2 ▸ x.storage, h4 ▸ x.identity, h3 ▸ x.address, h5 ▸ x.chain⟩

theorem prepareFails_out {c : Client} (x : OutClient c) (f : Option Bytes) (e : ClientError) (hf : f.isSome = false) :
    OutClient (c.prepareFails f e).1 ∧ RunningLogin (c.prepareFails f e).2.1 = false := by
  cases f with
  | none => exact ⟨x.of rfl rfl rfl rfl, rfl⟩
  | some _ => cases hf

theorem resume_out {c : Client} (x : OutClient c) (pc : Pc) (ans : Answer) (h : RunningLogin pc = false) :
    OutClient (c.resume pc ans).1 ∧ RunningLogin (c.resume pc ans).2.1 = false := by
  unfold Client.resume
  split <;> try (exact Bool.noConfusion (show true = false from h))
  · exact ⟨x, h⟩
  · exact prepareFails_out x _ _ h
  · unfold Client.prepareWith
    split
    · exact prepareFails_out x _ _ h
    · split
      · exact prepareFails_out x _ _ h
      · exact ⟨x.of rfl rfl rfl rfl, h⟩
  · exact prepareFails_out x _ _ h
  · exact ⟨x, h⟩
  · exact prepareFails_out x _ _ h
  · exact prepareFails_out x _ _ h
  · next f _ r =>
    unfold Client.prepareReply
    split
    · refine ⟨x.of rfl rfl rfl rfl, ?_⟩
      cases f with
      | none => rfl
      | some _ => cases h
    · exact prepareFails_out x _ _ h
    · exact prepareFails_out x _ _ h
  · exact prepareFails_out x _ _ h
  · exact ⟨x, h⟩

structure OutOk' (w : World) : Prop where
  client : OutClient w.client
  tasks : ∀ pc ∈ w.client.tasks, RunningLogin pc = false

theorem outOk_step {E : Env} {K : SessionKeys} {w : World} (x : OutOk' w) (e : Happening) (he : e ≠ .login) :
    OutOk' (w.step E K e) := by
  cases e with
  | load =>
    refine ⟨?_, by simp [World.step, Client.load, Client.construct]⟩
    have := x.client.storage
    constructor <;> simp [World.step, Client.load, Client.construct, this, Context.initial]
  | create =>
    refine ⟨?_, by simpa only [World.step, (create_keeps w.client).1] using x.tasks⟩
    have := x.client.storage
    have := x.client.identity
    have := x.client.address
    have := x.client.chain
    constructor <;> simp_all [World.step, Client.create, Client.construct]
  | setWallet y => exact ⟨x.client.of rfl rfl rfl rfl, x.tasks⟩
  | inject y => exact ⟨x.client.of rfl rfl rfl rfl, x.tasks⟩
  | clear => exact ⟨⟨rfl, rfl, rfl, rfl⟩, x.tasks⟩
  | other now op => exact ⟨x.client, x.tasks⟩
  | prepareLogin =>
    have g := setup_ctx w.client
    refine ⟨x.client.of ?_ ?_ ?_ ?_, fun pc hpc => ?_⟩
    · exact g.2.1
    all_goals try (simp only [World.step, Client.startPrepareLogin, Client.start, g.1])
    rcases List.mem_append.mp hpc with h | h
    · exact x.tasks pc h
    · simp only [List.mem_singleton] at h
      subst h; rfl
  | login => exact absurd rfl he
  | execute i now cert =>
    simp only [World.step]
    split
    · exact x
    · next pc hpc =>
      split
      · exact x
      · next op hop =>
        refine ⟨x.client.of rfl rfl rfl rfl, fun pc' h' => ?_⟩
        rcases mem_set h' with rfl | h'
        · have := x.tasks pc (List.mem_of_getElem? hpc)
          cases pc <;> simp [Pc.request] at hop <;> exact this
        · exact x.tasks pc' h'
  | lagging i now cert seen =>
    simp only [World.step]
    split
    · exact x
    · next pc hpc =>
      split
      · exact x
      · next op hop =>
        refine ⟨x.client.of rfl rfl rfl rfl, fun pc' h' => ?_⟩
        rcases mem_set h' with rfl | h'
        · have := x.tasks pc (List.mem_of_getElem? hpc)
          cases pc <;> simp [Pc.query] at hop <;> exact this
        · exact x.tasks pc' h'
  | resume i ans =>
    simp only [World.step]
    split
    · exact x
    · next pc hpc =>
      obtain ⟨k1, k2⟩ := resume_out x.client pc ans (x.tasks pc (List.mem_of_getElem? hpc))
      refine ⟨k1.of rfl rfl rfl rfl, fun pc' h' => ?_⟩
      rcases mem_set h' with rfl | h'
      · exact k2
      · exact x.tasks pc' h'

theorem outOk_run {E : Env} {K : SessionKeys} {w : World} (x : OutOk' w) (hs : List Happening) (h : .login ∉ hs) :
    OutOk' (w.run E K hs) := by
  induction hs generalizing w with
  | nil => exact x
  | cons e hs ih =>
    simp only [List.mem_cons, not_or] at h
    exact ih (outOk_step x e (fun g => h.1 g.symm)) h.2

/-! ### Status -/

/-- What the reported status promises. -/
structure StatusOk (c : Client) : Prop where
  success : c.ctx.loginStatus = .success → c.ctx.identity.isSome
  error : c.ctx.loginStatus = .error → c.ctx.loginError.isSome
  prepare : c.ctx.prepareLoginStatus = .error → c.ctx.prepareLoginError.isSome

theorem StatusOk.of {c c' : Client} (x : StatusOk c) (h1 : c'.ctx.loginStatus = c.ctx.loginStatus)
    (h2 : c'.ctx.identity = c.ctx.identity) (h3 : c'.ctx.loginError = c.ctx.loginError)
    (h4 : c'.ctx.prepareLoginStatus = c.ctx.prepareLoginStatus) (h5 : c'.ctx.prepareLoginError = c.ctx.prepareLoginError) :
    StatusOk c' :=
  ⟨h1 ▸ h2 ▸ x.success, h1 ▸ h3 ▸ x.error, h4 ▸ h5 ▸ x.prepare⟩

theorem prepareFails_status {c : Client} (x : StatusOk c) (f : Option Bytes) (e : ClientError) :
    StatusOk (c.prepareFails f e).1 := ⟨x.success, x.error, fun _ => rfl⟩

theorem loginFails_status {c : Client} (x : StatusOk c) (e : ClientError) : StatusOk (c.loginFails e).1 :=
  ⟨(fun h => (nomatch h)), fun _ => rfl, x.prepare⟩

theorem signatureFails_status {c : Client} (x : StatusOk c) (e : ClientError) : StatusOk (c.signatureFails e).1 :=
  ⟨(fun h => (nomatch h)), fun _ => rfl, x.prepare⟩

theorem requestSignature_status {c : Client} (x : StatusOk c) (a : Bytes) (p : PrepareLoginOkResponse) :
    StatusOk (c.requestSignature a p).1 := x.of rfl rfl rfl rfl rfl

theorem loggingIn_status {c : Client} (x : StatusOk c) : StatusOk c.loggingIn :=
  ⟨(fun h => (nomatch h)), (fun h => (nomatch h)), x.prepare⟩

theorem resume_status {c : Client} (x : StatusOk c) (pc : Pc) (ans : Answer) : StatusOk (c.resume pc ans).1 := by
  unfold Client.resume
  split
  · exact x
  · exact prepareFails_status x _ _
  · unfold Client.prepareWith
    split
    · exact prepareFails_status x _ _
    · split
      · exact prepareFails_status x _ _
      · exact ⟨x.success, x.error, (fun h => (nomatch h))⟩
  · exact prepareFails_status x _ _
  · exact x
  · exact prepareFails_status x _ _
  · exact prepareFails_status x _ _
  · unfold Client.prepareReply
    split
    · exact ⟨x.success, x.error, (fun h => (nomatch h))⟩
    · exact prepareFails_status x _ _
    · exact prepareFails_status x _ _
  · exact prepareFails_status x _ _
  · exact x
  · exact loginFails_status x _
  · unfold Client.loginWith
    split
    · exact loginFails_status x _
    · split
      · exact loginFails_status x _
      · split
        · exact requestSignature_status (loggingIn_status x) _ _
        · have g := setup_ctx c.loggingIn
          refine (loggingIn_status x).of ?_ ?_ ?_ ?_ ?_ <;> simp only [Client.startPrepareLogin, g.1]
  · exact loginFails_status x _
  · exact requestSignature_status x _ _
  · exact loginFails_status x _
  · unfold Client.signed
    split
    · exact signatureFails_status x _
    · exact x.of rfl rfl rfl rfl rfl
  · exact signatureFails_status x _
  · exact x
  · exact loginFails_status x _
  · exact loginFails_status x _
  · unfold Client.loginReply
    split
    · exact x
    · exact loginFails_status x _
    · exact loginFails_status x _
  · exact loginFails_status x _
  · exact loginFails_status x _
  · unfold Client.delegationReply
    split
    · rw [if_neg (by simp)]
      exact ⟨fun _ => rfl, (fun h => (nomatch h)), x.prepare⟩
    · exact loginFails_status x _
    · exact loginFails_status x _
  · unfold Client.delegationReply
    split
    · rw [if_pos rfl]
      exact loginFails_status x _
    · exact loginFails_status x _
    · exact loginFails_status x _
  · exact loginFails_status x _
  · exact x

theorem statusOk_load (c : Client) : StatusOk c.load := by
  cases hc : c.storage <;>
    exact ⟨by simp [Client.load, Client.construct, hc, Context.initial], by simp [Client.load, Client.construct, hc, Context.initial],
      by simp [Client.load, Client.construct, hc, Context.initial]⟩

theorem statusOk_create {c : Client} (x : StatusOk c) : StatusOk c.create := by
  have k := create_keeps c
  refine ⟨fun h => ?_, ?_, ?_⟩
  · rw [k.2.2.2.2.2.2.2.2.1] at h
    have := x.success h
    cases hc : c.storage <;> simp [Client.create, Client.construct, hc, this]
  · rw [k.2.2.2.2.2.2.2.2.1, k.2.2.2.2.2.2.2.2.2.1]; exact x.error
  · rw [k.2.2.2.2.2.1, k.2.2.2.2.2.2.1]; exact x.prepare

theorem statusOk_step {E : Env} {K : SessionKeys} {w : World} (x : StatusOk w.client) (e : Happening) :
    StatusOk (w.step E K e).client := by
  cases e with
  | load => exact statusOk_load _
  | create => exact statusOk_create x
  | setWallet y => exact x.of rfl rfl rfl rfl rfl
  | inject y => exact x.of rfl rfl rfl rfl rfl
  | clear => exact ⟨(fun h => (nomatch h)), (fun h => (nomatch h)), (fun h => (nomatch h))⟩
  | other now op => exact x
  | prepareLogin =>
    have g := setup_ctx w.client
    refine x.of ?_ ?_ ?_ ?_ ?_ <;> simp only [World.step, Client.startPrepareLogin, Client.start, g.1]
  | login =>
    simp only [World.step, Client.startLogin]
    split
    · exact (loginFails_status x .isPreparing).of rfl rfl rfl rfl rfl
    · split
      · exact (loginFails_status x .isLoggingIn).of rfl rfl rfl rfl rfl
      · have g := setup_ctx w.client
        refine x.of ?_ ?_ ?_ ?_ ?_ <;> simp only [Client.start, g.1]
  | execute i now cert =>
    simp only [World.step]
    split
    · exact x
    · split
      · exact x
      · exact x.of rfl rfl rfl rfl rfl
  | lagging i now cert seen =>
    simp only [World.step]
    split
    · exact x
    · split
      · exact x
      · exact x.of rfl rfl rfl rfl rfl
  | resume i ans =>
    simp only [World.step]
    split
    · exact x
    · next pc hpc => exact (resume_status x pc ans).of rfl rfl rfl rfl rfl

theorem statusOk (E : Env) (K : SessionKeys) (hs : List Happening) : StatusOk (worldAfter E K hs).client := by
  have : ∀ w, StatusOk w.client → StatusOk (World.run E K w hs).client := by
    induction hs with
    | nil => exact fun w x => x
    | cons e hs ih => exact fun w x => ih _ (statusOk_step x e)
  exact this _ (statusOk_load ⟨.initial, none, none, none, [], 0⟩)

/-- How a call gets its result. -/
theorem resume_loggedIn {c : Client} {pc : Pc} {ans : Answer} {i : Identity} (hn : pc ≠ .loggedIn i)
    (h : (c.resume pc ans).2.1 = .loggedIn i) :
    (c.resume pc ans).1.ctx.identity = some i ∧ (c.resume pc ans).1.ctx.loginStatus = .success := by
  have fails : ∀ f e, (c.prepareFails f e).2.1 ≠ .loggedIn i := by
    intro f e; cases f <;> simp [Client.prepareFails]
  unfold Client.resume at h ⊢
  split at h
  · cases h
  · exact absurd h (fails _ _)
  · unfold Client.prepareWith at h
    split at h
    · exact absurd h (fails _ _)
    · split at h
      · exact absurd h (fails _ _)
      · cases h
  · exact absurd h (fails _ _)
  · cases h
  · exact absurd h (fails _ _)
  · exact absurd h (fails _ _)
  · next f _ r =>
    unfold Client.prepareReply at h
    split at h
    · cases f <;> cases h
    · exact absurd h (fails _ _)
    · exact absurd h (fails _ _)
  · exact absurd h (fails _ _)
  · cases h
  · cases h
  · unfold Client.loginWith at h
    split at h
    · cases h
    · split at h
      · cases h
      · split at h <;> cases h
  · cases h
  · cases h
  · cases h
  · unfold Client.signed at h
    split at h <;> cases h
  · cases h
  · cases h
  · cases h
  · cases h
  · unfold Client.loginReply at h
    split at h <;> cases h
  · cases h
  · cases h
  · unfold Client.delegationReply at h ⊢
    split at h
    · rw [if_neg (by simp)] at h ⊢
      cases h
      exact ⟨rfl, rfl⟩
    · cases h
    · cases h
  · unfold Client.delegationReply at h
    split at h
    · rw [if_pos rfl] at h; cases h
    · cases h
    · cases h
  · cases h
  · exact absurd h hn

/-- How a running `login` fails. -/
theorem resume_failed {c : Client} {pc : Pc} {ans : Answer} {e : ClientError} (hr : RunningLogin pc = true)
    (h : (c.resume pc ans).2.1 = .failed e) :
    (c.resume pc ans).1.ctx.prepareLoginOkResponse = none ∧ (c.resume pc ans).1.ctx.loginStatus = .error ∧
    (c.resume pc ans).1.ctx.loginError = some e := by
  have fails : ∀ f e', f.isSome = true → (c.prepareFails f e').2.1 ≠ .failed e := by
    intro f e' hf; cases f
    · cases hf
    · simp [Client.prepareFails]
  have lf : ∀ (c : Client) e', (c.loginFails e').2.1 = .failed e → (c.loginFails e').1.ctx.prepareLoginOkResponse = none ∧
      (c.loginFails e').1.ctx.loginStatus = .error ∧ (c.loginFails e').1.ctx.loginError = some e := by
    intro c e' h; cases h; exact ⟨rfl, rfl, rfl⟩
  unfold Client.resume at h ⊢
  split at h
  · cases h
  · exact absurd h (fails _ _ hr)
  · unfold Client.prepareWith at h
    split at h
    · exact absurd h (fails _ _ hr)
    · split at h
      · exact absurd h (fails _ _ hr)
      · cases h
  · exact absurd h (fails _ _ hr)
  · cases h
  · exact absurd h (fails _ _ hr)
  · exact absurd h (fails _ _ hr)
  · next f _ r =>
    unfold Client.prepareReply at h
    split at h
    · cases f
      · cases hr
      · cases h
    · exact absurd h (fails _ _ hr)
    · exact absurd h (fails _ _ hr)
  · exact absurd h (fails _ _ hr)
  · cases h
  · exact lf _ _ h
  · unfold Client.loginWith at h ⊢
    split at h
    · exact lf _ _ h
    · split at h
      · next hx => rw [if_pos hx]; exact lf _ _ h
      · split at h <;> cases h
  · exact lf _ _ h
  · cases h
  · exact lf _ _ h
  · unfold Client.signed at h ⊢
    split at h
    · next hx => rw [if_pos hx]; exact lf _ _ h
    · cases h
  · exact lf _ _ h
  · cases h
  · exact lf _ _ h
  · exact lf _ _ h
  · unfold Client.loginReply at h ⊢
    split at h
    · cases h
    · exact lf _ _ h
    · exact lf _ _ h
  · exact lf _ _ h
  · exact lf _ _ h
  · unfold Client.delegationReply at h ⊢
    split at h
    · rw [if_neg (by simp)] at h; cases h
    · exact lf _ _ h
    · exact lf _ _ h
  · unfold Client.delegationReply at h ⊢
    split at h
    · rw [if_pos rfl] at h ⊢; exact lf _ _ h
    · exact lf _ _ h
    · exact lf _ _ h
  · exact lf _ _ h
  · simp only at h
    subst h
    cases hr

end Siwe
