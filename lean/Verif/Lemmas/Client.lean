import Verif.Spec.Client
import Verif.Lemmas.History
/- Invariants of the browser client. -/
namespace Siwe
open Spec

theorem mem_trace_append {E : Env} {h h' : History} {e : Event} (he : e ∈ trace E h) : e ∈ trace E (h ++ h') := by
  rw [trace, traceFrom_append]
  exact List.mem_append_left _ he

theorem mem_trace_snoc (E : Env) (h : History) (now : UInt64) (op : Op) :
    (⟨now, op, (step (stateAfter E h) now op).2⟩ : Event) ∈ trace E (h ++ [(now, op)]) := by
  rw [trace, traceFrom_snoc]
  exact List.mem_append_right _ (by simp [stateAfter])

theorem query_request {K : SessionKeys} {cert : Option Bytes} {pc : Pc} {op : Op} (h : pc.query K cert = some op) :
    pc.request K cert = some op := by
  cases pc <;> simp only [Pc.query, reduceCtorEq] at h
  exact h

theorem Spec.FetchedFor.mono {E : Env} {h h' : History} {l l' : List Output} {a : Bytes} {p : PrepareLoginOkResponse}
    (x : FetchedFor E h l a p) : FetchedFor E (h ++ h') (l ++ l') a p := by
  obtain ⟨h1, e, he, hi⟩ := x
  exact ⟨List.mem_append_left _ h1, e, mem_trace_append he, hi⟩

theorem Spec.Fetched.mono {E : Env} {h h' : History} {l l' : List Output} {p : PrepareLoginOkResponse}
    (x : Fetched E h l p) : Fetched E (h ++ h') (l ++ l') p := by
  obtain ⟨a, x⟩ := x
  exact ⟨a, x.mono⟩

theorem Spec.Fetched.calls {E : Env} {h h' : History} {l : List Output} {p : PrepareLoginOkResponse}
    (x : Fetched E h l p) : Fetched E (h ++ h') l p := by
  have := x.mono (h' := h') (l' := [])
  rwa [List.append_nil] at this

theorem Spec.LoggedInAs.mono {E : Env} {K : SessionKeys} {h h' : History} {l l' : List Output} {a : Bytes} {n : Nat}
    {d : LoginDetails} (x : LoggedInAs E K h l a n d) : LoggedInAs E K (h ++ h') (l ++ l') a n d := by
  obtain ⟨sig, p, h1, h2, e, he, h3⟩ := x
  exact ⟨sig, p, h1.mono, List.mem_append_left _ h2, e, mem_trace_append he, h3⟩

theorem Spec.LoggedInAs.log {E : Env} {K : SessionKeys} {h : History} {l l' : List Output} {a : Bytes} {n : Nat}
    {d : LoginDetails} (x : LoggedInAs E K h l a n d) : LoggedInAs E K h (l ++ l') a n d := by
  have := x.mono (h' := []) (l' := l')
  rwa [List.append_nil] at this

theorem Spec.LoggedInAs.calls {E : Env} {K : SessionKeys} {h h' : History} {l : List Output} {a : Bytes} {n : Nat}
    {d : LoginDetails} (x : LoggedInAs E K h l a n d) : LoggedInAs E K (h ++ h') l a n d := by
  have := x.mono (h' := h') (l' := [])
  rwa [List.append_nil] at this

theorem Spec.Obtained.mono {E : Env} {K : SessionKeys} {h h' : History} {l l' : List Output} {a : Bytes} {i : Identity}
    (x : Obtained E K h l a i) : Obtained E K (h ++ h') (l ++ l') a i := by
  obtain ⟨b, af, t, cert, d, sd, h1, h2, h3, h4⟩ := x
  exact ⟨b, af ++ h', t, cert, d, sd, by rw [h1]; simp, h2, h3, h4.mono⟩

/-- What is known about a running call. -/
def PcOk (E : Env) (K : SessionKeys) (h : History) (l : List Output) : Pc → Prop
  | .prepSent _ a => .prepareLogin a ∈ l
  | .prepReplied _ a r => .prepareLogin a ∈ l ∧ ∃ e ∈ trace E h, e.call = .prepareLogin a ∧ e.reply = r
  | .loginPrepared _ p => Fetched E h l p
  | .prepared p => Fetched E h l p
  | .signing _ p => Fetched E h l p
  | .loginActor _ p _ _ => Fetched E h l p
  | .loginSent a p s n => Fetched E h l p ∧ .login s a n p.nonce ∈ l
  | .loginReplied a p s n r => Fetched E h l p ∧ .login s a n p.nonce ∈ l ∧
      ∃ e ∈ trace E h, e.call = .login s a (K n) p.nonce ∧ e.reply = r
  | .delegationSent a n d => LoggedInAs E K h l a n d ∧ .getDelegation a n d.expiration ∈ l
  | .delegationReplied a n d r => ∃ before after t cert,
      h = before ++ after ∧
      (step (stateAfter E before) t (.getDelegation cert a (K n) d.expiration)).2 = r ∧ LoggedInAs E K h l a n d ∧
      .getDelegation a n d.expiration ∈ l
  | .loggedIn i => ∃ a, Obtained E K h l a i
  | _ => True

theorem PcOk.mono {E : Env} {K : SessionKeys} {h h' : History} {l l' : List Output} {pc : Pc} (x : PcOk E K h l pc) :
    PcOk E K (h ++ h') (l ++ l') pc := by
  cases pc <;> simp only [PcOk] at x ⊢
  case prepSent => exact List.mem_append_left _ x
  case prepReplied =>
    obtain ⟨h1, e, he, h2⟩ := x
    exact ⟨List.mem_append_left _ h1, e, mem_trace_append he, h2⟩
  case loginSent => exact ⟨x.1.mono, List.mem_append_left _ x.2⟩
  case loginReplied =>
    obtain ⟨h0, h1, e, he, h2⟩ := x
    exact ⟨h0.mono, List.mem_append_left _ h1, e, mem_trace_append he, h2⟩
  case delegationSent => exact ⟨x.1.mono, List.mem_append_left _ x.2⟩
  case delegationReplied =>
    obtain ⟨b, af, t, cert, h1, h2, h3, h4⟩ := x
    exact ⟨b, af ++ h', t, cert, by rw [h1]; simp, h2, h3.mono, List.mem_append_left _ h4⟩
  case loggedIn =>
    obtain ⟨a, x⟩ := x
    exact ⟨a, x.mono⟩
  all_goals exact x.mono

/-- What is known about the requests made. -/
def OutOk (E : Env) (K : SessionKeys) (h : History) (l : List Output) : Output → Prop
  | .sign _ _ txt => ∃ p, Fetched E h l p ∧ p.siweMessage = txt
  | .prepareLogin _ => True
  | .login _ _ _ nonce => ∃ p, Fetched E h l p ∧ p.nonce = nonce
  | .getDelegation a n e => ∃ d, LoggedInAs E K h l a n d ∧ d.expiration = e

theorem OutOk.mono {E : Env} {K : SessionKeys} {h h' : History} {l l' : List Output} {o : Output} (x : OutOk E K h l o) :
    OutOk E K (h ++ h') (l ++ l') o := by
  cases o <;> simp only [OutOk] at x ⊢
  all_goals
    obtain ⟨p, h1, h2⟩ := x
    exact ⟨p, h1.mono, h2⟩

/-- What is known about the store and local storage. -/
structure CtxOk (E : Env) (K : SessionKeys) (h : History) (l : List Output) (c : Client) : Prop where
  message : ∀ p, c.ctx.prepareLoginOkResponse = some p → Fetched E h l p
  stored : ∀ s, c.storage = some s → Obtained E K h l s.address ⟨s.session, s.chain⟩
  address : c.ctx.identityAddress = c.storage.map (·.address)
  identity : c.ctx.identity = c.storage.map fun s => ⟨s.session, s.chain⟩
  chain : c.ctx.delegationChain = c.storage.map (·.chain)

theorem CtxOk.mono {E : Env} {K : SessionKeys} {h h' : History} {l l' : List Output} {c : Client} (x : CtxOk E K h l c) :
    CtxOk E K (h ++ h') (l ++ l') c :=
  ⟨fun p hp => (x.message p hp).mono, fun s hs => (x.stored s hs).mono, x.address, x.identity, x.chain⟩

theorem CtxOk.log {E : Env} {K : SessionKeys} {h : History} {l l' : List Output} {c : Client} (x : CtxOk E K h l c) :
    CtxOk E K h (l ++ l') c := by
  have := x.mono (h' := []) (l' := l')
  rwa [List.append_nil] at this

/-- Contexts that agree on the message and the identity. -/
theorem CtxOk.of {E : Env} {K : SessionKeys} {h : History} {l : List Output} {c c' : Client} (x : CtxOk E K h l c)
    (h1 : c'.ctx.prepareLoginOkResponse = c.ctx.prepareLoginOkResponse ∨ c'.ctx.prepareLoginOkResponse = none)
    (h2 : c'.storage = c.storage) (h3 : c'.ctx.identityAddress = c.ctx.identityAddress)
    (h4 : c'.ctx.identity = c.ctx.identity) (h5 : c'.ctx.delegationChain = c.ctx.delegationChain) : CtxOk E K h l c' := by
  refine ⟨fun p hp => ?_, h2 ▸ x.stored, h2 ▸ h3 ▸ x.address, h2 ▸ h4 ▸ x.identity, h2 ▸ h5 ▸ x.chain⟩
  rcases h1 with h1 | h1 <;> rw [h1] at hp
  · exact x.message p hp
  · cases hp

theorem setup_ctx (c : Client) : c.setupWalletClient.1.ctx = c.ctx ∧ c.setupWalletClient.1.storage = c.storage ∧
    c.setupWalletClient.1.tasks = c.tasks ∧ c.setupWalletClient.1.generated = c.generated := by
  unfold Client.setupWalletClient
  split
  · exact ⟨rfl, rfl, rfl, rfl⟩
  · split <;> exact ⟨rfl, rfl, rfl, rfl⟩

/-- The result of a step of a call: the new client, the call's new state and the requests are as they should be. -/
structure StepOk (E : Env) (K : SessionKeys) (h : History) (l : List Output) (r : Client × Pc × List Output) : Prop where
  ctx : CtxOk E K h (l ++ r.2.2) r.1
  pc : PcOk E K h (l ++ r.2.2) r.2.1
  out : ∀ o ∈ r.2.2, OutOk E K h (l ++ r.2.2) o

theorem prepareFails_ok {E : Env} {K : SessionKeys} {h : History} {l : List Output} {c : Client} (x : CtxOk E K h l c)
    (f : Option Bytes) (e : ClientError) : StepOk E K h l (c.prepareFails f e) := by
  refine ⟨x.log.of (.inl rfl) rfl rfl rfl rfl, ?_, by simp [Client.prepareFails]⟩
  cases f <;> exact trivial

theorem loginFails_ok {E : Env} {K : SessionKeys} {h : History} {l : List Output} {c : Client} (x : CtxOk E K h l c)
    (e : ClientError) : StepOk E K h l (c.loginFails e) :=
  ⟨x.log.of (.inr rfl) rfl rfl rfl rfl, trivial, by simp [Client.loginFails]⟩

theorem signatureFails_ok {E : Env} {K : SessionKeys} {h : History} {l : List Output} {c : Client} (x : CtxOk E K h l c)
    (e : ClientError) : StepOk E K h l (c.signatureFails e) :=
  ⟨x.log.of (.inr rfl) rfl rfl rfl rfl, trivial, by simp [Client.signatureFails, Client.loginFails]⟩

theorem requestSignature_ok {E : Env} {K : SessionKeys} {h : History} {l : List Output} {c : Client} (x : CtxOk E K h l c)
    (a : Bytes) {p : PrepareLoginOkResponse} (hp : Fetched E h l p) : StepOk E K h l (c.requestSignature a p) := by
  have hp' : ∀ l', Fetched E h (l ++ l') p := fun l' => by
    have := hp.mono (h' := []) (l' := l')
    rwa [List.append_nil] at this
  refine ⟨x.log.of (.inl rfl) rfl rfl rfl rfl, hp' _, ?_⟩
  intro o ho
  unfold Client.requestSignature at ho ⊢
  simp only at ho ⊢
  split at ho
  · simp only [List.mem_singleton] at ho
    subst ho
    exact ⟨p, hp' _, rfl⟩
  · simp at ho

theorem resume_ok {E : Env} {K : SessionKeys} {h : History} {l : List Output} {c : Client} (x : CtxOk E K h l c) {pc : Pc}
    (y : PcOk E K h l pc) (a : Answer) : StepOk E K h l (c.resume pc a) := by
  have same : ∀ pc', PcOk E K h l pc' → StepOk E K h l (c, pc', []) := fun pc' y' =>
    ⟨x.log, by rw [List.append_nil]; exact y', by simp⟩
  unfold Client.resume
  split
  · exact same _ trivial
  · exact prepareFails_ok x _ _
  · unfold Client.prepareWith
    split
    · exact prepareFails_ok x _ _
    · split
      · exact prepareFails_ok x _ _
      · exact ⟨x.log.of (.inl rfl) rfl rfl rfl rfl, trivial, by simp⟩
  · exact prepareFails_ok x _ _
  · exact ⟨x.log, by simp [PcOk], by simp [OutOk]⟩
  · exact prepareFails_ok x _ _
  · exact prepareFails_ok x _ _
  · next f a r =>
    unfold Client.prepareReply
    split
    · next p =>
      obtain ⟨y1, e, he, y2, y3⟩ := y
      have hp : Fetched E h l p := ⟨a, y1, e, he, y2, y3⟩
      refine ⟨?_, ?_, by simp⟩
      · refine ⟨fun p' hp' => ?_, x.log.stored, x.address, x.identity, x.chain⟩
        cases hp'
        simpa using hp
      · rw [List.append_nil]
        cases f <;> exact hp
    · exact prepareFails_ok x _ _
    · exact prepareFails_ok x _ _
  · exact prepareFails_ok x _ _
  · exact same _ trivial
  · exact loginFails_ok x _
  · unfold Client.loginWith
    split
    · exact loginFails_ok x _
    · split
      · exact loginFails_ok x _
      · split
        · next p hp => exact requestSignature_ok (c := c.loggingIn) (x.of (.inl rfl) rfl rfl rfl rfl) _ (x.message _ hp)
        · unfold Client.startPrepareLogin
          have g := fun c => setup_ctx c
          refine ⟨x.log.of (.inl ?_) ?_ ?_ ?_ ?_, trivial, by simp⟩
          all_goals simp only [(g _).1, (g _).2.1]; rfl
  · exact loginFails_ok x _
  · exact requestSignature_ok x _ y
  · exact loginFails_ok x _
  · unfold Client.signed
    split
    · exact signatureFails_ok x _
    · exact ⟨x.log.of (.inl rfl) rfl rfl rfl rfl, by rw [List.append_nil]; exact y, by simp⟩
  · exact signatureFails_ok x _
  · next a p s n =>
    have hp : Fetched E h (l ++ [.login s a n p.nonce]) p := by
      have := Fetched.mono (h' := []) (l' := [.login s a n p.nonce]) y
      rwa [List.append_nil] at this
    refine ⟨x.log, ⟨hp, by simp⟩, ?_⟩
    intro o ho
    simp only [List.mem_singleton] at ho
    subst ho
    exact ⟨p, hp, rfl⟩
  · exact loginFails_ok x _
  · exact loginFails_ok x _
  · next a p s n r =>
    unfold Client.loginReply
    split
    · next d =>
      obtain ⟨y1, y2, e, he, y3, y4⟩ := y
      have hp : LoggedInAs E K h l a n d := ⟨s, p, y1, y2, e, he, y3, y4⟩
      refine ⟨x.log, ⟨hp.log, by simp⟩, ?_⟩
      intro o ho
      simp only [List.mem_singleton] at ho
      subst ho
      exact ⟨d, hp.log, rfl⟩
    · exact loginFails_ok x _
    · exact loginFails_ok x _
  · exact loginFails_ok x _
  · exact loginFails_ok x _
  · next a n d r =>
    unfold Client.delegationReply
    split
    · next sd =>
      rw [if_neg (by simp)]
      obtain ⟨b, af, t, cert, h1, h2, h3, _⟩ := y
      have hp : Obtained E K h l a ⟨n, createDelegationChain sd d.userCanisterPubkey⟩ :=
        ⟨b, af, t, cert, d, sd, h1, h2, rfl, h3⟩
      refine ⟨?_, ?_, by simp⟩
      · refine ⟨x.log.message, fun s hs => ?_, rfl, rfl, rfl⟩
        cases hs
        simpa using hp
      · rw [List.append_nil]
        exact ⟨a, hp⟩
    · exact loginFails_ok x _
    · exact loginFails_ok x _
  · next a n d r =>
    unfold Client.delegationReply
    split
    · exact loginFails_ok x _
    · exact loginFails_ok x _
    · exact loginFails_ok x _
  · exact loginFails_ok x _
  · exact same _ y

/-- The invariant of reachable worlds. -/
structure WorldOk (E : Env) (K : SessionKeys) (w : World) : Prop where
  ctx : CtxOk E K w.calls w.log w.client
  tasks : ∀ pc ∈ w.client.tasks, PcOk E K w.calls w.log pc
  out : ∀ o ∈ w.log, OutOk E K w.calls w.log o

theorem PcOk.log {E : Env} {K : SessionKeys} {h : History} {l l' : List Output} {pc : Pc} (x : PcOk E K h l pc) :
    PcOk E K h (l ++ l') pc := by
  have := x.mono (h' := []) (l' := l')
  rwa [List.append_nil] at this

theorem PcOk.calls {E : Env} {K : SessionKeys} {h h' : History} {l : List Output} {pc : Pc} (x : PcOk E K h l pc) :
    PcOk E K (h ++ h') l pc := by
  have := x.mono (h' := h') (l' := [])
  rwa [List.append_nil] at this

theorem CtxOk.calls {E : Env} {K : SessionKeys} {h h' : History} {l : List Output} {c : Client} (x : CtxOk E K h l c) :
    CtxOk E K (h ++ h') l c := by
  have := x.mono (h' := h') (l' := [])
  rwa [List.append_nil] at this

theorem OutOk.calls {E : Env} {K : SessionKeys} {h h' : History} {l : List Output} {o : Output} (x : OutOk E K h l o) :
    OutOk E K (h ++ h') l o := by
  have := x.mono (h' := h') (l' := [])
  rwa [List.append_nil] at this

theorem OutOk.log {E : Env} {K : SessionKeys} {h : History} {l l' : List Output} {o : Output} (x : OutOk E K h l o) :
    OutOk E K h (l ++ l') o := by
  have := x.mono (h' := []) (l' := l')
  rwa [List.append_nil] at this

theorem worldOk_load {E : Env} {K : SessionKeys} {h : History} {l : List Output} {c : Client}
    (hs : ∀ s, c.storage = some s → Obtained E K h l s.address ⟨s.session, s.chain⟩) : CtxOk E K h l c.load := by
  cases hc : c.storage with
  | none =>
    refine ⟨?_, ?_, ?_, ?_, ?_⟩ <;> simp [Client.load, Client.construct, hc, Context.initial]
  | some s =>
    have := hs s hc
    refine ⟨?_, ?_, ?_, ?_, ?_⟩ <;> simp [Client.load, Client.construct, hc, Context.initial, this]

theorem mem_set {α : Type} {l : List α} {i : Nat} {a x : α} (h : x ∈ l.set i a) : x = a ∨ x ∈ l := by
  rcases List.mem_or_eq_of_mem_set h with h | h
  · exact .inr h
  · exact .inl h

/-- What making another manager does not touch. -/
theorem create_keeps (c : Client) : c.create.tasks = c.tasks ∧ c.create.storage = c.storage ∧ c.create.generated = c.generated ∧
    c.create.injected = c.injected ∧ c.create.wallet = none ∧
    c.create.ctx.prepareLoginStatus = c.ctx.prepareLoginStatus ∧ c.create.ctx.prepareLoginError = c.ctx.prepareLoginError ∧
    c.create.ctx.prepareLoginOkResponse = c.ctx.prepareLoginOkResponse ∧ c.create.ctx.loginStatus = c.ctx.loginStatus ∧
    c.create.ctx.loginError = c.ctx.loginError ∧ c.create.ctx.signMessageStatus = c.ctx.signMessageStatus ∧
    c.create.ctx.signMessageError = c.ctx.signMessageError := by
  unfold Client.create Client.construct
  simp only [true_and]
  split <;> simp

/-- Another manager reads what the store already holds. -/
theorem ctxOk_create {E : Env} {K : SessionKeys} {h : History} {l : List Output} {c : Client} (x : CtxOk E K h l c) :
    CtxOk E K h l c.create := by
  have k := create_keeps c
  refine ⟨k.2.2.2.2.2.2.2.1 ▸ x.message, k.2.1 ▸ x.stored, ?_, ?_, ?_⟩ <;> rw [k.2.1]
  all_goals
    cases hc : c.storage with
    | none =>
      have := x.address
      have := x.identity
      have := x.chain
      simp_all [Client.create, Client.construct]
    | some s => simp [Client.create, Client.construct, hc]

theorem worldOk_step {E : Env} {K : SessionKeys} {w : World} (x : WorldOk E K w) (e : Happening) :
    WorldOk E K (w.step E K e) := by
  cases e with
  | load => exact ⟨worldOk_load x.ctx.stored, by simp [World.step, Client.load, Client.construct], x.out⟩
  | create => exact ⟨ctxOk_create x.ctx, (create_keeps _).1 ▸ x.tasks, x.out⟩
  | setWallet y => exact ⟨x.ctx.of (.inl rfl) rfl rfl rfl rfl, x.tasks, x.out⟩
  | inject y => exact ⟨x.ctx.of (.inl rfl) rfl rfl rfl rfl, x.tasks, x.out⟩
  | prepareLogin =>
    have g := setup_ctx w.client
    refine ⟨x.ctx.of (.inl ?_) ?_ ?_ ?_ ?_, ?_, x.out⟩
    all_goals simp only [World.step, Client.startPrepareLogin, Client.start, g.1, g.2.1]
    intro pc hpc
    rcases List.mem_append.mp hpc with h | h
    · exact x.tasks pc h
    · simp only [List.mem_singleton] at h
      subst h; trivial
  | login =>
    have g := setup_ctx w.client
    have k : ∀ c pc, CtxOk E K w.calls w.log c → PcOk E K w.calls w.log pc →
        WorldOk E K { w with client := w.client.start (c, pc) } := by
      intro c pc k1 k2
      refine ⟨k1.of (.inl rfl) rfl rfl rfl rfl, ?_, x.out⟩
      intro pc' hpc
      rcases List.mem_append.mp hpc with h | h
      · exact x.tasks pc' h
      · simp only [List.mem_singleton] at h
        subst h; exact k2
    simp only [World.step, Client.startLogin]
    split
    · exact k _ _ (x.ctx.of (.inr rfl) rfl rfl rfl rfl) trivial
    · split
      · exact k _ _ (x.ctx.of (.inr rfl) rfl rfl rfl rfl) trivial
      · refine k _ _ (x.ctx.of (.inl ?_) ?_ ?_ ?_ ?_) trivial
        all_goals simp only [g.1, g.2.1]
  | clear =>
    exact ⟨⟨by simp [World.step, Client.clear], by simp [World.step, Client.clear], rfl, rfl, rfl⟩, x.tasks, x.out⟩
  | resume i a =>
    simp only [World.step]
    split
    · exact x
    · next pc hpc =>
      have y := x.tasks pc (List.mem_of_getElem? hpc)
      obtain ⟨k1, k2, k3⟩ := resume_ok x.ctx y a
      refine ⟨k1.of (.inl rfl) rfl rfl rfl rfl, ?_, ?_⟩
      · intro pc' h'
        rcases mem_set h' with rfl | h'
        · exact k2
        · exact (x.tasks pc' h').log
      · intro o ho
        rcases List.mem_append.mp ho with ho | ho
        · exact (x.out o ho).log
        · exact k3 o ho
  | execute i now cert =>
    simp only [World.step]
    split
    · exact x
    · next pc hpc =>
      split
      · exact x
      · next op hop =>
        have y := x.tasks pc (List.mem_of_getElem? hpc)
        refine ⟨x.ctx.calls.of (.inl rfl) rfl rfl rfl rfl, ?_, fun o ho => (x.out o ho).calls⟩
        intro pc' h'
        rcases mem_set h' with rfl | h'
        · have ht := mem_trace_snoc E w.calls now op
          cases pc <;> simp only [Pc.request, Option.some.injEq, reduceCtorEq] at hop <;> subst hop
          · exact ⟨y, _, ht, rfl, rfl⟩
          · exact ⟨y.1.calls, y.2, _, ht, rfl, rfl⟩
          · exact ⟨w.calls, [(now, _)], now, cert, rfl, rfl, Spec.LoggedInAs.calls y.1, y.2⟩
        · exact (x.tasks pc' h').calls
  | lagging i now cert seen =>
    simp only [World.step]
    split
    · exact x
    · next pc hpc =>
      split
      · exact x
      · next op hop =>
        have y := x.tasks pc (List.mem_of_getElem? hpc)
        refine ⟨x.ctx.of (.inl rfl) rfl rfl rfl rfl, ?_, x.out⟩
        intro pc' h'
        rcases mem_set h' with rfl | h'
        · cases pc <;> simp only [Pc.query, Option.some.injEq, reduceCtorEq] at hop <;> subst hop
          exact ⟨w.calls.take seen, w.calls.drop seen, now, cert, (List.take_append_drop ..).symm, rfl, y.1, y.2⟩
        · exact x.tasks pc' h'
  | other now op =>
    exact ⟨x.ctx.calls, fun pc h => (x.tasks pc h).calls, fun o ho => (x.out o ho).calls⟩

theorem worldOk_initial (E : Env) (K : SessionKeys) : WorldOk E K .initial :=
  ⟨worldOk_load (c := ⟨.initial, none, none, none, [], 0⟩) (by intro s hs; cases hs), by simp [World.initial, Client.load, Client.construct], by simp [World.initial]⟩

theorem worldOk_run {E : Env} {K : SessionKeys} {w : World} (x : WorldOk E K w) (hs : List Happening) :
    WorldOk E K (w.run E K hs) := by
  induction hs generalizing w with
  | nil => exact x
  | cons e hs ih => exact ih (worldOk_step x e)

theorem worldOk (E : Env) (K : SessionKeys) (hs : List Happening) : WorldOk E K (worldAfter E K hs) :=
  worldOk_run (worldOk_initial E K) hs

/-- The session of a call that has generated one but not yet sent it. -/
def Pc.fresh : Pc → Option Nat
  | .loginActor _ _ _ n => some n
  | _ => none

/-- What a step of a call does to sessions. -/
inductive SessionStep (c : Client) (pc : Pc) (c' : Client) (pc' : Pc) (out : List Output) : Prop
  | none : pc'.fresh = none → sentSessions out = [] → c'.generated = c.generated → SessionStep c pc c' pc' out
  | generate : pc'.fresh = some c.generated → sentSessions out = [] → c'.generated = c.generated + 1 →
      SessionStep c pc c' pc' out
  | send (n : Nat) : pc.fresh = some n → pc'.fresh = Option.none → sentSessions out = [n] → c'.generated = c.generated →
      SessionStep c pc c' pc' out
  | idle : pc' = pc → sentSessions out = [] → c'.generated = c.generated → SessionStep c pc c' pc' out

theorem prepareFails_session (c : Client) (pc : Pc) (f : Option Bytes) (e : ClientError) :
    SessionStep c pc (c.prepareFails f e).1 (c.prepareFails f e).2.1 (c.prepareFails f e).2.2 := by
  refine .none ?_ rfl rfl
  cases f <;> rfl

theorem requestSignature_session (c : Client) (pc : Pc) (a : Bytes) (p : PrepareLoginOkResponse) :
    SessionStep c pc (c.requestSignature a p).1 (c.requestSignature a p).2.1 (c.requestSignature a p).2.2 := by
  refine .none rfl ?_ rfl
  unfold Client.requestSignature
  split <;> rfl

theorem resume_session (c : Client) (pc : Pc) (a : Answer) :
    SessionStep c pc (c.resume pc a).1 (c.resume pc a).2.1 (c.resume pc a).2.2 := by
  unfold Client.resume
  split
  · exact .none rfl rfl rfl
  · exact prepareFails_session ..
  · unfold Client.prepareWith
    split
    · exact prepareFails_session ..
    · split
      · exact prepareFails_session ..
      · exact .none rfl rfl rfl
  · exact prepareFails_session ..
  · exact .none rfl rfl rfl
  · exact prepareFails_session ..
  · exact prepareFails_session ..
  · next f _ r =>
    unfold Client.prepareReply
    split
    · refine .none ?_ rfl rfl
      cases f <;> rfl
    · exact prepareFails_session ..
    · exact prepareFails_session ..
  · exact prepareFails_session ..
  · exact .none rfl rfl rfl
  · exact .none rfl rfl rfl
  · unfold Client.loginWith
    split
    · exact .none rfl rfl rfl
    · split
      · exact .none rfl rfl rfl
      · split
        · have := requestSignature_session c.loggingIn .loginAddresses
          next account _ _ _ p _ =>
          cases this account p with
          | none h1 h2 h3 => exact .none h1 h2 h3
          | generate h1 h2 h3 => exact .generate h1 h2 h3
          | send n h1 h2 h3 h4 => exact .send n h1 h2 h3 h4
          | idle h1 h2 h3 => exact .idle h1 h2 h3
        · refine .none rfl rfl ?_
          exact (setup_ctx _).2.2.2
  · exact .none rfl rfl rfl
  · exact requestSignature_session ..
  · exact .none rfl rfl rfl
  · unfold Client.signed
    split
    · exact .none rfl rfl rfl
    · exact .generate rfl rfl rfl
  · exact .none rfl rfl rfl
  · exact .send _ rfl rfl rfl rfl
  · exact .none rfl rfl rfl
  · exact .none rfl rfl rfl
  · unfold Client.loginReply
    split <;> exact .none rfl rfl rfl
  · exact .none rfl rfl rfl
  · exact .none rfl rfl rfl
  · unfold Client.delegationReply
    split <;> exact .none rfl rfl rfl
  · unfold Client.delegationReply
    split <;> exact .none rfl rfl rfl
  · exact .none rfl rfl rfl
  · exact .idle rfl rfl rfl

/-- Sessions are generated one after the other, and sent once. -/
structure SessionsOk (w : World) : Prop where
  sent : ∀ n ∈ sentSessions w.log, n < w.client.generated
  nodup : (sentSessions w.log).Nodup
  fresh : ∀ pc ∈ w.client.tasks, ∀ n, pc.fresh = some n → n < w.client.generated ∧ n ∉ sentSessions w.log
  unique : ∀ (i j : Nat) (pc pc' : Pc) (n : Nat), w.client.tasks[i]? = some pc → w.client.tasks[j]? = some pc' → pc.fresh = some n →
    pc'.fresh = some n → i = j

theorem sentSessions_append (l l' : List Output) : sentSessions (l ++ l') = sentSessions l ++ sentSessions l' :=
  List.filterMap_append ..

theorem getElem?_set_cases {α : Type} {l : List α} {i j : Nat} {a x : α} (h : (l.set i a)[j]? = some x) :
    (i = j ∧ x = a) ∨ (i ≠ j ∧ l[j]? = some x) := by
  rw [List.getElem?_set] at h
  split at h
  · next hij =>
    split at h
    · cases h; exact .inl ⟨hij, rfl⟩
    · cases h
  · next hij => exact .inr ⟨hij, h⟩

theorem getElem?_snoc_cases {α : Type} {l : List α} {j : Nat} {a x : α} (h : (l ++ [a])[j]? = some x) :
    l[j]? = some x ∨ (j = l.length ∧ x = a) := by
  rcases Nat.lt_or_ge j l.length with hj | hj
  · rw [List.getElem?_append_left hj] at h
    exact .inl h
  · rw [List.getElem?_append_right hj] at h
    rcases Nat.eq_or_lt_of_le hj with hj | hj
    · subst hj
      simp at h
      exact .inr ⟨rfl, h.symm⟩
    · rw [List.getElem?_eq_none (by simp; omega)] at h
      cases h

/-- Replacing a call by one without a fresh session. -/
theorem SessionsOk.replace {w : World} (x : SessionsOk w) (i : Nat) {pc' : Pc} (h : pc'.fresh = none)
    {c' : Client} {calls : History} (ht : c'.tasks = w.client.tasks.set i pc') (hg : c'.generated = w.client.generated)
    {l : List Output} (hl : sentSessions l = []) : SessionsOk ⟨c', calls, w.log ++ l⟩ := by
  refine ⟨?_, ?_, ?_, ?_⟩
  · simp only [sentSessions_append, hl, List.append_nil, hg]; exact x.sent
  · simp only [sentSessions_append, hl, List.append_nil]; exact x.nodup
  · intro pc hpc n hn
    simp only [sentSessions_append, hl, List.append_nil, hg]
    simp only [ht] at hpc
    rcases mem_set hpc with rfl | hpc
    · rw [h] at hn; cases hn
    · exact x.fresh pc hpc n hn
  · intro j k pc pc'' n h1 h2 h3 h4
    simp only [ht] at h1 h2
    rcases getElem?_set_cases h1 with ⟨_, rfl⟩ | ⟨_, h1⟩
    · rw [h] at h3; cases h3
    · rcases getElem?_set_cases h2 with ⟨_, rfl⟩ | ⟨_, h2⟩
      · rw [h] at h4; cases h4
      · exact x.unique j k pc pc'' n h1 h2 h3 h4

/-- A new call without a session. -/
theorem SessionsOk.join {w : World} (x : SessionsOk w) {pc' : Pc} (h : pc'.fresh = none) {c' : Client}
    (hg : c'.generated = w.client.generated) : SessionsOk { w with client := w.client.start (c', pc') } := by
  refine ⟨?_, x.nodup, ?_, ?_⟩
  · simp only [Client.start, hg]; exact x.sent
  · intro pc hpc n hn
    simp only [Client.start, hg] at hpc ⊢
    rcases List.mem_append.mp hpc with hpc | hpc
    · exact x.fresh pc hpc n hn
    · simp only [List.mem_singleton] at hpc
      subst hpc
      rw [h] at hn; cases hn
  · intro i j pc pc'' n h1 h2 h3 h4
    simp only [Client.start] at h1 h2
    rcases getElem?_snoc_cases h1 with h1 | ⟨_, rfl⟩
    · rcases getElem?_snoc_cases h2 with h2 | ⟨_, rfl⟩
      · exact x.unique i j pc pc'' n h1 h2 h3 h4
      · rw [h] at h4; cases h4
    · rw [h] at h3; cases h3

theorem sessionsOk_step {E : Env} {K : SessionKeys} {w : World} (x : SessionsOk w) (e : Happening) :
    SessionsOk (w.step E K e) := by
  cases e with
  | load =>
    exact ⟨x.sent, x.nodup, by simp [World.step, Client.load, Client.construct],
      by simp [World.step, Client.load, Client.construct]⟩
  | create =>
    have k := create_keeps w.client
    refine ⟨?_, x.nodup, ?_, ?_⟩ <;> simp only [World.step, k.1, k.2.2.1]
    · exact x.sent
    · exact x.fresh
    · exact x.unique
  | setWallet y => exact ⟨x.sent, x.nodup, x.fresh, x.unique⟩
  | inject y => exact ⟨x.sent, x.nodup, x.fresh, x.unique⟩
  | clear => exact ⟨x.sent, x.nodup, x.fresh, x.unique⟩
  | other now op => exact ⟨x.sent, x.nodup, x.fresh, x.unique⟩
  | prepareLogin => exact x.join rfl (setup_ctx _).2.2.2
  | login =>
    simp only [World.step, Client.startLogin]
    split
    · exact x.join rfl rfl
    · split
      · exact x.join rfl rfl
      · exact x.join rfl (setup_ctx _).2.2.2
  | execute i now cert =>
    simp only [World.step]
    split
    · exact x
    · split
      · exact x
      · next pc _ _ op hop =>
        have := x.replace i (pc' := pc.answered (step (stateAfter E w.calls) now op).2)
          (by cases pc <;> simp [Pc.request] at hop <;> rfl)
          (c' := { w.client with tasks := w.client.tasks.set i (pc.answered (step (stateAfter E w.calls) now op).2) })
          (calls := w.calls ++ [(now, op)]) rfl rfl (l := []) rfl
        rw [List.append_nil] at this
        exact this
  | lagging i now cert seen =>
    simp only [World.step]
    split
    · exact x
    · split
      · exact x
      · next pc _ _ op hop =>
        have := x.replace i (pc' := pc.answered (step (stateAfter E (w.calls.take seen)) now op).2)
          (by cases pc <;> simp [Pc.query] at hop <;> rfl)
          (c' := { w.client with tasks := w.client.tasks.set i (pc.answered (step (stateAfter E (w.calls.take seen)) now op).2) })
          (calls := w.calls) rfl rfl (l := []) rfl
        rw [List.append_nil] at this
        exact this
  | resume i a =>
    simp only [World.step]
    split
    · exact x
    · next pc hpc =>
      have hm := List.mem_of_getElem? hpc
      cases resume_session w.client pc a with
      | none h1 h2 h3 =>
        exact x.replace i h1
          (c' := { (w.client.resume pc a).1 with tasks := w.client.tasks.set i (w.client.resume pc a).2.1 }) rfl h3 h2
      | send n h0 h1 h2 h3 =>
        have hn := x.fresh pc hm n h0
        refine ⟨?_, ?_, ?_, ?_⟩
        · simp only [sentSessions_append, h2, h3]
          intro m hm
          rcases List.mem_append.mp hm with hm | hm
          · exact x.sent m hm
          · simp only [List.mem_singleton] at hm
            rw [hm]; exact hn.1
        · simp only [sentSessions_append, h2]
          rw [List.nodup_append]
          refine ⟨x.nodup, by simp, ?_⟩
          intro a ha b hb hab
          simp only [List.mem_singleton] at hb
          exact hn.2 (hb ▸ hab ▸ ha)
        · intro pc1 hpc1 m hm1
          simp only at hpc1
          obtain ⟨j, hj⟩ := List.mem_iff_getElem?.mp hpc1
          rcases getElem?_set_cases hj with ⟨_, rfl⟩ | ⟨hij, hj⟩
          · rw [h1] at hm1; cases hm1
          · simp only [sentSessions_append, h2, h3, List.mem_append, List.mem_singleton, not_or]
            have := x.fresh pc1 (List.mem_of_getElem? hj) m hm1
            refine ⟨this.1, this.2, ?_⟩
            rintro rfl
            exact hij (x.unique i j pc pc1 m hpc hj h0 hm1)
        · intro j k pc1 pc2 m g1 g2 g3 g4
          rcases getElem?_set_cases g1 with ⟨_, rfl⟩ | ⟨_, g1⟩
          · rw [h1] at g3; cases g3
          · rcases getElem?_set_cases g2 with ⟨_, rfl⟩ | ⟨_, g2⟩
            · rw [h1] at g4; cases g4
            · exact x.unique j k pc1 pc2 m g1 g2 g3 g4
      | generate h1 h2 h3 =>
        refine ⟨?_, ?_, ?_, ?_⟩
        · simp only [sentSessions_append, h2, List.append_nil, h3]
          intro m hm
          have := x.sent m hm
          omega
        · simp only [sentSessions_append, h2, List.append_nil]; exact x.nodup
        · intro pc1 hpc1 m hm1
          simp only [sentSessions_append, h2, List.append_nil, h3]
          rcases mem_set hpc1 with rfl | hpc1
          · rw [h1] at hm1
            cases hm1
            refine ⟨by omega, fun h => ?_⟩
            have := x.sent _ h
            omega
          · have := x.fresh pc1 hpc1 m hm1
            exact ⟨by omega, this.2⟩
        · intro j k pc1 pc2 m g1 g2 g3 g4
          rcases getElem?_set_cases g1 with ⟨e1, rfl⟩ | ⟨_, g1⟩
          · rcases getElem?_set_cases g2 with ⟨e2, rfl⟩ | ⟨_, g2⟩
            · omega
            · rw [h1] at g3
              cases g3
              have := (x.fresh pc2 (List.mem_of_getElem? g2) _ g4).1
              omega
          · rcases getElem?_set_cases g2 with ⟨e2, rfl⟩ | ⟨_, g2⟩
            · rw [h1] at g4
              cases g4
              have := (x.fresh pc1 (List.mem_of_getElem? g1) _ g3).1
              omega
            · exact x.unique j k pc1 pc2 m g1 g2 g3 g4
      | idle h1 h2 h3 =>
        have hset : w.client.tasks.set i (w.client.resume pc a).2.1 = w.client.tasks := by
          rw [h1]
          apply List.ext_getElem?
          intro j
          rw [List.getElem?_set]
          split
          · next hij =>
            subst hij
            split
            · exact hpc.symm
            · next hlt => rw [List.getElem?_eq_none (by omega)]
          · rfl
        refine ⟨?_, ?_, ?_, ?_⟩
        · simp only [sentSessions_append, h2, List.append_nil, h3]; exact x.sent
        · simp only [sentSessions_append, h2, List.append_nil]; exact x.nodup
        · simp only [sentSessions_append, h2, List.append_nil, h3, hset]; exact x.fresh
        · simp only [hset]; exact x.unique

theorem sessionsOk (E : Env) (K : SessionKeys) (hs : List Happening) : SessionsOk (worldAfter E K hs) := by
  have : ∀ w, SessionsOk w → SessionsOk (World.run E K w hs) := by
    induction hs with
    | nil => exact fun w x => x
    | cons e hs ih => exact fun w x => ih _ (sessionsOk_step x e)
  exact this _ ⟨by simp [World.initial, sentSessions], by simp [World.initial, sentSessions],
    by simp [World.initial, Client.load, Client.construct], by simp [World.initial, Client.load, Client.construct]⟩

end Siwe
