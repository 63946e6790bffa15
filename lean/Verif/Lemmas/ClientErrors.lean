import Verif.Lemmas.ClientRuns
/- Invariants of the browser client: where reported errors come from, which wallet is used. -/
namespace Siwe
open Spec

/-! ### Errors -/

/-- An error that is said to be the canister's is one. -/
def Known (E : Env) (K : SessionKeys) (h : History) (l : List Output) (e : ClientError) : Prop :=
  ∀ pe, e = .canister pe → ∃ op, AnsweredWith E h op (.err pe) ∧ Requested K l op

theorem Spec.AnsweredWith.mono {E : Env} {h h' : History} {op : Op} {r : Reply} (x : AnsweredWith E h op r) : AnsweredWith E (h ++ h') op r := by
  rcases x with ⟨e, he, h1⟩ | ⟨h0, b, a, t, h1, h2⟩
  · exact .inl ⟨e, mem_trace_append he, h1⟩
  · exact .inr ⟨h0, b, a ++ h', t, by rw [h1, List.append_assoc], h2⟩

theorem Spec.Requested.mono {K : SessionKeys} {l l' : List Output} {op : Op} (h : Requested K l op) : Requested K (l ++ l') op := by
  cases op <;> simp only [Requested] at h ⊢
  · exact List.mem_append_left _ h
  · obtain ⟨n, h1, h2⟩ := h; exact ⟨n, h1, List.mem_append_left _ h2⟩
  · obtain ⟨n, h1, h2⟩ := h; exact ⟨n, h1, List.mem_append_left _ h2⟩

theorem Known.mono {E : Env} {K : SessionKeys} {h h' : History} {l l' : List Output} {e : ClientError} (x : Known E K h l e) :
    Known E K (h ++ h') (l ++ l') e := by
  intro pe he
  obtain ⟨op, h1, h2⟩ := x pe he
  exact ⟨op, h1.mono, h2.mono⟩

/-- The error a call has ended with. -/
def Pc.error : Pc → Option ClientError
  | .loginPrepareFailed e | .failed e => some e
  | _ => none

/-- The errors in the state. -/
structure ErrOk (P : ClientError → Prop) (c : Context) : Prop where
  prepare : ∀ e, c.prepareLoginError = some e → P e
  login : ∀ e, c.loginError = some e → P e
  sign : ∀ e, c.signMessageError = some e → P e

theorem ErrOk.mono {P Q : ClientError → Prop} {c : Context} (x : ErrOk P c) (h : ∀ e, P e → Q e) : ErrOk Q c :=
  ⟨fun e he => h e (x.prepare e he), fun e he => h e (x.login e he), fun e he => h e (x.sign e he)⟩

/-- Setting some of the errors, or removing them. -/
theorem ErrOk.of {P : ClientError → Prop} {c c' : Context} (x : ErrOk P c)
    (h1 : ∀ e, c'.prepareLoginError = some e → c.prepareLoginError = some e ∨ P e)
    (h2 : ∀ e, c'.loginError = some e → c.loginError = some e ∨ P e)
    (h3 : ∀ e, c'.signMessageError = some e → c.signMessageError = some e ∨ P e) : ErrOk P c' :=
  ⟨fun e he => (h1 e he).elim (x.prepare e) id, fun e he => (h2 e he).elim (x.login e) id,
    fun e he => (h3 e he).elim (x.sign e) id⟩

/-- One step's errors. -/
structure StepErr (P : ClientError → Prop) (r : Client × Pc × List Output) : Prop where
  ctx : ErrOk P r.1.ctx
  pc : ∀ e, r.2.1.error = some e → P e

theorem prepareFails_err {P : ClientError → Prop} {c : Client} (x : ErrOk P c.ctx) (f : Option Bytes) (e : ClientError) (he : P e) :
    StepErr P (c.prepareFails f e) := by
  refine ⟨x.of ?_ (fun _ => .inl) (fun _ => .inl), ?_⟩
  · intro e' h; cases h; exact .inr he
  · intro e' h
    cases f <;> cases h <;> exact he

theorem loginFails_err {P : ClientError → Prop} {c : Client} (x : ErrOk P c.ctx) (e : ClientError) (he : P e) :
    StepErr P (c.loginFails e) := by
  refine ⟨x.of (fun _ => .inl) ?_ (fun _ => .inl), ?_⟩
  · intro e' h; cases h; exact .inr he
  · intro e' h; cases h; exact he

theorem signatureFails_err {P : ClientError → Prop} {c : Client} (x : ErrOk P c.ctx) (e : ClientError) (he : P e) :
    StepErr P (c.signatureFails e) := by
  have k : ErrOk P ({ c with ctx := { c.ctx with signMessageStatus := .error, signMessageError := some e } } : Client).ctx := by
    refine x.of (fun _ => .inl) (fun _ => .inl) ?_
    intro e' h; cases h; exact .inr he
  exact loginFails_err k e he

theorem resume_err {E : Env} {K : SessionKeys} {h : History} {l : List Output} {c : Client} (x : ErrOk (Known E K h l) c.ctx) {pc : Pc}
    (y : PcOk E K h l pc) (z : ∀ e, pc.error = some e → Known E K h l e) (a : Answer) :
    StepErr (Known E K h l) (c.resume pc a) := by
  have other : ∀ e : ClientError, (∀ pe, e ≠ .canister pe) → Known E K h l e := fun e he pe h => absurd h (he pe)
  have fails : ∀ f e, (∀ pe, e ≠ .canister pe) → StepErr (Known E K h l) (c.prepareFails f e) :=
    fun f e he => prepareFails_err x f e (other e he)
  have lfails : ∀ e, (∀ pe, e ≠ .canister pe) → StepErr (Known E K h l) (c.loginFails e) :=
    fun e he => loginFails_err x e (other e he)
  have sfails : ∀ e, (∀ pe, e ≠ .canister pe) → StepErr (Known E K h l) (c.signatureFails e) :=
    fun e he => signatureFails_err x e (other e he)
  have known : ∀ (pe : ProviderError) (ev : Event), ev ∈ trace E h → ev.reply = .err pe → Requested K l ev.call →
      Known E K h l (.canister pe) := by
    rintro pe ev h1 h2 h3 pe' h'
    cases h'
    exact ⟨ev.call, .inl ⟨ev, h1, rfl, h2⟩, h3⟩
  have same : ∀ (c' : Client) (pc' : Pc) (os : List Output), c'.ctx.prepareLoginError = c.ctx.prepareLoginError →
      c'.ctx.loginError = c.ctx.loginError → c'.ctx.signMessageError = c.ctx.signMessageError → pc'.error = none →
      StepErr (Known E K h l) (c', pc', os) := by
    intro c' pc' os h1 h2 h3 h4
    refine ⟨x.of (fun e he => .inl ?_) (fun e he => .inl ?_) (fun e he => .inl ?_), fun e he => ?_⟩
    · rw [← h1]; exact he
    · rw [← h2]; exact he
    · rw [← h3]; exact he
    · simp only [h4] at he; cases he
  unfold Client.resume
  split
  · exact same _ _ _ rfl rfl rfl rfl
  · exact fails _ _ (by simp)
  · unfold Client.prepareWith
    split
    · exact fails _ _ (by simp)
    · split
      · exact fails _ _ (by simp)
      · refine ⟨x.of ?_ (fun _ => .inl) (fun _ => .inl), ?_⟩
        · intro e he; cases he
        · intro e he; cases he
  · exact fails _ _ (by simp)
  · exact same _ _ _ rfl rfl rfl rfl
  · exact fails _ _ (by simp)
  · exact fails _ _ (by simp)
  · next f a r =>
    obtain ⟨y1, ev, hev, y2, y3⟩ := y
    unfold Client.prepareReply
    split
    · refine same _ _ _ rfl rfl rfl ?_
      cases f <;> rfl
    · exact prepareFails_err x _ _ (known _ ev hev y3 (by rw [y2]; exact y1))
    · exact fails _ _ (by simp)
  · exact fails _ _ (by simp)
  · exact same _ _ _ rfl rfl rfl rfl
  · exact lfails _ (by simp)
  · have k : ErrOk (Known E K h l) c.loggingIn.ctx := by
      refine x.of (fun _ => .inl) ?_ ?_
      · intro e he; cases he
      · intro e he; cases he
    unfold Client.loginWith
    split
    · exact lfails _ (by simp)
    · split
      · exact lfails _ (by simp)
      · split
        · refine ⟨k.of (fun _ => .inl) (fun _ => .inl) (fun _ => .inl), ?_⟩
          intro e he; cases he
        · unfold Client.startPrepareLogin
          refine ⟨?_, ?_⟩
          · simp only [(setup_ctx _).1]; exact k
          · intro e he; cases he
  · exact lfails _ (by simp)
  · exact same _ _ _ rfl rfl rfl rfl
  · next e => exact loginFails_err x e (z e rfl)
  · unfold Client.signed
    split
    · exact sfails _ (by simp)
    · exact same _ _ _ rfl rfl rfl rfl
  · exact sfails _ (by simp)
  · exact same _ _ _ rfl rfl rfl rfl
  · exact lfails _ (by simp)
  · exact lfails _ (by simp)
  · next a p s n r =>
    obtain ⟨y1, y2, ev, hev, y3, y4⟩ := y
    unfold Client.loginReply
    split
    · exact same _ _ _ rfl rfl rfl rfl
    · exact loginFails_err x _ (known _ ev hev y4 (by rw [y3]; exact ⟨n, rfl, y2⟩))
    · exact lfails _ (by simp)
  · exact lfails _ (by simp)
  · exact lfails _ (by simp)
  · next a n d r =>
    obtain ⟨b, af, t, cert, h1, h2, h3, h4⟩ := y
    have hev : ∀ pe, r = .err pe → Known E K h l (.canister pe) := by
      intro pe hr
      rintro pe' ⟨⟩
      exact ⟨_, .inr ⟨⟨cert, a, K n, d.expiration, rfl⟩, b, af, t, h1, h2.trans hr⟩, n, rfl, h4⟩
    unfold Client.delegationReply
    split
    · rw [if_neg (by simp)]
      exact same _ _ _ rfl rfl rfl rfl
    · exact loginFails_err x _ (hev _ rfl)
    · exact lfails _ (by simp)
  · next a n d r =>
    obtain ⟨b, af, t, cert, h1, h2, h3, h4⟩ := y
    have hev : ∀ pe, r = .err pe → Known E K h l (.canister pe) := by
      intro pe hr
      rintro pe' ⟨⟩
      exact ⟨_, .inr ⟨⟨cert, a, K n, d.expiration, rfl⟩, b, af, t, h1, h2.trans hr⟩, n, rfl, h4⟩
    unfold Client.delegationReply
    split
    · rw [if_pos rfl]
      exact lfails _ (by simp)
    · exact loginFails_err x _ (hev _ rfl)
    · exact lfails _ (by simp)
  · exact lfails _ (by simp)
  · exact ⟨x, z⟩

/-- The errors of reachable worlds. -/
structure WorldErr (E : Env) (K : SessionKeys) (w : World) : Prop where
  ok : WorldOk E K w
  ctx : ErrOk (Known E K w.calls w.log) w.client.ctx
  tasks : ∀ pc ∈ w.client.tasks, ∀ e, pc.error = some e → Known E K w.calls w.log e

theorem worldErr_step {E : Env} {K : SessionKeys} {w : World} (x : WorldErr E K w) (e : Happening) :
    WorldErr E K (w.step E K e) := by
  refine ⟨worldOk_step x.ok e, ?_, ?_⟩
  all_goals cases e with
  | load =>
    simp only [World.step, Client.load, Client.construct]
    first
      | (refine ⟨?_, ?_, ?_⟩ <;> intro e he <;> cases hc : w.client.storage <;> simp [hc, Context.initial] at he)
      | simp
  | create =>
    have k := create_keeps w.client
    first
      | (refine ⟨?_, ?_, ?_⟩ <;> simp only [World.step, k.2.2.2.2.2.2.1, k.2.2.2.2.2.2.2.2.2.1, k.2.2.2.2.2.2.2.2.2.2.2]
         · exact x.ctx.1
         · exact x.ctx.2
         · exact x.ctx.3)
      | (simp only [World.step, k.1]; exact x.tasks)
  | setWallet y => first | exact x.ctx | exact x.tasks
  | inject y => first | exact x.ctx | exact x.tasks
  | prepareLogin =>
    simp only [World.step, Client.startPrepareLogin, Client.start]
    first
      | (rw [(setup_ctx w.client).1]; exact x.ctx)
      | (intro pc hpc e he
         rcases List.mem_append.mp hpc with h | h
         · exact x.tasks pc h e he
         · simp only [List.mem_singleton] at h
           subst h; cases he)
  | login =>
    simp only [World.step, Client.startLogin]
    first
      | (split
         · exact (loginFails_err x.ctx _ (by intro pe h; cases h)).ctx
         · split
           · exact (loginFails_err x.ctx _ (by intro pe h; cases h)).ctx
           · simp only [Client.start, (setup_ctx w.client).1]; exact x.ctx)
      | (intro pc hpc e he
         split at hpc
         all_goals try split at hpc
         all_goals
           simp only [Client.start] at hpc ⊢
           rcases List.mem_append.mp hpc with h | h
           · exact x.tasks pc h e he
           · simp only [List.mem_singleton] at h
             subst h
             cases he
             try (intro pe h; cases h))
  | clear =>
    first
      | (refine ⟨?_, ?_, ?_⟩ <;> intro e he <;> cases he)
      | exact x.tasks
  | resume i a =>
    simp only [World.step]
    split
    · first | exact x.ctx | exact x.tasks
    · next pc hpc =>
      have hm := List.mem_of_getElem? hpc
      have k := resume_err x.ctx (x.ok.tasks pc hm) (x.tasks pc hm) a
      have up : ∀ e, Known E K w.calls w.log e → Known E K w.calls (w.log ++ (w.client.resume pc a).2.2) e := by
        intro e he
        have := he.mono (h' := []) (l' := (w.client.resume pc a).2.2)
        rwa [List.append_nil] at this
      first
        | exact k.ctx.mono up
        | (intro pc' h' e he
           rcases mem_set h' with rfl | h'
           · exact up e (k.pc e he)
           · exact up e (x.tasks pc' h' e he))
  | execute i now cert =>
    simp only [World.step]
    split
    · first | exact x.ctx | exact x.tasks
    · next pc hpc =>
      split
      · first | exact x.ctx | exact x.tasks
      · next op hop =>
        have up : ∀ e, Known E K w.calls w.log e → Known E K (w.calls ++ [(now, op)]) w.log e := by
          intro e he
          have := he.mono (h' := [(now, op)]) (l' := [])
          rwa [List.append_nil] at this
        first
          | exact x.ctx.mono up
          | (intro pc' h' e he
             rcases mem_set h' with rfl | h'
             · cases pc <;> simp [Pc.request] at hop <;> cases he
             · exact up e (x.tasks pc' h' e he))
  | lagging i now cert seen =>
    simp only [World.step]
    split
    · first | exact x.ctx | exact x.tasks
    · next pc hpc =>
      split
      · first | exact x.ctx | exact x.tasks
      · next op hop =>
        first
          | exact x.ctx.mono (fun _ h => h)
          | (intro pc' h' e he
             rcases mem_set h' with rfl | h'
             · cases pc <;> simp [Pc.query] at hop <;> cases he
             · exact x.tasks pc' h' e he)
  | other now op =>
    have up : ∀ e, Known E K w.calls w.log e → Known E K (w.calls ++ [(now, op)]) w.log e := by
      intro e he
      have := he.mono (h' := [(now, op)]) (l' := [])
      rwa [List.append_nil] at this
    first
      | exact x.ctx.mono up
      | exact fun pc h e he => up e (x.tasks pc h e he)

theorem worldErr (E : Env) (K : SessionKeys) (hs : List Happening) : WorldErr E K (worldAfter E K hs) := by
  have h0 : WorldErr E K .initial := by
    refine ⟨worldOk_initial E K, ⟨?_, ?_, ?_⟩, ?_⟩ <;>
      simp [World.initial, Client.load, Client.construct, Context.initial]
  have : ∀ w, WorldErr E K w → WorldErr E K (w.run E K hs) := by
    induction hs with
    | nil => exact fun w h => h
    | cons e hs ih => exact fun w h => ih _ (worldErr_step h e)
  exact this _ h0

/-! ### Calls left alone -/

theorem task_left {E : Env} {K : SessionKeys} {i : Nat} {pc : Pc} {w : World} (h : w.client.tasks[i]? = some pc) {x : Happening}
    (hx : Leaves i x = true) : (w.step E K x).client.tasks[i]? = some pc := by
  have joined : ∀ r : Client × Pc, (w.client.start r).tasks[i]? = some pc := by
    intro r
    have hi : i < w.client.tasks.length := (List.getElem?_eq_some_iff.mp h).1
    simp only [Client.start]
    rw [List.getElem?_append_left hi]
    exact h
  cases x with
  | load => cases hx
  | create => simpa only [World.step, (create_keeps w.client).1] using h
  | setWallet y => exact h
  | inject y => exact h
  | clear => exact h
  | other now op => exact h
  | prepareLogin => exact joined _
  | login => exact joined _
  | resume j a =>
    simp only [Leaves, bne_iff_ne, ne_eq] at hx
    simp only [World.step]
    split
    · exact h
    · simp only; rw [List.getElem?_set_ne hx]; exact h
  | execute j now cert =>
    simp only [Leaves, bne_iff_ne, ne_eq] at hx
    simp only [World.step]
    split
    · exact h
    · split
      · exact h
      · simp only; rw [List.getElem?_set_ne hx]; exact h
  | lagging j now cert seen =>
    simp only [Leaves, bne_iff_ne, ne_eq] at hx
    simp only [World.step]
    split
    · exact h
    · split
      · exact h
      · simp only; rw [List.getElem?_set_ne hx]; exact h

theorem task_left_run {E : Env} {K : SessionKeys} {i : Nat} {pc : Pc} (hs : List Happening) :
    ∀ {w : World}, w.client.tasks[i]? = some pc → (∀ x ∈ hs, Leaves i x = true) → (w.run E K hs).client.tasks[i]? = some pc := by
  induction hs with
  | nil => exact fun h _ => h
  | cons x hs ih =>
    intro w h hl
    exact ih (task_left h (hl x List.mem_cons_self)) (fun y hy => hl y (List.mem_cons_of_mem _ hy))

/-! ### Wallets -/

theorem setup_wallet (c : Client) : (∀ v, c.wallet = some v → c.setupWalletClient.1.wallet = some v) ∧
    (∀ v, c.setupWalletClient.1.wallet = some v → c.wallet = some v ∨ c.wallet = none ∧ c.injected = some v) ∧
    c.setupWalletClient.1.injected = c.injected := by
  rcases c with ⟨ctx, st, wal, inj, ts, n⟩
  cases wal with
  | some w => exact ⟨fun v hv => hv, fun v hv => .inl hv, rfl⟩
  | none =>
    cases inj with
    | none => exact ⟨fun v hv => hv, fun v hv => .inl hv, rfl⟩
    | some w =>
      refine ⟨fun v hv => (by cases hv), ?_, rfl⟩
      intro v hv
      exact .inr ⟨rfl, hv⟩

/-- How the wallet can change in one step of a call. -/
def WalletStep (c c' : Client) : Prop :=
  (∀ v, c.wallet = some v → c'.wallet = some v) ∧
    (∀ v, c'.wallet = some v → c.wallet = some v ∨ c.wallet = none ∧ c.injected = some v) ∧ c'.injected = c.injected

theorem WalletStep.same {c c' : Client} (h1 : c'.wallet = c.wallet) (h2 : c'.injected = c.injected) : WalletStep c c' :=
  ⟨fun _ h => h1.trans h, fun _ h => .inl (h1.symm.trans h), h2⟩

theorem resume_wallet (c : Client) (pc : Pc) (a : Answer) :
    WalletStep c (c.resume pc a).1 ∧
    ∀ v acct txt, Output.sign v acct txt ∈ (c.resume pc a).2.2 → c.wallet = some v := by
  have pf : ∀ f e, WalletStep c (c.prepareFails f e).1 ∧
      ∀ v acct txt, Output.sign v acct txt ∈ (c.prepareFails f e).2.2 → c.wallet = some v :=
    fun f e => ⟨.same rfl rfl, by simp [Client.prepareFails]⟩
  have lf : ∀ e, WalletStep c (c.loginFails e).1 ∧
      ∀ v acct txt, Output.sign v acct txt ∈ (c.loginFails e).2.2 → c.wallet = some v :=
    fun e => ⟨.same rfl rfl, by simp [Client.loginFails]⟩
  have sf : ∀ e, WalletStep c (c.signatureFails e).1 ∧
      ∀ v acct txt, Output.sign v acct txt ∈ (c.signatureFails e).2.2 → c.wallet = some v :=
    fun e => ⟨.same rfl rfl, by simp [Client.signatureFails, Client.loginFails]⟩
  have rs : ∀ (c' : Client) acct p, c'.wallet = c.wallet → c'.injected = c.injected →
      WalletStep c (c'.requestSignature acct p).1 ∧
      ∀ v acct' txt, Output.sign v acct' txt ∈ (c'.requestSignature acct p).2.2 → c.wallet = some v := by
    intro c' acct p h1 h2
    refine ⟨.same h1 h2, ?_⟩
    intro v acct' txt h
    simp only [Client.requestSignature] at h
    split at h
    · next w hw =>
      simp only [List.mem_singleton, Output.sign.injEq] at h
      rw [h.1, ← h1, hw]
    · cases h
  unfold Client.resume
  split
  · exact ⟨.same rfl rfl, by simp⟩
  · exact pf _ _
  · unfold Client.prepareWith
    split
    · exact pf _ _
    · split
      · exact pf _ _
      · exact ⟨.same rfl rfl, by simp⟩
  · exact pf _ _
  · exact ⟨.same rfl rfl, by simp⟩
  · exact pf _ _
  · exact pf _ _
  · unfold Client.prepareReply
    split
    · exact ⟨.same rfl rfl, by simp⟩
    · exact pf _ _
    · exact pf _ _
  · exact pf _ _
  · exact ⟨.same rfl rfl, by simp⟩
  · exact lf _
  · unfold Client.loginWith
    split
    · exact lf _
    · split
      · exact lf _
      · split
        · exact rs _ _ _ rfl rfl
        · exact ⟨setup_wallet c.loggingIn, by simp⟩
  · exact lf _
  · exact rs _ _ _ rfl rfl
  · exact lf _
  · unfold Client.signed
    split
    · exact sf _
    · exact ⟨.same rfl rfl, by simp⟩
  · exact sf _
  · exact ⟨.same rfl rfl, by simp⟩
  · exact lf _
  · exact lf _
  · unfold Client.loginReply
    split
    · exact ⟨.same rfl rfl, by simp⟩
    · exact lf _
    · exact lf _
  · exact lf _
  · exact lf _
  · unfold Client.delegationReply
    split
    · rw [if_neg (by simp)]
      exact ⟨.same rfl rfl, by simp⟩
    · exact lf _
    · exact lf _
  · unfold Client.delegationReply
    split
    · rw [if_pos rfl]; exact lf _
    · exact lf _
    · exact lf _
  · exact lf _
  · exact ⟨.same rfl rfl, by simp⟩

/-- The page's wallet is the app's, or else an injected one. -/
structure WalletOk (hs : List Happening) (c : Client) : Prop where
  injected : c.injected = injectedWallet hs
  app : ∀ v, appWallet hs = some v → c.wallet = some v
  wallet : ∀ v, c.wallet = some v → appWallet hs = some v ∨ appWallet hs = none ∧ InjectedSinceLoad hs v

theorem appWallet_snoc (hs : List Happening) (x : Happening) :
    appWallet (hs ++ [x]) = (match x with | .load => none | .create => none | .setWallet v => some v | _ => appWallet hs) := by
  cases x <;> simp [appWallet]

theorem injectedWallet_snoc (hs : List Happening) (x : Happening) :
    injectedWallet (hs ++ [x]) = (match x with | .inject v => v | _ => injectedWallet hs) := by
  cases x <;> simp [injectedWallet]

theorem Spec.InjectedSinceLoad.snoc {hs : List Happening} {v : Wallet} (h : InjectedSinceLoad hs v) {x : Happening} (hx : x ≠ .load ∧ x ≠ .create) :
    InjectedSinceLoad (hs ++ [x]) v := by
  obtain ⟨b, a, h1, h2, h2', h3⟩ := h
  refine ⟨b, a ++ [x], by rw [h1, List.append_assoc], ?_, ?_, h3⟩ <;>
    simp only [List.mem_append, List.mem_singleton, not_or]
  · exact ⟨h2, fun h => hx.1 h.symm⟩
  · exact ⟨h2', fun h => hx.2 h.symm⟩

/-- A step in which only a call changes the wallet. -/
theorem WalletOk.step {hs : List Happening} {c c' : Client} (x : WalletOk hs c) (h : WalletStep c c') {y : Happening}
    (h1 : appWallet (hs ++ [y]) = appWallet hs) (h2 : injectedWallet (hs ++ [y]) = injectedWallet hs) (h3 : y ≠ .load ∧ y ≠ .create) :
    WalletOk (hs ++ [y]) c' := by
  refine ⟨by rw [h.2.2, x.injected, h2], fun v hv => h.1 v (x.app v (h1 ▸ hv)), fun v hv => ?_⟩
  rw [h1]
  rcases h.2.1 v hv with hv | ⟨hn, hv⟩
  · rcases x.wallet v hv with h' | ⟨h', h''⟩
    · exact .inl h'
    · exact .inr ⟨h', h''.snoc h3⟩
  · refine .inr ⟨?_, hs, [y], rfl, by simpa using fun h => h3.1 h.symm, by simpa using fun h => h3.2 h.symm, x.injected ▸ hv⟩
    cases ha : appWallet hs with
    | none => rfl
    | some v' => rw [x.app v' ha] at hn; cases hn

theorem walletOk_step {E : Env} {K : SessionKeys} {hs : List Happening} {w : World} (ih : WalletOk hs w.client) (y : Happening) :
    WalletOk (hs ++ [y]) (w.step E K y).client := by
  cases y with
  | load =>
    refine ⟨?_, ?_, ?_⟩
    · rw [injectedWallet_snoc]; exact ih.injected
    · intro v hv; rw [appWallet_snoc] at hv; cases hv
    · intro v hv; simp [World.step, Client.load, Client.construct] at hv
  | create =>
    refine ⟨?_, ?_, ?_⟩
    · rw [injectedWallet_snoc]; exact (create_keeps w.client).2.2.2.1.trans ih.injected
    · intro v hv; rw [appWallet_snoc] at hv; cases hv
    · intro v hv; simp [World.step, (create_keeps w.client).2.2.2.2.1] at hv
  | setWallet v =>
    refine ⟨?_, ?_, ?_⟩
    · rw [injectedWallet_snoc]; exact ih.injected
    · intro v' hv; rw [appWallet_snoc] at hv; exact hv
    · intro v' hv; rw [appWallet_snoc]; exact .inl hv
  | inject v =>
    refine ⟨?_, ?_, ?_⟩
    · rw [injectedWallet_snoc]; rfl
    · intro v' hv; rw [appWallet_snoc] at hv; exact ih.app v' hv
    · intro v' hv
      rw [appWallet_snoc]
      rcases ih.wallet v' hv with h | ⟨h, h'⟩
      · exact .inl h
      · exact .inr ⟨h, h'.snoc (by simp)⟩
  | prepareLogin =>
    refine ih.step (y := .prepareLogin) ?_ (by rw [appWallet_snoc]) (by rw [injectedWallet_snoc]) (by simp)
    exact setup_wallet w.client
  | login =>
    refine ih.step (y := .login) ?_ (by rw [appWallet_snoc]) (by rw [injectedWallet_snoc]) (by simp)
    simp only [World.step, Client.startLogin]
    split
    · exact .same rfl rfl
    · split
      · exact .same rfl rfl
      · exact setup_wallet w.client
  | clear =>
    refine ih.step (y := .clear) ?_ (by rw [appWallet_snoc]) (by rw [injectedWallet_snoc]) (by simp)
    exact .same rfl rfl
  | resume i a =>
    refine ih.step (y := (.resume i a)) ?_ (by rw [appWallet_snoc]) (by rw [injectedWallet_snoc]) (by simp)
    simp only [World.step]
    split
    · exact .same rfl rfl
    · exact (resume_wallet w.client _ a).1
  | execute i now cert =>
    refine ih.step (y := (.execute i now cert)) ?_ (by rw [appWallet_snoc]) (by rw [injectedWallet_snoc]) (by simp)
    simp only [World.step]
    split
    · exact .same rfl rfl
    · split
      · exact .same rfl rfl
      · exact .same rfl rfl
  | lagging i now cert seen =>
    refine ih.step (y := (.lagging i now cert seen)) ?_ (by rw [appWallet_snoc]) (by rw [injectedWallet_snoc]) (by simp)
    simp only [World.step]
    split
    · exact .same rfl rfl
    · split
      · exact .same rfl rfl
      · exact .same rfl rfl
  | other now op =>
    exact ih.step (y := (.other now op)) (.same rfl rfl) (by rw [appWallet_snoc]) (by rw [injectedWallet_snoc]) (by simp)

theorem walletOk (E : Env) (K : SessionKeys) (hs : List Happening) : WalletOk hs (worldAfter E K hs).client := by
  have : ∀ (hs' hs : List Happening) (w : World), WalletOk hs w.client → WalletOk (hs ++ hs') (w.run E K hs').client := by
    intro hs'
    induction hs' with
    | nil => intro hs w h; rw [List.append_nil]; exact h
    | cons y hs' ih =>
      intro hs w h
      have := ih (hs ++ [y]) _ (walletOk_step (E := E) (K := K) h y)
      rw [List.append_assoc, List.singleton_append] at this
      exact this
  exact this hs [] .initial ⟨rfl, by simp [appWallet], by simp [World.initial, Client.load, Client.construct]⟩

end Siwe
