import Verif.Spec.Managers
import Verif.Lemmas.ClientRuns
import Verif.Lemmas.ClientErrors
/- Pages with several managers do what pages with one manager can do. -/
namespace Siwe
open Spec

/-! ### Making another manager -/

theorem resume_initializing (c : Client) (pc : Pc) (a : Answer) : (c.resume pc a).1.ctx.isInitializing = c.ctx.isInitializing := by
  have su : ∀ c : Client, c.setupWalletClient.1.ctx = c.ctx := fun c => (setup_ctx c).1
  unfold Client.resume
  split
  all_goals try rfl
  · unfold Client.prepareWith
    split
    · rfl
    · split <;> rfl
  · unfold Client.prepareReply
    split <;> rfl
  · unfold Client.loginWith
    split
    · rfl
    · split
      · rfl
      · split
        · rfl
        · simp only [Client.startPrepareLogin, su]; rfl
  · unfold Client.signed
    split <;> rfl
  · unfold Client.loginReply
    split <;> rfl
  · unfold Client.delegationReply
    split <;> rfl
  · unfold Client.delegationReply
    split <;> rfl

theorem step_initializing (E : Env) (K : SessionKeys) (w : World) (x : Happening) (h : w.client.ctx.isInitializing = false) :
    (w.step E K x).client.ctx.isInitializing = false := by
  have su : ∀ c : Client, c.setupWalletClient.1.ctx = c.ctx := fun c => (setup_ctx c).1
  cases x with
  | load => rfl
  | create => rfl
  | prepareLogin => simp only [World.step, Client.start, Client.startPrepareLogin, su]; exact h
  | login =>
    simp only [World.step, Client.start, Client.startLogin]
    split
    · exact h
    · split
      · exact h
      · simp only [su]; exact h
  | resume i a =>
    simp only [World.step]
    split
    · exact h
    · exact (resume_initializing _ _ _).trans h
  | execute i t c =>
    simp only [World.step]
    split
    · exact h
    · split <;> exact h
  | lagging i t c seen =>
    simp only [World.step]
    split
    · exact h
    · split <;> exact h
  | _ => exact h

theorem initialized (E : Env) (K : SessionKeys) (hs : List Happening) : (worldAfter E K hs).client.ctx.isInitializing = false := by
  have : ∀ w : World, w.client.ctx.isInitializing = false → (w.run E K hs).client.ctx.isInitializing = false := by
    induction hs with
    | nil => exact fun w h => h
    | cons x hs ih => exact fun w h => ih _ (step_initializing E K w x h)
  exact this _ rfl

/-- In reachable pages the store holds what local storage holds, so another manager changes nothing but that it has no wallet yet. -/
theorem create_same (E : Env) (K : SessionKeys) (hs : List Happening) :
    (worldAfter E K hs).step E K .create = (worldAfter E K hs).withWallet none := by
  have x := (worldOk E K hs).ctx
  have i := initialized E K hs
  generalize worldAfter E K hs = w at x i
  obtain ⟨⟨⟨i0, ps, pe, pr, ls, le, ss, se, id, ad, ch⟩, st, wa, inj, ts, g⟩, calls, log⟩ := w
  have h1 := x.address
  have h2 := x.identity
  have h3 := x.chain
  simp only at h1 h2 h3 i
  subst h1 h2 h3 i
  cases st <;> rfl

theorem withWallet_withWallet (w : World) (u v : Option Wallet) : (w.withWallet u).withWallet v = w.withWallet v := rfl

theorem worldAfter_append (E : Env) (K : SessionKeys) (hs hs' : List Happening) :
    worldAfter E K (hs ++ hs') = (worldAfter E K hs).run E K hs' := by simp [worldAfter, World.run]

/-- The plain happening behind one of a page. -/
def PageHappening.plain : PageHappening → Happening
  | .load => .load
  | .create => .create
  | .setWallet _ w => .setWallet w
  | .prepareLogin _ => .prepareLogin
  | .login _ => .login
  | .clear _ => .clear
  | .inject w => .inject w
  | .resume i a => .resume i a
  | .execute i t c => .execute i t c
  | .lagging i t c n => .lagging i t c n
  | .other t op => .other t op

/-- Happenings that only concern the wallet client in use. -/
def Switches (x : Happening) : Prop := x = .create ∨ ∃ v, x = .setWallet v

/-- Any wallet client can be brought into use. -/
theorem switch_wallet (E : Env) (K : SessionKeys) (hs : List Happening) (v : Option Wallet) :
    ∃ hs', (∀ x ∈ hs', Switches x) ∧ worldAfter E K (hs ++ hs') = (worldAfter E K hs).withWallet v := by
  cases v with
  | none =>
    refine ⟨[.create], by simp [Switches], ?_⟩
    rw [worldAfter_append]
    exact create_same E K hs
  | some v =>
    refine ⟨[.create, .setWallet v], by simp [Switches], ?_⟩
    rw [worldAfter_append]
    show ((worldAfter E K hs).step E K .create).step E K (.setWallet v) = _
    rw [create_same]; rfl

/-- The page is like one with a single manager after `hs`, but for the wallet client in use. -/
def Like (E : Env) (K : SessionKeys) (p : Page) (hs : List Happening) : Prop :=
  ∃ v, worldAfter E K hs = p.world.withWallet v

theorem on_like {E : Env} {K : SessionKeys} {p : Page} {hs : List Happening} (h : Like E K p hs) (j : Nat) (x : Happening)
    (new : List Nat) : ∃ hs', (∀ y ∈ hs', Switches y ∨ y = x) ∧ Like E K (p.on E K j x new) (hs ++ hs') := by
  obtain ⟨u, hu⟩ := h
  unfold Page.on
  split
  · exact ⟨[], by simp, u, by rw [List.append_nil]; exact hu⟩
  · next v hv =>
    obtain ⟨hs', h1, h2⟩ := switch_wallet E K hs v
    refine ⟨hs' ++ [x], ?_, ((p.world.withWallet v).step E K x).client.wallet, ?_⟩
    · intro y hy
      rcases List.mem_append.mp hy with hy | hy
      · exact .inl (h1 y hy)
      · simp only [List.mem_singleton] at hy; exact .inr hy
    · rw [← List.append_assoc, worldAfter_append, h2, hu, withWallet_withWallet]; rfl

theorem step_like {E : Env} {K : SessionKeys} {p : Page} {hs : List Happening} (h : Like E K p hs) (e : PageHappening) :
    ∃ hs', (∀ y ∈ hs', Switches y ∨ y = e.plain) ∧ Like E K (p.step E K e) (hs ++ hs') := by
  have direct : ∀ x, (∀ v, ∃ v', (p.world.withWallet v).step E K x = (p.world.step E K x).withWallet v') →
      worldAfter E K (hs ++ [x]) = (worldAfter E K hs).step E K x →
      ∃ v, worldAfter E K (hs ++ [x]) = (p.world.step E K x).withWallet v := by
    intro x hx hw
    obtain ⟨u, hu⟩ := h
    obtain ⟨v', hv'⟩ := hx u
    exact ⟨v', by rw [hw, hu, hv']⟩
  cases e with
  | load => exact ⟨[.load], by simp [PageHappening.plain], direct _ (fun v => ⟨none, rfl⟩) (worldAfter_append E K hs [.load])⟩
  | create => exact ⟨[.create], by simp [PageHappening.plain], direct _ (fun v => ⟨none, rfl⟩) (worldAfter_append E K hs [.create])⟩
  | setWallet j w => exact on_like h j _ _
  | prepareLogin j => exact on_like h j _ _
  | login j => exact on_like h j _ _
  | clear j => exact on_like h j _ _
  | inject w => exact ⟨[.inject w], by simp [PageHappening.plain], direct _ (fun v => ⟨v, rfl⟩) (worldAfter_append E K hs [.inject w])⟩
  | resume i a =>
    simp only [Page.step]
    split
    · exact ⟨[], by simp, by rw [List.append_nil]; exact h⟩
    · exact on_like h _ _ _
  | execute i t c =>
    refine ⟨[.execute i t c], by simp [PageHappening.plain], direct _ (fun v => ⟨v, ?_⟩) (worldAfter_append E K hs [.execute i t c])⟩
    have e : (p.world.withWallet v).client.tasks = p.world.client.tasks := rfl
    simp only [World.step, e]
    cases p.world.client.tasks[i]? with
    | none => rfl
    | some pc =>
      simp only
      cases pc.request K c <;> rfl
  | lagging i t c seen =>
    refine ⟨[.lagging i t c seen], by simp [PageHappening.plain], direct _ (fun v => ⟨v, ?_⟩) (worldAfter_append E K hs [.lagging i t c seen])⟩
    have e : (p.world.withWallet v).client.tasks = p.world.client.tasks := rfl
    simp only [World.step, e]
    cases p.world.client.tasks[i]? with
    | none => rfl
    | some pc =>
      simp only
      cases pc.query K c <;> rfl
  | other t op => exact ⟨[.other t op], by simp [PageHappening.plain], direct _ (fun v => ⟨v, rfl⟩) (worldAfter_append E K hs [.other t op])⟩

theorem run_like {E : Env} {K : SessionKeys} (es : List PageHappening) : ∀ {p : Page} {hs : List Happening}, Like E K p hs →
    ∃ hs', (∀ y ∈ hs', Switches y ∨ ∃ e ∈ es, y = e.plain) ∧ Like E K (p.run E K es) (hs ++ hs') := by
  induction es with
  | nil => exact fun h => ⟨[], by simp, by rw [List.append_nil]; exact h⟩
  | cons e es ih =>
    intro p hs h
    obtain ⟨h1, g1, g2⟩ := step_like h e
    obtain ⟨h2, g3, g4⟩ := ih g2
    refine ⟨h1 ++ h2, ?_, by rw [← List.append_assoc]; exact g4⟩
    intro y hy
    rcases List.mem_append.mp hy with hy | hy
    · rcases g1 y hy with q | q
      · exact .inl q
      · exact .inr ⟨e, List.mem_cons_self, q⟩
    · rcases g3 y hy with q | ⟨e', q1, q2⟩
      · exact .inl q
      · exact .inr ⟨e', List.mem_cons_of_mem _ q1, q2⟩

theorem initial_like (E : Env) (K : SessionKeys) : Like E K .initial [] := ⟨none, rfl⟩

/-- Every page with several managers is, but for the wallet client in use, one that a single manager can reach. -/
theorem page_like (E : Env) (K : SessionKeys) (es : List PageHappening) :
    ∃ hs, (∀ y ∈ hs, Switches y ∨ ∃ e ∈ es, y = e.plain) ∧ Like E K (pageAfter E K es) hs := by
  obtain ⟨hs, h1, h2⟩ := run_like es (initial_like E K)
  exact ⟨hs, h1, h2⟩

/-! ### Whose wallet -/

/-- How the calls and wallets of a page are kept. -/
structure PageOk (hs : List PageHappening) (p : Page) : Prop where
  count : p.wallets.length = (managerWallets hs).length
  app : ∀ (j : Nat) (v : Wallet), (managerWallets hs)[j]? = some (some v) → p.wallets[j]? = some (some v)
  wallet : ∀ (j : Nat) (v : Wallet), p.wallets[j]? = some (some v) → (managerWallets hs)[j]? = some (some v) ∨
    (managerWallets hs)[j]? = some none ∧ PageInjected hs v
  injected : p.world.client.injected = hs.foldl (fun o x => match x with | .inject u => u | _ => o) none
  owners : p.owners = managerOfCalls hs
  calls : p.owners.length = p.world.client.tasks.length

theorem managerOfCalls_count (hs : List PageHappening) :
    (hs.foldl (fun s x => match x with
      | .load => (1, [])
      | .create => (s.1 + 1, s.2)
      | .prepareLogin j | .login j => if j < s.1 then (s.1, s.2 ++ [j]) else s
      | _ => s) ((1, []) : Nat × List Nat)).1 = (managerWallets hs).length := by
  have : ∀ (hs : List PageHappening) (s : Nat × List Nat) (l : List (Option Wallet)), s.1 = l.length →
      (hs.foldl (fun s x => match x with
        | .load => (1, [])
        | .create => (s.1 + 1, s.2)
        | .prepareLogin j | .login j => if j < s.1 then (s.1, s.2 ++ [j]) else s
        | _ => s) s).1 = (hs.foldl (fun l x => match x with
        | .load => [none]
        | .create => l ++ [none]
        | .setWallet j v => l.set j (some v)
        | _ => l) l).length := by
    intro hs
    induction hs with
    | nil => exact fun s l h => h
    | cons x hs ih =>
      intro s l h
      refine ih _ _ ?_
      cases x <;> simp only [List.length_append, List.length_singleton, List.length_set, h]
      all_goals split <;> simp [h]
  exact this hs _ _ rfl

theorem managerOfCalls_snoc (hs : List PageHappening) (x : PageHappening) :
    managerOfCalls (hs ++ [x]) = (match x with
      | .load => []
      | .prepareLogin j | .login j => if j < (managerWallets hs).length then managerOfCalls hs ++ [j] else managerOfCalls hs
      | _ => managerOfCalls hs) := by
  have c := managerOfCalls_count hs
  unfold managerOfCalls
  rw [List.foldl_append]
  generalize List.foldl _ _ hs = s at c
  cases x <;> simp only [List.foldl_cons, List.foldl_nil, ← c]
  all_goals split <;> rfl

theorem managerWallets_snoc (hs : List PageHappening) (x : PageHappening) :
    managerWallets (hs ++ [x]) = (match x with
      | .load => [none]
      | .create => managerWallets hs ++ [none]
      | .setWallet j v => (managerWallets hs).set j (some v)
      | _ => managerWallets hs) := by
  unfold managerWallets
  rw [List.foldl_append]; rfl

theorem Spec.PageInjected.snoc {hs : List PageHappening} {v : Wallet} (h : PageInjected hs v) {x : PageHappening} (hx : x ≠ .load) :
    PageInjected (hs ++ [x]) v := by
  obtain ⟨b, a, h1, h2, h3⟩ := h
  refine ⟨b, a ++ [x], by rw [h1, List.append_assoc], ?_, h3⟩
  simp only [List.mem_append, List.mem_singleton, not_or]
  exact ⟨h2, fun h => hx h.symm⟩

/-- What a step other than a load or another manager does to the wallet client, the injected wallet and the number of calls. -/
theorem step_wallet (E : Env) (K : SessionKeys) (w : World) (x : Happening) :
    match x with
    | .load | .create => True
    | .setWallet v => (w.step E K x).client.wallet = some v ∧ (w.step E K x).client.injected = w.client.injected ∧
        (w.step E K x).client.tasks.length = w.client.tasks.length
    | .inject v => (w.step E K x).client.wallet = w.client.wallet ∧ (w.step E K x).client.injected = v ∧
        (w.step E K x).client.tasks.length = w.client.tasks.length
    | .prepareLogin | .login => WalletStep w.client (w.step E K x).client ∧
        (w.step E K x).client.tasks.length = w.client.tasks.length + 1
    | _ => WalletStep w.client (w.step E K x).client ∧ (w.step E K x).client.tasks.length = w.client.tasks.length := by
  cases x with
  | load => trivial
  | create => trivial
  | setWallet v => exact ⟨rfl, rfl, rfl⟩
  | inject v => exact ⟨rfl, rfl, rfl⟩
  | clear => exact ⟨.same rfl rfl, rfl⟩
  | other t op => exact ⟨.same rfl rfl, rfl⟩
  | prepareLogin => exact ⟨setup_wallet w.client, by simp [World.step, Client.start]⟩
  | login =>
    refine ⟨?_, by simp [World.step, Client.start]⟩
    simp only [World.step, Client.startLogin]
    split
    · exact .same rfl rfl
    · split
      · exact .same rfl rfl
      · exact setup_wallet w.client
  | resume i a =>
    simp only [World.step]
    split
    · exact ⟨.same rfl rfl, rfl⟩
    · exact ⟨(resume_wallet w.client _ a).1, by simp⟩
  | execute i t c =>
    simp only [World.step]
    split
    · exact ⟨.same rfl rfl, rfl⟩
    · split
      · exact ⟨.same rfl rfl, rfl⟩
      · exact ⟨.same rfl rfl, by simp⟩
  | lagging i t c seen =>
    simp only [World.step]
    split
    · exact ⟨.same rfl rfl, rfl⟩
    · split
      · exact ⟨.same rfl rfl, rfl⟩
      · exact ⟨.same rfl rfl, by simp⟩

/-- A step of a manager that leaves the settings of the app alone. -/
theorem PageOk.on {E : Env} {K : SessionKeys} {hs : List PageHappening} {p : Page} (x : PageOk hs p) (j : Nat) (y : Happening)
    (new : List Nat) (e : PageHappening) (he : e ≠ .load)
    (h1 : managerWallets (hs ++ [e]) = managerWallets hs)
    (h2 : (hs ++ [e]).foldl (fun o x => match x with | .inject u => u | _ => o) none =
      hs.foldl (fun o x => match x with | .inject u => u | _ => o) (none : Option Wallet))
    (h3 : managerOfCalls (hs ++ [e]) = if j < (managerWallets hs).length then managerOfCalls hs ++ new else managerOfCalls hs)
    (h4 : ∀ v, WalletStep (p.world.withWallet v).client ((p.world.withWallet v).step E K y).client ∧
      ((p.world.withWallet v).step E K y).client.tasks.length = p.world.client.tasks.length + new.length) :
    PageOk (hs ++ [e]) (p.on E K j y new) := by
  unfold Page.on
  split
  · next hj =>
    have : ¬j < (managerWallets hs).length := by rw [← x.count]; have := List.getElem?_eq_none_iff.mp hj; omega
    rw [if_neg this] at h3
    exact ⟨h1 ▸ x.count, h1 ▸ x.app, fun j v hv => h1 ▸ (x.wallet j v hv).imp id fun h => ⟨h.1, h.2.snoc he⟩,
      by rw [h2]; exact x.injected, by rw [h3]; exact x.owners, x.calls⟩
  · next v hj =>
    have hlt : j < p.wallets.length := (List.getElem?_eq_some_iff.mp hj).1
    rw [if_pos (x.count ▸ hlt)] at h3
    obtain ⟨⟨k1, k2, k3⟩, k4⟩ := h4 v
    refine ⟨by rw [h1, List.length_set]; exact x.count, fun i u hu => ?_, fun i u hu => ?_, ?_, ?_, ?_⟩
    · rw [h1] at hu
      have := x.app i u hu
      by_cases hij : j = i
      · subst hij
        rw [List.getElem?_set_self hlt]
        rw [hj] at this
        exact congrArg some (k1 u (Option.some.inj this))
      · rw [List.getElem?_set_ne hij]; exact this
    · rw [h1]
      by_cases hij : j = i
      · subst hij
        rw [List.getElem?_set_self hlt] at hu
        rcases k2 u (Option.some.inj hu) with g | ⟨g1, g2⟩
        · exact (x.wallet j u (by rw [hj]; exact congrArg some g)).imp id fun h => ⟨h.1, h.2.snoc he⟩
        · right
          refine ⟨?_, hs, [e], rfl, by simpa using fun h => he h.symm, x.injected ▸ g2⟩
          have hj' : j < (managerWallets hs).length := x.count ▸ hlt
          cases hm : (managerWallets hs)[j] with
          | none => rw [List.getElem?_eq_getElem hj', hm]
          | some u' =>
            have := x.app j u' (by rw [List.getElem?_eq_getElem hj', hm])
            rw [hj] at this
            have g1 : v = none := g1
            rw [g1] at this; cases this
      · rw [List.getElem?_set_ne hij] at hu
        exact (x.wallet i u hu).imp id fun h => ⟨h.1, h.2.snoc he⟩
    · rw [h2, k3]; exact x.injected
    · rw [h3]; exact congrArg (· ++ new) x.owners
    · simp only [List.length_append, k4, x.calls]

theorem pageOk_step {E : Env} {K : SessionKeys} {hs : List PageHappening} {p : Page} (x : PageOk hs p) (e : PageHappening) :
    PageOk (hs ++ [e]) (p.step E K e) := by
  have fold : ∀ e : PageHappening, (hs ++ [e]).foldl (fun o x => match x with | .inject u => u | _ => o) none =
      (match e with | .inject u => u | _ => hs.foldl (fun o x => match x with | .inject u => u | _ => o) (none : Option Wallet)) := by
    intro e; rw [List.foldl_append]; cases e <;> rfl
  cases e with
  | load =>
    refine ⟨by rw [managerWallets_snoc]; rfl, by rw [managerWallets_snoc]; exact fun j v h => h, fun j v h => ?_, ?_, ?_, ?_⟩
    · exact absurd h (by cases j <;> simp [Page.step])
    · rw [fold]; exact x.injected
    · rw [managerOfCalls_snoc]; rfl
    · simp [Page.step, World.step, Client.load, Client.construct]
  | create =>
    have k := create_keeps p.world.client
    refine ⟨by rw [managerWallets_snoc]; simp [Page.step, x.count], fun j v h => ?_, fun j v h => ?_, ?_, ?_, ?_⟩
    · rw [managerWallets_snoc] at h
      rcases getElem?_snoc_cases h with h | ⟨_, h⟩
      · have h := x.app j v h
        simp only [Page.step]
        rw [List.getElem?_append_left (List.getElem?_eq_some_iff.mp h).1]; exact h
      · cases h
    · rw [managerWallets_snoc]
      rcases getElem?_snoc_cases h with h | ⟨_, h⟩
      · have hlt : j < (managerWallets hs).length := x.count ▸ (List.getElem?_eq_some_iff.mp h).1
        simp only [List.getElem?_append_left hlt]
        exact (x.wallet j v h).imp id fun h => ⟨h.1, h.2.snoc (by simp)⟩
      · cases h
    · rw [fold]; exact k.2.2.2.1.trans x.injected
    · rw [managerOfCalls_snoc]; exact x.owners
    · exact x.calls.trans (congrArg List.length k.1.symm)
  | setWallet j w =>
    simp only [Page.step]
    unfold Page.on
    split
    · next hj =>
      have hn : (managerWallets hs).set j (some w) = managerWallets hs :=
        List.set_eq_of_length_le (by rw [← x.count]; exact List.getElem?_eq_none_iff.mp hj)
      have e1 : managerWallets (hs ++ [.setWallet j w]) = managerWallets hs := by rw [managerWallets_snoc]; exact hn
      exact ⟨e1 ▸ x.count, e1 ▸ x.app, fun j v hv => e1 ▸ (x.wallet j v hv).imp id fun h => ⟨h.1, h.2.snoc (by simp)⟩,
        by rw [fold]; exact x.injected, by rw [managerOfCalls_snoc]; exact x.owners, x.calls⟩
    · next v hj =>
      have hlt : j < p.wallets.length := (List.getElem?_eq_some_iff.mp hj).1
      have hlt' : j < (managerWallets hs).length := x.count ▸ hlt
      refine ⟨by rw [managerWallets_snoc]; simp [x.count], fun i u h => ?_, fun i u h => ?_, ?_, ?_, ?_⟩
      · rw [managerWallets_snoc] at h
        rcases getElem?_set_cases h with ⟨rfl, h'⟩ | ⟨hne, h⟩
        · rw [List.getElem?_set_self hlt]; exact congrArg some h'.symm
        · rw [List.getElem?_set_ne hne]; exact x.app i u h
      · rw [managerWallets_snoc]
        rcases getElem?_set_cases h with ⟨rfl, h'⟩ | ⟨hne, h⟩
        · left; simp only [List.getElem?_set_self hlt']; exact congrArg some h'.symm
        · simp only [List.getElem?_set_ne hne]
          exact (x.wallet i u h).imp id fun h => ⟨h.1, h.2.snoc (by simp)⟩
      · rw [fold]; exact x.injected
      · rw [managerOfCalls_snoc, List.append_nil]; exact x.owners
      · rw [List.append_nil]; exact x.calls
  | prepareLogin j =>
    exact x.on j _ _ _ (by simp) (managerWallets_snoc _ _) (fold _) (managerOfCalls_snoc _ _)
      fun v => step_wallet E K (p.world.withWallet v) .prepareLogin
  | login j =>
    exact x.on j _ _ _ (by simp) (managerWallets_snoc _ _) (fold _) (managerOfCalls_snoc _ _)
      fun v => step_wallet E K (p.world.withWallet v) .login
  | clear j =>
    exact x.on j _ _ _ (by simp) (managerWallets_snoc _ _) (fold _) (by rw [managerOfCalls_snoc]; simp)
      fun v => step_wallet E K (p.world.withWallet v) .clear
  | inject w =>
    exact ⟨by rw [managerWallets_snoc]; exact x.count, by rw [managerWallets_snoc]; exact x.app,
      fun j v hv => by rw [managerWallets_snoc]; exact (x.wallet j v hv).imp id fun h => ⟨h.1, h.2.snoc (by simp)⟩,
      by rw [fold]; rfl, by rw [managerOfCalls_snoc]; exact x.owners, x.calls⟩
  | resume i a =>
    simp only [Page.step]
    split
    · exact ⟨by rw [managerWallets_snoc]; exact x.count, by rw [managerWallets_snoc]; exact x.app,
        fun j v hv => by rw [managerWallets_snoc]; exact (x.wallet j v hv).imp id fun h => ⟨h.1, h.2.snoc (by simp)⟩,
        by rw [fold]; exact x.injected, by rw [managerOfCalls_snoc]; exact x.owners, x.calls⟩
    · exact x.on _ _ _ _ (by simp) (managerWallets_snoc _ _) (fold _) (by rw [managerOfCalls_snoc]; simp)
        fun v => step_wallet E K (p.world.withWallet v) (.resume i a)
  | execute i t c =>
    obtain ⟨⟨_, _, k1⟩, k2⟩ := step_wallet E K p.world (.execute i t c)
    exact ⟨by rw [managerWallets_snoc]; exact x.count, by rw [managerWallets_snoc]; exact x.app,
      fun j v hv => by rw [managerWallets_snoc]; exact (x.wallet j v hv).imp id fun h => ⟨h.1, h.2.snoc (by simp)⟩,
      by rw [fold]; exact k1.trans x.injected, by rw [managerOfCalls_snoc]; exact x.owners, x.calls.trans k2.symm⟩
  | lagging i t c seen =>
    obtain ⟨⟨_, _, k1⟩, k2⟩ := step_wallet E K p.world (.lagging i t c seen)
    exact ⟨by rw [managerWallets_snoc]; exact x.count, by rw [managerWallets_snoc]; exact x.app,
      fun j v hv => by rw [managerWallets_snoc]; exact (x.wallet j v hv).imp id fun h => ⟨h.1, h.2.snoc (by simp)⟩,
      by rw [fold]; exact k1.trans x.injected, by rw [managerOfCalls_snoc]; exact x.owners, x.calls.trans k2.symm⟩
  | other t op =>
    exact ⟨by rw [managerWallets_snoc]; exact x.count, by rw [managerWallets_snoc]; exact x.app,
      fun j v hv => by rw [managerWallets_snoc]; exact (x.wallet j v hv).imp id fun h => ⟨h.1, h.2.snoc (by simp)⟩,
      by rw [fold]; exact x.injected, by rw [managerOfCalls_snoc]; exact x.owners, x.calls⟩

theorem pageOk (E : Env) (K : SessionKeys) (hs : List PageHappening) : PageOk hs (pageAfter E K hs) := by
  have : ∀ (hs' hs : List PageHappening) (p : Page), PageOk hs p → PageOk (hs ++ hs') (p.run E K hs') := by
    intro hs'
    induction hs' with
    | nil => intro hs p h; rw [List.append_nil]; exact h
    | cons e hs' ih =>
      intro hs p h
      have := ih (hs ++ [e]) (p.step E K e) (pageOk_step h e)
      rwa [List.append_assoc] at this
  refine this hs [] .initial ⟨rfl, fun j v h => h, fun j v h => ?_, rfl, rfl, rfl⟩
  exact absurd h (by cases j <;> simp [Page.initial])

end Siwe
