import Verif.Spec.Busy
import Verif.Props.Settles
/- Property C74: the page does not stay busy. -/
namespace Siwe
open Spec

/-- A login that has announced itself. -/
def Announced : Pc → Bool
  | .loginWallet _ | .loginAddresses => false
  | pc => RunningLogin pc

/-- What a step of a call does to the states. -/
structure BusyStep (c : Client) (pc : Pc) (r : Client × Pc × List Output) : Prop where
  preparing : r.1.ctx.prepareLoginStatus = .preparing →
    Preparing r.2.1 = true ∨ (c.ctx.prepareLoginStatus = .preparing ∧ Preparing pc = false)
  loggingIn : r.1.ctx.loginStatus = .loggingIn → Announced r.2.1 = true ∨ (c.ctx.loginStatus = .loggingIn ∧ Announced pc = false)
  signing : r.1.ctx.signMessageStatus = .pending → Signing r.2.1 = true ∨ (c.ctx.signMessageStatus = .pending ∧ Signing pc = false)

theorem prepareFails_busy (c : Client) (pc : Pc) (f : Option Bytes) (e : ClientError) (h : Announced pc = f.isSome)
    (hs : Signing pc = false) : BusyStep c pc (c.prepareFails f e) := by
  refine ⟨nofun, fun q => ?_, fun q => .inr ⟨q, hs⟩⟩
  cases f with
  | none => exact .inr ⟨q, h⟩
  | some a => exact .inl rfl

theorem loginFails_busy (c : Client) (pc : Pc) (e : ClientError) (h : Preparing pc = false) (hs : Signing pc = false) :
    BusyStep c pc (c.loginFails e) :=
  ⟨fun q => .inr ⟨q, h⟩, nofun, fun q => .inr ⟨q, hs⟩⟩

theorem same_busy {c : Client} {pc pc' : Pc} {l : List Output} (h1 : Preparing pc' = Preparing pc) (h2 : Announced pc' = Announced pc)
    (h3 : Signing pc' = Signing pc) : BusyStep c pc (c, pc', l) := by
  refine ⟨fun q => ?_, fun q => ?_, fun q => ?_⟩
  · cases h : Preparing pc
    · exact .inr ⟨q, rfl⟩
    · exact .inl (h1.trans h)
  · cases h : Announced pc
    · exact .inr ⟨q, rfl⟩
    · exact .inl (h2.trans h)
  · cases h : Signing pc
    · exact .inr ⟨q, rfl⟩
    · exact .inl (h3.trans h)

theorem requestSignature_busy (c c' : Client) (pc : Pc) (a : Bytes) (p : PrepareLoginOkResponse) (h : Preparing pc = false)
    (hc : c'.ctx.prepareLoginStatus = c.ctx.prepareLoginStatus) : BusyStep c pc (c'.requestSignature a p) :=
  ⟨fun q => .inr ⟨hc ▸ q, h⟩, fun _ => .inl rfl, fun _ => .inl rfl⟩

theorem announced_or {c : Client} {pc : Pc} {b : Bool} {pc' : Pc} (h : Announced pc' = b) (h' : Announced pc = b)
    (q : c.ctx.loginStatus = .loggingIn) : Announced pc' = true ∨ (c.ctx.loginStatus = .loggingIn ∧ Announced pc = false) := by
  cases b
  · exact .inr ⟨q, h'⟩
  · exact .inl h

theorem resume_busy (c : Client) (pc : Pc) (a : Answer) : BusyStep c pc (c.resume pc a) := by
  unfold Client.resume
  split
  · exact same_busy rfl rfl rfl
  · exact prepareFails_busy _ _ _ _ rfl rfl
  · next f l =>
    unfold Client.prepareWith
    split
    · exact prepareFails_busy _ _ _ _ rfl rfl
    · split
      · exact prepareFails_busy _ _ _ _ rfl rfl
      · exact ⟨fun _ => .inl rfl, fun q => announced_or (b := f.isSome) rfl rfl q, fun q => .inr ⟨q, rfl⟩⟩
  · exact prepareFails_busy _ _ _ _ rfl rfl
  · exact same_busy rfl rfl rfl
  · exact prepareFails_busy _ _ _ _ rfl rfl
  · exact prepareFails_busy _ _ _ _ rfl rfl
  · next f a r =>
    unfold Client.prepareReply
    split
    · refine ⟨nofun, fun q => ?_, fun q => .inr ⟨q, rfl⟩⟩
      cases f with
      | none => exact .inr ⟨q, rfl⟩
      | some x => exact .inl rfl
    · exact prepareFails_busy _ _ _ _ rfl rfl
    · exact prepareFails_busy _ _ _ _ rfl rfl
  · exact prepareFails_busy _ _ _ _ rfl rfl
  · exact same_busy rfl rfl rfl
  · exact loginFails_busy _ _ _ rfl rfl
  · unfold Client.loginWith
    split
    · exact loginFails_busy _ _ _ rfl rfl
    · split
      · exact loginFails_busy _ _ _ rfl rfl
      · split
        · exact requestSignature_busy _ _ _ _ _ rfl rfl
        · have g := (setup_ctx c.loggingIn).1
          unfold Client.startPrepareLogin
          refine ⟨fun q => .inr ⟨?_, rfl⟩, fun _ => .inl rfl, fun q => .inr ⟨?_, rfl⟩⟩
          · rw [g] at q; exact q
          · rw [g] at q; exact q
  · exact loginFails_busy _ _ _ rfl rfl
  · exact requestSignature_busy _ _ _ _ _ rfl rfl
  · exact loginFails_busy _ _ _ rfl rfl
  · unfold Client.signed
    split
    · exact ⟨fun q => .inr ⟨q, rfl⟩, nofun, nofun⟩
    · exact ⟨fun q => .inr ⟨q, rfl⟩, fun _ => .inl rfl, nofun⟩
  · exact ⟨fun q => .inr ⟨q, rfl⟩, nofun, nofun⟩
  · exact same_busy rfl rfl rfl
  · exact loginFails_busy _ _ _ rfl rfl
  · exact loginFails_busy _ _ _ rfl rfl
  · unfold Client.loginReply
    split
    · exact same_busy rfl rfl rfl
    · exact loginFails_busy _ _ _ rfl rfl
    · exact loginFails_busy _ _ _ rfl rfl
  · exact loginFails_busy _ _ _ rfl rfl
  · exact loginFails_busy _ _ _ rfl rfl
  · unfold Client.delegationReply
    split
    · rw [if_neg (by simp)]
      exact ⟨fun q => .inr ⟨q, rfl⟩, nofun, fun q => .inr ⟨q, rfl⟩⟩
    · exact loginFails_busy _ _ _ rfl rfl
    · exact loginFails_busy _ _ _ rfl rfl
  · unfold Client.delegationReply
    split
    · rw [if_pos rfl]; exact loginFails_busy _ _ _ rfl rfl
    · exact loginFails_busy _ _ _ rfl rfl
    · exact loginFails_busy _ _ _ rfl rfl
  · exact loginFails_busy _ _ _ rfl rfl
  · exact same_busy rfl rfl rfl

/-- The invariant, with announced logins. -/
structure BusyOk (c : Client) : Prop where
  preparing : c.ctx.prepareLoginStatus = .preparing → ∃ pc ∈ c.tasks, Preparing pc = true
  loggingIn : c.ctx.loginStatus = .loggingIn → ∃ pc ∈ c.tasks, Announced pc = true
  signing : c.ctx.signMessageStatus = .pending → ∃ pc ∈ c.tasks, Signing pc = true

theorem BusyOk.append {c c' : Client} (x : BusyOk c) {pc : Pc} (h0 : c'.tasks = c.tasks ++ [pc])
    (h1 : c'.ctx.prepareLoginStatus = c.ctx.prepareLoginStatus) (h2 : c'.ctx.loginStatus = c.ctx.loginStatus ∨ c'.ctx.loginStatus = .error)
    (h3 : c'.ctx.signMessageStatus = c.ctx.signMessageStatus) : BusyOk c' := by
  refine ⟨fun q => ?_, fun q => ?_, fun q => ?_⟩
  · obtain ⟨pc, g1, g2⟩ := x.preparing (h1 ▸ q)
    exact ⟨pc, by rw [h0]; exact List.mem_append_left _ g1, g2⟩
  · rcases h2 with h2 | h2
    · obtain ⟨pc, g1, g2⟩ := x.loggingIn (h2 ▸ q)
      exact ⟨pc, by rw [h0]; exact List.mem_append_left _ g1, g2⟩
    · rw [h2] at q; cases q
  · obtain ⟨pc, g1, g2⟩ := x.signing (h3 ▸ q)
    exact ⟨pc, by rw [h0]; exact List.mem_append_left _ g1, g2⟩

/-- A call that is not the `i`-th is still there. -/
theorem tasks_kept {l : List Pc} {i : Nat} {pc pc' : Pc} (hi : l[i]? = some pc) (P : Pc → Bool) (hn : P pc = false)
    (h : ∃ q ∈ l, P q = true) : ∃ q ∈ l.set i pc', P q = true := by
  obtain ⟨q, hq, hp⟩ := h
  obtain ⟨j, hj, rfl⟩ := List.getElem_of_mem hq
  by_cases hij : i = j
  · subst hij
    rw [List.getElem?_eq_getElem hj] at hi
    rw [Option.some.inj hi, hn] at hp; cases hp
  · refine ⟨l[j], ?_, hp⟩
    rw [List.mem_iff_getElem]
    exact ⟨j, by simpa using hj, by rw [List.getElem_set_ne hij]⟩

theorem tasks_new {l : List Pc} {i : Nat} {pc pc' : Pc} (hi : l[i]? = some pc) (P : Pc → Bool) (h : P pc' = true) : ∃ q ∈ l.set i pc', P q = true :=
  ⟨pc', List.mem_set (List.getElem?_eq_some_iff.mp hi).1 _, h⟩

theorem busyOk_load (c : Client) : BusyOk c.load := by
  unfold Client.load Client.construct
  split <;> exact ⟨nofun, nofun, nofun⟩

theorem busyOk_step {E : Env} {K : SessionKeys} {w : World} (x : BusyOk w.client) (e : Happening) : BusyOk (w.step E K e).client := by
  cases e with
  | load => exact busyOk_load _
  | create =>
    have k := create_keeps w.client
    exact ⟨by simpa only [World.step, k.1, k.2.2.2.2.2.1] using x.preparing,
      by simpa only [World.step, k.1, k.2.2.2.2.2.2.2.2.1] using x.loggingIn,
      by simpa only [World.step, k.1, k.2.2.2.2.2.2.2.2.2.2.1] using x.signing⟩
  | setWallet y => exact ⟨x.preparing, x.loggingIn, x.signing⟩
  | inject y => exact ⟨x.preparing, x.loggingIn, x.signing⟩
  | clear => exact ⟨nofun, nofun, x.signing⟩
  | other now op => exact ⟨x.preparing, x.loggingIn, x.signing⟩
  | prepareLogin =>
    have g := setup_ctx w.client
    exact x.append (pc := (w.client.startPrepareLogin none).2) rfl (by simp [World.step, Client.start, Client.startPrepareLogin, g.1])
      (.inl (by simp [World.step, Client.start, Client.startPrepareLogin, g.1]))
      (by simp [World.step, Client.start, Client.startPrepareLogin, g.1])
  | login =>
    have g := setup_ctx w.client
    refine x.append (pc := w.client.startLogin.2) rfl ?_ ?_ ?_
    all_goals
      simp only [World.step, Client.start, Client.startLogin]
      split
      · first | rfl | exact .inr rfl
      · split
        · first | rfl | exact .inr rfl
        · first | exact .inl (by rw [g.1]) | rw [g.1]
  | resume i a =>
    simp only [World.step]
    split
    · exact x
    · next pc hpc =>
      have g := resume_busy w.client pc a
      refine ⟨fun q => ?_, fun q => ?_, fun q => ?_⟩
      · rcases g.preparing q with h | ⟨h1, h2⟩
        · exact tasks_new hpc _ h
        · exact tasks_kept hpc _ h2 (x.preparing h1)
      · rcases g.loggingIn q with h | ⟨h1, h2⟩
        · exact tasks_new hpc _ h
        · exact tasks_kept hpc _ h2 (x.loggingIn h1)
      · rcases g.signing q with h | ⟨h1, h2⟩
        · exact tasks_new hpc _ h
        · exact tasks_kept hpc _ h2 (x.signing h1)
  | execute i now cert =>
    simp only [World.step]
    split
    · exact x
    · next pc hpc =>
      split
      · exact x
      · next op ho =>
        have hk : ∀ P : Pc → Bool, (∀ r, P (pc.answered r) = P pc) → ∀ r, (∃ q ∈ w.client.tasks, P q = true) →
            ∃ q ∈ w.client.tasks.set i (pc.answered r), P q = true := by
          intro P hP r hq
          cases hp : P pc with
          | true => exact tasks_new hpc _ ((hP r).trans hp)
          | false => exact tasks_kept hpc _ hp hq
        have e : ∀ r, Preparing (pc.answered r) = Preparing pc ∧ Announced (pc.answered r) = Announced pc ∧
            Signing (pc.answered r) = Signing pc := by
          intro r; cases pc <;> exact ⟨rfl, rfl, rfl⟩
        exact ⟨fun q => hk _ (fun r => (e r).1) _ (x.preparing q), fun q => hk _ (fun r => (e r).2.1) _ (x.loggingIn q),
          fun q => hk _ (fun r => (e r).2.2) _ (x.signing q)⟩
  | lagging i now cert seen =>
    simp only [World.step]
    split
    · exact x
    · next pc hpc =>
      split
      · exact x
      · next op ho =>
        have hk : ∀ P : Pc → Bool, (∀ r, P (pc.answered r) = P pc) → ∀ r, (∃ q ∈ w.client.tasks, P q = true) →
            ∃ q ∈ w.client.tasks.set i (pc.answered r), P q = true := by
          intro P hP r hq
          cases hp : P pc with
          | true => exact tasks_new hpc _ ((hP r).trans hp)
          | false => exact tasks_kept hpc _ hp hq
        have e : ∀ r, Preparing (pc.answered r) = Preparing pc ∧ Announced (pc.answered r) = Announced pc ∧
            Signing (pc.answered r) = Signing pc := by
          intro r; cases pc <;> exact ⟨rfl, rfl, rfl⟩
        exact ⟨fun q => hk _ (fun r => (e r).1) _ (x.preparing q), fun q => hk _ (fun r => (e r).2.1) _ (x.loggingIn q),
          fun q => hk _ (fun r => (e r).2.2) _ (x.signing q)⟩

theorem busyOk (E : Env) (K : SessionKeys) (hs : List Happening) : BusyOk (worldAfter E K hs).client := by
  have h0 : BusyOk World.initial.client := busyOk_load ⟨.initial, none, none, none, [], 0⟩
  have : ∀ w : World, BusyOk w.client → BusyOk (w.run E K hs).client := by
    induction hs with
    | nil => exact fun w h => h
    | cons e hs ih => exact fun w h => ih _ (busyOk_step h e)
  exact this _ h0

/-! ### C74 -/

/-- C74: whenever the page says that it is preparing a login, logging in, or waiting for a signature, a call is doing so. -/
theorem C74_busy_truthfully (E : Env) (K : SessionKeys) (hs : List Happening) : BusyTruthfully (worldAfter E K hs).client := by
  have x := busyOk E K hs
  refine ⟨x.preparing, fun q => ?_, x.signing⟩
  obtain ⟨pc, h1, h2⟩ := x.loggingIn q
  refine ⟨pc, h1, ?_⟩
  cases pc <;> first | exact h2 | cases h2

/-- C74: so once all calls have settled, the page is not busy. -/
theorem C74_not_stuck (E : Env) (K : SessionKeys) (hs : List Happening)
    (h : ∀ pc ∈ (worldAfter E K hs).client.tasks, Running pc = false) :
    (worldAfter E K hs).client.ctx.prepareLoginStatus ≠ .preparing ∧ (worldAfter E K hs).client.ctx.loginStatus ≠ .loggingIn ∧
    (worldAfter E K hs).client.ctx.signMessageStatus ≠ .pending := by
  have x := C74_busy_truthfully E K hs
  refine ⟨fun q => ?_, fun q => ?_, fun q => ?_⟩
  · obtain ⟨pc, h1, h2⟩ := x.preparing q
    have := h pc h1
    cases pc <;> first | (cases this; done) | (cases h2; done)
  · obtain ⟨pc, h1, h2⟩ := x.loggingIn q
    have := h pc h1
    cases pc <;> first | (cases this; done) | (cases h2; done)
  · obtain ⟨pc, h1, h2⟩ := x.signing q
    have := h pc h1
    cases pc <;> first | (cases this; done) | (cases h2; done)

/-- Non-vacuity: the example's page is busy in each of the three ways on its way, with one call running, and not in the end. -/
example : (worldAfter Toy.env Ex.keys (Ex.page ++ (Ex.fetches 0 Ex.alice 5).take 6)).client.ctx.prepareLoginStatus = .preparing ∧
    (worldAfter Toy.env Ex.keys (Ex.page ++ (Ex.fetches 0 Ex.alice 5).take 6)).client.ctx.loginStatus = .loggingIn ∧
    (worldAfter Toy.env Ex.keys (Ex.page ++ Ex.fetches 0 Ex.alice 5)).client.ctx.signMessageStatus = .pending ∧
    (worldAfter Toy.env Ex.keys Ex.signIn).client.tasks.length = 1 ∧
    (∀ pc ∈ (worldAfter Toy.env Ex.keys Ex.signIn).client.tasks, Running pc = false) := by
  decide +kernel

end Siwe
