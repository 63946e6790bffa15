import Verif.Lemmas.ClientRuns
import Verif.Spec.ClientUse
/- The messages a page holds, counted. -/
namespace Siwe
open Spec

theorem prepareFails_idle (c : Client) (f : Option Bytes) (e : ClientError) (hf : f.isSome = false) :
    RunningLogin (c.prepareFails f e).2.1 = false := by
  cases f with
  | none => rfl
  | some _ => cases hf

/-- A call that is no running `login` does not become one. -/
theorem resume_idle (c : Client) (pc : Pc) (ans : Answer) (h : RunningLogin pc = false) :
    RunningLogin (c.resume pc ans).2.1 = false := by
  unfold Client.resume
  split <;> try (exact Bool.noConfusion (show true = false from h))
  · exact h
  · exact prepareFails_idle _ _ _ h
  · unfold Client.prepareWith
    split
    · exact prepareFails_idle _ _ _ h
    · split
      · exact prepareFails_idle _ _ _ h
      · exact h
  · exact prepareFails_idle _ _ _ h
  · exact h
  · exact prepareFails_idle _ _ _ h
  · exact prepareFails_idle _ _ _ h
  · next f _ r =>
    unfold Client.prepareReply
    split
    · cases f with
      | none => rfl
      | some _ => cases h
    · exact prepareFails_idle _ _ _ h
    · exact prepareFails_idle _ _ _ h
  · exact prepareFails_idle _ _ _ h
  · exact h

theorem answered_running {K : SessionKeys} {cert : Option Bytes} {pc : Pc} {op : Op} (h : pc.request K cert = some op) (r : Reply) :
    RunningLogin (pc.answered r) = RunningLogin pc ∧ ∀ i, pc.answered r ≠ .loggedIn i := by
  cases pc <;> simp [Pc.request] at h <;> exact ⟨rfl, (fun _ h => (nomatch h))⟩

/-- 1 if the message has the nonce. -/
def has (n : Bytes) (p : PrepareLoginOkResponse) : Nat := if p.nonce == n then 1 else 0

/-- 1 if the call has yet to use a message with the nonce. -/
def Pc.holds (n : Bytes) : Pc → Nat
  | .prepReplied _ _ (.prepared p) => has n p
  | .loginPrepared _ p | .signing _ p | .loginActor _ p _ _ => has n p
  | _ => 0

/-- The call is a `login` that has chosen its message. -/
def Pc.chosen : Pc → Bool
  | .loginPrepared _ _ | .signing _ _ | .loginActor _ _ _ _ | .loginSent _ _ _ _ | .loginReplied _ _ _ _ _
  | .delegationSent _ _ _ | .delegationReplied _ _ _ _ => true
  | _ => false

/-- The call is a `login` that has not looked for a message yet. -/
def Pc.early : Pc → Bool
  | .loginWallet _ | .loginAddresses => true
  | _ => false

theorem chosen_running {pc : Pc} (h : pc.chosen = true) : RunningLogin pc = true := by cases pc <;> first | rfl | cases h
theorem early_running {pc : Pc} (h : pc.early = true) : RunningLogin pc = true := by cases pc <;> first | rfl | cases h

/-- What a step of a call does to messages. -/
inductive MsgStep (n : Bytes) (c : Client) (pc : Pc) (c' : Client) (pc' : Pc) (out : List Output) : Prop
  | keep : c'.ctx.prepareLoginOkResponse = c.ctx.prepareLoginOkResponse → c'.ctx.loginStatus = c.ctx.loginStatus →
      pc'.chosen = pc.chosen → pc'.holds n + loginsWith n out ≤ pc.holds n → (pc'.early = true → pc.early = true) →
      MsgStep n c pc c' pc' out
  | fail : c'.ctx.prepareLoginOkResponse = none → c'.ctx.loginStatus ≠ .success → pc'.holds n = 0 → loginsWith n out = 0 →
      pc'.early = false → MsgStep n c pc c' pc' out
  | reply (p : PrepareLoginOkResponse) : c'.ctx.prepareLoginOkResponse = some p → c'.ctx.loginStatus = c.ctx.loginStatus →
      pc.holds n = has n p → loginsWith n out = 0 → pc'.early = false →
      (pc'.chosen = true ∧ pc'.holds n = has n p ∨ pc'.holds n = 0) → MsgStep n c pc c' pc' out
  | start (p : PrepareLoginOkResponse) : pc.early = true → c.ctx.prepareLoginOkResponse = some p →
      c'.ctx.loginStatus ≠ .success → pc'.chosen = true → pc'.holds n = has n p →
      loginsWith n out = 0 → pc'.early = false → MsgStep n c pc c' pc' out
  | success : RunningLogin pc = true → c'.ctx.loginStatus = .success → pc'.holds n = 0 → loginsWith n out = 0 → pc'.early = false →
      MsgStep n c pc c' pc' out

theorem resume_msg (n : Bytes) (c : Client) (pc : Pc) (a : Answer) :
    MsgStep n c pc (c.resume pc a).1 (c.resume pc a).2.1 (c.resume pc a).2.2 := by
  have pf : ∀ f e, pc.chosen = false → MsgStep n c pc (c.prepareFails f e).1 (c.prepareFails f e).2.1 (c.prepareFails f e).2.2 := by
    intro f e hc
    cases f <;> exact .keep rfl rfl hc.symm (Nat.zero_le _) (fun h => (nomatch h))
  have lf : ∀ e, MsgStep n c pc (c.loginFails e).1 (c.loginFails e).2.1 (c.loginFails e).2.2 :=
    fun e => .fail rfl (fun h => (nomatch h)) rfl rfl rfl
  have sf : ∀ e, MsgStep n c pc (c.signatureFails e).1 (c.signatureFails e).2.1 (c.signatureFails e).2.2 :=
    fun e => .fail rfl (fun h => (nomatch h)) rfl rfl rfl
  have rs : ∀ (c' : Client) a p, loginsWith n (c'.requestSignature a p).2.2 = 0 := by
    intro c' a p
    unfold Client.requestSignature
    simp only
    split <;> rfl
  unfold Client.resume
  split
  · exact .keep rfl rfl rfl (Nat.zero_le _) (fun h => (nomatch h))
  · exact pf _ _ rfl
  · unfold Client.prepareWith
    split
    · exact pf _ _ rfl
    · split
      · exact pf _ _ rfl
      · exact .keep rfl rfl rfl (Nat.zero_le _) (fun h => (nomatch h))
  · exact pf _ _ rfl
  · exact .keep rfl rfl rfl (Nat.zero_le _) (fun h => (nomatch h))
  · exact pf _ _ rfl
  · exact pf _ _ rfl
  · next f _ r =>
    unfold Client.prepareReply
    split
    · next p =>
      refine .reply p rfl rfl rfl rfl ?_ ?_
      · cases f <;> rfl
      · cases f with
        | none => exact .inr rfl
        | some y => exact .inl ⟨rfl, rfl⟩
    · exact pf _ _ rfl
    · exact pf _ _ rfl
  · exact pf _ _ rfl
  · exact .keep rfl rfl rfl (Nat.zero_le _) (fun _ => rfl)
  · exact lf _
  · unfold Client.loginWith
    split
    · exact lf _
    · split
      · exact lf _
      · split
        · next p hp =>
          exact .start p rfl hp (fun h => (nomatch h)) rfl rfl (rs _ _ _) rfl
        · next hp =>
          have g := setup_ctx c.loggingIn
          refine .fail ?_ ?_ rfl rfl rfl
          · simp only [Client.startPrepareLogin, g.1]; exact hp
          · simp only [Client.startPrepareLogin, g.1]; exact (fun h => (nomatch h))
  · exact lf _
  · refine .keep rfl rfl rfl ?_ (fun h => (nomatch h))
    rw [rs]; exact Nat.le_refl _
  · exact lf _
  · unfold Client.signed
    split
    · exact sf _
    · exact .keep rfl rfl rfl (Nat.le_refl _) (fun h => (nomatch h))
  · exact sf _
  · next p _ _ =>
    refine .keep rfl rfl rfl ?_ (fun h => (nomatch h))
    simp only [Pc.holds, loginsWith, has, List.countP_cons, List.countP_nil]
    omega
  · exact lf _
  · exact lf _
  · unfold Client.loginReply
    split
    · exact .keep rfl rfl rfl (Nat.le_refl _) (fun h => (nomatch h))
    · exact lf _
    · exact lf _
  · exact lf _
  · exact lf _
  · unfold Client.delegationReply
    split
    · exact .success rfl rfl rfl rfl rfl
    · exact lf _
    · exact lf _
  · unfold Client.delegationReply
    split
    · exact lf _
    · exact lf _
    · exact lf _
  · exact lf _
  · exact .keep rfl rfl rfl (Nat.le_refl _) fun h => h

/-- The messages with the nonce that the calls have yet to use. -/
def heldByCalls (n : Bytes) (l : List Pc) : Nat := (l.map (Pc.holds n)).sum

theorem heldByCalls_set {n : Bytes} {l : List Pc} {i : Nat} {pc : Pc} (h : l[i]? = some pc) (pc' : Pc) :
    heldByCalls n (l.set i pc') + pc.holds n = heldByCalls n l + pc'.holds n := by
  induction l generalizing i with
  | nil => simp at h
  | cons x l ih =>
    cases i with
    | zero =>
      simp only [List.getElem?_cons_zero, Option.some.injEq] at h; subst h
      simp [heldByCalls]; omega
    | succ i =>
      have := ih (i := i) (by simpa using h)
      simp only [heldByCalls, List.set_cons_succ, List.map_cons, List.sum_cons] at this ⊢
      omega

theorem heldByCalls_snoc (n : Bytes) (l : List Pc) (pc : Pc) : heldByCalls n (l ++ [pc]) = heldByCalls n l + pc.holds n := by
  simp [heldByCalls]

theorem timesIssued_snoc (E : Env) (n : Bytes) (h : History) (now : UInt64) (op : Op) :
    timesIssued E n (h ++ [(now, op)]) = timesIssued E n h +
      (match (step (stateAfter E h) now op).2 with | .prepared p => has n p | _ => 0) := by
  unfold timesIssued
  rw [trace, traceFrom_snoc, List.countP_append]
  congr 1
  simp only [List.countP_cons, List.countP_nil, Nat.zero_add]
  unfold stateAfter
  generalize (step (run (State.fresh E) h).1 now op).2 = r
  cases r <;> rfl

/-- 1 if the store holds a message with the nonce that no call has used or will use. -/
def heldByStore (n : Bytes) (c : Client) : Nat :=
  match c.ctx.prepareLoginOkResponse with
  | none => 0
  | some p => if c.ctx.loginStatus ≠ .success ∧ ∀ pc ∈ c.tasks, pc.chosen = false then has n p else 0

theorem heldByStore_le (n : Bytes) (c : Client) {p : PrepareLoginOkResponse} (h : c.ctx.prepareLoginOkResponse = some p) :
    heldByStore n c ≤ has n p := by
  unfold heldByStore
  rw [h]
  simp only
  split
  · exact Nat.le_refl _
  · exact Nat.zero_le _

theorem heldByStore_none {n : Bytes} {c : Client} (h : c.ctx.prepareLoginOkResponse = none) : heldByStore n c = 0 := by
  unfold heldByStore; rw [h]

theorem heldByStore_success {n : Bytes} {c : Client} (h : c.ctx.loginStatus = .success) : heldByStore n c = 0 := by
  unfold heldByStore
  split
  · rfl
  · rw [if_neg (by simp [h])]

theorem heldByStore_chosen {n : Bytes} {c : Client} {pc : Pc} (hm : pc ∈ c.tasks) (h : pc.chosen = true) : heldByStore n c = 0 := by
  unfold heldByStore
  split
  · rfl
  · rw [if_neg (by rintro ⟨_, g⟩; rw [g pc hm] at h; cases h)]

/-- The same store, and as many chosen messages at least: no more is held. -/
theorem heldByStore_mono {n : Bytes} {c c' : Client} (h1 : c'.ctx.prepareLoginOkResponse = c.ctx.prepareLoginOkResponse)
    (h2 : c'.ctx.loginStatus = c.ctx.loginStatus)
    (h3 : (∀ pc ∈ c'.tasks, pc.chosen = false) → ∀ pc ∈ c.tasks, pc.chosen = false) : heldByStore n c' ≤ heldByStore n c := by
  unfold heldByStore
  rw [h1]
  split
  · exact Nat.le_refl _
  · split
    · next g => rw [if_pos ⟨h2 ▸ g.1, h3 g.2⟩]
    · exact Nat.zero_le _

/-- At most one `login` runs, one that has not looked for a message has not succeeded, and every message is used once. -/
structure WaitsOk (E : Env) (n : Bytes) (w : World) : Prop where
  one : ∀ (i j : Nat) (pc pc' : Pc), w.client.tasks[i]? = some pc → w.client.tasks[j]? = some pc' → RunningLogin pc = true →
    RunningLogin pc' = true → i = j
  early : ∀ pc ∈ w.client.tasks, pc.early = true → w.client.ctx.loginStatus ≠ .success
  count : loginsWith n w.log + heldByCalls n w.client.tasks + heldByStore n w.client ≤ timesIssued E n w.calls

theorem WaitsOk.join {E : Env} {n : Bytes} {w : World} (x : WaitsOk E n w) {c : Client} {pc : Pc}
    (hc : c.ctx.prepareLoginOkResponse = none ∨ c.ctx.prepareLoginOkResponse = w.client.ctx.prepareLoginOkResponse ∧
      c.ctx.loginStatus = w.client.ctx.loginStatus)
    (h1 : RunningLogin pc = true → ∀ pc ∈ w.client.tasks, RunningLogin pc = false)
    (h2 : pc.early = true → c.ctx.loginStatus ≠ .success) (h3 : pc.holds n = 0)
    (h5 : w.client.ctx.loginStatus ≠ .success → c.ctx.loginStatus ≠ .success) :
    WaitsOk E n { w with client := w.client.start (c, pc) } := by
  refine ⟨?_, ?_, ?_⟩
  · intro i j p1 p2 g1 g2 g3 g4
    simp only [Client.start] at g1 g2
    rcases getElem?_snoc_cases g1 with f1 | ⟨rfl, rfl⟩
    · rcases getElem?_snoc_cases g2 with f2 | ⟨rfl, rfl⟩
      · exact x.one i j p1 p2 f1 f2 g3 g4
      · rw [h1 g4 p1 (List.mem_of_getElem? f1)] at g3; cases g3
    · rcases getElem?_snoc_cases g2 with f2 | ⟨rfl, rfl⟩
      · rw [h1 g3 p2 (List.mem_of_getElem? f2)] at g4; cases g4
      · rfl
  · intro p hp he
    simp only [Client.start] at hp ⊢
    rcases List.mem_append.mp hp with hp | hp
    · exact h5 (x.early p hp he)
    · simp only [List.mem_singleton] at hp; subst hp; exact h2 he
  · have hx := x.count
    have : heldByStore n (w.client.start (c, pc)) ≤ heldByStore n w.client := by
      rcases hc with hc | ⟨hc1, hc2⟩
      · rw [heldByStore_none (c := w.client.start (c, pc)) hc]; exact Nat.zero_le _
      · exact heldByStore_mono (c' := w.client.start (c, pc)) hc1 hc2 fun h p hp => h p (List.mem_append_left _ hp)
    show loginsWith n w.log + heldByCalls n (w.client.tasks ++ [pc]) + _ ≤ _
    rw [heldByCalls_snoc, h3]
    simp only
    omega

theorem waitsOk_step {E : Env} {K : SessionKeys} {n : Bytes} {w : World} (x : WaitsOk E n w) (e : Happening)
    (hl : e = .login → (∀ pc ∈ w.client.tasks, RunningLogin pc = false) ∧ w.client.ctx.loginStatus ≠ .success) :
    WaitsOk E n (w.step E K e) := by
  cases e with
  | load =>
    refine ⟨by simp [World.step, Client.load, Client.construct], by simp [World.step, Client.load, Client.construct], ?_⟩
    have : (w.step E K .load).client.ctx.prepareLoginOkResponse = none := by
      simp only [World.step, Client.load, Client.construct]
      split <;> rfl
    rw [heldByStore_none this]
    have := x.count
    simp only [World.step, Client.load, Client.construct, heldByCalls, List.map_nil, List.sum_nil]
    omega
  | create =>
    have k := create_keeps w.client
    refine ⟨?_, ?_, ?_⟩
    · simp only [World.step, k.1]; exact x.one
    · simp only [World.step, k.1, k.2.2.2.2.2.2.2.2.1]; exact x.early
    · have := heldByStore_mono (n := n) (c := w.client) (c' := w.client.create) k.2.2.2.2.2.2.2.1 k.2.2.2.2.2.2.2.2.1
        (by rw [k.1]; exact id)
      have := x.count
      simp only [World.step, k.1]
      omega
  | setWallet y => exact ⟨x.one, x.early, x.count⟩
  | inject y => exact ⟨x.one, x.early, x.count⟩
  | clear =>
    refine ⟨x.one, fun _ _ _ => (fun h => (nomatch h)), ?_⟩
    have : heldByStore n w.client.clear = 0 := heldByStore_none rfl
    have := x.count
    show loginsWith n w.log + heldByCalls n w.client.tasks + heldByStore n w.client.clear ≤ timesIssued E n w.calls
    omega
  | other now op =>
    refine ⟨x.one, x.early, ?_⟩
    have := x.count
    simp only [World.step, timesIssued_snoc]
    omega
  | prepareLogin =>
    have g := setup_ctx w.client
    refine x.join (.inr ⟨?_, ?_⟩) (fun h => (nomatch h)) (fun h => (nomatch h)) rfl ?_
    all_goals simp only [Client.startPrepareLogin, g.1]
    exact id
  | login =>
    obtain ⟨l1, l2⟩ := hl rfl
    have g := setup_ctx w.client
    simp only [World.step, Client.startLogin]
    split
    · exact x.join (.inl rfl) (fun h => (nomatch h)) (fun h => (nomatch h)) rfl fun _ h => (nomatch h)
    · split
      · exact x.join (.inl rfl) (fun h => (nomatch h)) (fun h => (nomatch h)) rfl fun _ h => (nomatch h)
      · refine x.join (.inr ⟨?_, ?_⟩) (fun _ => l1) (fun _ => ?_) rfl ?_
        all_goals simp only [g.1]
        · exact l2
        · exact id
  | execute i now cert =>
    simp only [World.step]
    split
    · exact x
    · next pc hpc =>
      split
      · exact x
      · next op hop =>
        have hch : (pc.answered (step (stateAfter E w.calls) now op).2).chosen = pc.chosen ∧
            ((pc.answered (step (stateAfter E w.calls) now op).2).early = pc.early) ∧
            (pc.answered (step (stateAfter E w.calls) now op).2).holds n ≤
              (match (step (stateAfter E w.calls) now op).2 with | .prepared p => has n p | _ => 0) := by
          generalize (step (stateAfter E w.calls) now op).2 = r
          cases pc <;> simp [Pc.request] at hop
          · refine ⟨rfl, rfl, ?_⟩
            cases r <;> exact Nat.le_refl _
          · exact ⟨rfl, rfl, Nat.zero_le _⟩
          · exact ⟨rfl, rfl, Nat.zero_le _⟩
        obtain ⟨k1, k2, k3⟩ := hch
        generalize hpc' : pc.answered (step (stateAfter E w.calls) now op).2 = pc' at k1 k2 k3 ⊢
        have hrun : RunningLogin pc' = RunningLogin pc := hpc' ▸ (answered_running hop _).1
        refine ⟨?_, ?_, ?_⟩
        · intro a b p1 p2 g1 g2 g3 g4
          rcases getElem?_set_cases g1 with ⟨rfl, rfl⟩ | ⟨_, f1⟩
          · rcases getElem?_set_cases g2 with ⟨rfl, rfl⟩ | ⟨_, f2⟩
            · rfl
            · exact x.one _ _ pc p2 hpc f2 (hrun ▸ g3) g4
          · rcases getElem?_set_cases g2 with ⟨rfl, rfl⟩ | ⟨_, f2⟩
            · exact x.one _ _ p1 pc f1 hpc g3 (hrun ▸ g4)
            · exact x.one _ _ p1 p2 f1 f2 g3 g4
        · intro p hp he
          rcases mem_set hp with rfl | hp
          · exact x.early pc (List.mem_of_getElem? hpc) (k2 ▸ he)
          · exact x.early p hp he
        · have h1 := heldByCalls_set (n := n) hpc pc'
          have h2 := x.count
          have h3 : heldByStore n { w.client with tasks := w.client.tasks.set i pc' } ≤ heldByStore n w.client := by
            refine heldByStore_mono rfl rfl fun h p hp => ?_
            obtain ⟨j, hj⟩ := List.mem_iff_getElem?.mp hp
            by_cases hij : i = j
            · subst hij
              rw [hpc] at hj; cases hj
              rw [← k1]
              exact h pc' (List.mem_of_getElem? (List.getElem?_set_self (List.getElem?_eq_some_iff.mp hpc).1))
            · exact h p (List.mem_of_getElem? (i := j) (by rw [List.getElem?_set_ne hij]; exact hj))
          have h4 := timesIssued_snoc E n w.calls now op
          show loginsWith n w.log + heldByCalls n (w.client.tasks.set i pc') +
            heldByStore n { w.client with tasks := w.client.tasks.set i pc' } ≤ timesIssued E n (w.calls ++ [(now, op)])
          omega
  | lagging i now cert seen =>
    simp only [World.step]
    split
    · exact x
    · next pc hpc =>
      split
      · exact x
      · next op hop =>
        have hch : (pc.answered (step (stateAfter E (w.calls.take seen)) now op).2).chosen = pc.chosen ∧
            ((pc.answered (step (stateAfter E (w.calls.take seen)) now op).2).early = pc.early) ∧
            (pc.answered (step (stateAfter E (w.calls.take seen)) now op).2).holds n ≤ 0 := by
          generalize (step (stateAfter E (w.calls.take seen)) now op).2 = r
          cases pc <;> simp [Pc.query] at hop
          exact ⟨rfl, rfl, Nat.zero_le _⟩
        obtain ⟨k1, k2, k3⟩ := hch
        generalize hpc' : pc.answered (step (stateAfter E (w.calls.take seen)) now op).2 = pc' at k1 k2 k3 ⊢
        have hrun : RunningLogin pc' = RunningLogin pc := hpc' ▸ (answered_running (query_request hop) _).1
        refine ⟨?_, ?_, ?_⟩
        · intro a b p1 p2 g1 g2 g3 g4
          rcases getElem?_set_cases g1 with ⟨rfl, rfl⟩ | ⟨_, f1⟩
          · rcases getElem?_set_cases g2 with ⟨rfl, rfl⟩ | ⟨_, f2⟩
            · rfl
            · exact x.one _ _ pc p2 hpc f2 (hrun ▸ g3) g4
          · rcases getElem?_set_cases g2 with ⟨rfl, rfl⟩ | ⟨_, f2⟩
            · exact x.one _ _ p1 pc f1 hpc g3 (hrun ▸ g4)
            · exact x.one _ _ p1 p2 f1 f2 g3 g4
        · intro p hp he
          rcases mem_set hp with rfl | hp
          · exact x.early pc (List.mem_of_getElem? hpc) (k2 ▸ he)
          · exact x.early p hp he
        · have h1 := heldByCalls_set (n := n) hpc pc'
          have h2 := x.count
          have h3 : heldByStore n { w.client with tasks := w.client.tasks.set i pc' } ≤ heldByStore n w.client := by
            refine heldByStore_mono rfl rfl fun h p hp => ?_
            obtain ⟨j, hj⟩ := List.mem_iff_getElem?.mp hp
            by_cases hij : i = j
            · subst hij
              rw [hpc] at hj; cases hj
              rw [← k1]
              exact h pc' (List.mem_of_getElem? (List.getElem?_set_self (List.getElem?_eq_some_iff.mp hpc).1))
            · exact h p (List.mem_of_getElem? (i := j) (by rw [List.getElem?_set_ne hij]; exact hj))
          show loginsWith n w.log + heldByCalls n (w.client.tasks.set i pc') +
            heldByStore n { w.client with tasks := w.client.tasks.set i pc' } ≤ timesIssued E n w.calls
          omega
  | resume i ans =>
    simp only [World.step]
    split
    · exact x
    · next pc hpc =>
      have hlt := (List.getElem?_eq_some_iff.mp hpc).1
      have hm := resume_msg n w.client pc ans
      have hidle := resume_idle w.client pc ans
      generalize w.client.resume pc ans = r at hm hidle
      obtain ⟨c', pc', out⟩ := r
      have hrun : RunningLogin pc' = true → RunningLogin pc = true := by
        intro h
        cases hp : RunningLogin pc with
        | true => rfl
        | false => rw [show RunningLogin pc' = false from hidle hp] at h; cases h
      have hmem : pc' ∈ w.client.tasks.set i pc' := List.mem_of_getElem? (List.getElem?_set_self hlt)
      have one : ∀ (a b : Nat) (p1 p2 : Pc), (w.client.tasks.set i pc')[a]? = some p1 → (w.client.tasks.set i pc')[b]? = some p2 →
          RunningLogin p1 = true → RunningLogin p2 = true → a = b := by
        intro a b p1 p2 g1 g2 g3 g4
        rcases getElem?_set_cases g1 with ⟨rfl, rfl⟩ | ⟨_, f1⟩
        · rcases getElem?_set_cases g2 with ⟨rfl, rfl⟩ | ⟨_, f2⟩
          · rfl
          · exact x.one _ _ pc p2 hpc f2 (hrun g3) g4
        · rcases getElem?_set_cases g2 with ⟨rfl, rfl⟩ | ⟨_, f2⟩
          · exact x.one _ _ p1 pc f1 hpc g3 (hrun g4)
          · exact x.one _ _ p1 p2 f1 f2 g3 g4
      have hset := heldByCalls_set (n := n) hpc pc'
      have hcount := x.count
      have hlog : ∀ l, loginsWith n (w.log ++ l) = loginsWith n w.log + loginsWith n l := fun l => List.countP_append ..
      have others : ∀ p ∈ w.client.tasks, ∀ j, w.client.tasks[j]? = some p → j ≠ i → RunningLogin pc = true → RunningLogin p = false := by
        intro p _ j hj hne hr
        cases hp : RunningLogin p with
        | false => rfl
        | true => exact absurd (x.one j i p pc hj hpc hp hr) hne
      have earlyOf : ∀ s : LoginStatus, (pc'.early = false ∨ s ≠ .success) → (RunningLogin pc = true ∨ s ≠ .success ∨ s = w.client.ctx.loginStatus) →
          ∀ p ∈ w.client.tasks.set i pc', p.early = true → s ≠ .success := by
        intro s h1 h2 p hp he
        obtain ⟨j, hj⟩ := List.mem_iff_getElem?.mp hp
        rcases getElem?_set_cases hj with ⟨rfl, rfl⟩ | ⟨hij, hj⟩
        · rcases h1 with h1 | h1
          · rw [h1] at he; cases he
          · exact h1
        · rcases h2 with h2 | h2 | h2
          · have := others p (List.mem_of_getElem? hj) j hj (fun h => hij h.symm) h2
            rw [early_running he] at this; cases this
          · exact h2
          · rw [h2]; exact x.early p (List.mem_of_getElem? hj) he
      cases hm with
      | keep g1 g2 g3 g4 g5 =>
        have h3 : heldByStore n { c' with tasks := w.client.tasks.set i pc' } ≤ heldByStore n w.client := by
          refine heldByStore_mono g1 g2 fun h p hp => ?_
          obtain ⟨j, hj⟩ := List.mem_iff_getElem?.mp hp
          by_cases hij : i = j
          · subst hij
            rw [hpc] at hj; cases hj
            rw [← g3]
            exact h pc' hmem
          · exact h p (List.mem_of_getElem? (i := j) (by rw [List.getElem?_set_ne hij]; exact hj))
        refine ⟨one, ?_, ?_⟩
        · intro p hp he
          show c'.ctx.loginStatus ≠ .success
          rw [g2]
          rcases mem_set hp with rfl | hp
          · exact x.early pc (List.mem_of_getElem? hpc) (g5 he)
          · exact x.early p hp he
        · simp only [hlog]; simp only at hset g4; omega
      | fail g1 g2 g3 g4 g5 =>
        refine ⟨one, earlyOf _ (.inr g2) (.inr (.inl g2)), ?_⟩
        rw [heldByStore_none (c := { c' with tasks := w.client.tasks.set i pc' }) g1]
        simp only [hlog]; simp only at hset g3 g4; omega
      | reply p g1 g2 g3 g4 g5 g6 =>
        refine ⟨one, earlyOf _ (.inl g5) (.inr (.inr g2)), ?_⟩
        simp only [hlog]
        have hle := heldByStore_le n { c' with tasks := w.client.tasks.set i pc' } g1
        rcases g6 with ⟨g6, g7⟩ | g6
        · rw [heldByStore_chosen (c := { c' with tasks := w.client.tasks.set i pc' }) hmem g6]
          simp only at hset g3 g4 g7; omega
        · simp only at hset g3 g4 g6 hle ⊢; omega
      | start p g1 g2 g3 g4 g5 g6 g7 =>
        refine ⟨one, earlyOf _ (.inl g7) (.inr (.inl g3)), ?_⟩
        rw [heldByStore_chosen (c := { c' with tasks := w.client.tasks.set i pc' }) hmem g4]
        have hs : heldByStore n w.client = has n p := by
          unfold heldByStore
          rw [g2]
          simp only
          rw [if_pos]
          refine ⟨x.early pc (List.mem_of_getElem? hpc) g1, fun q hq => ?_⟩
          cases hqc : q.chosen with
          | false => rfl
          | true =>
            exfalso
            obtain ⟨j, hj⟩ := List.mem_iff_getElem?.mp hq
            have := x.one j i q pc hj hpc (chosen_running hqc) (early_running g1)
            subst this
            rw [hpc] at hj; cases hj
            cases pc <;> simp_all [Pc.early, Pc.chosen]
        simp only [hlog]; simp only at hset g5 g6; omega
      | success g0 g1 g2 g3 g4 =>
        refine ⟨one, earlyOf _ (.inl g4) (.inl g0), ?_⟩
        rw [heldByStore_success (c := { c' with tasks := w.client.tasks.set i pc' }) g1]
        simp only [hlog]; simp only at hset g2 g3; omega

theorem waitsOk {E : Env} {K : SessionKeys} (n : Bytes) (hs : List Happening) (h : AppWaits E K hs) :
    WaitsOk E n (worldAfter E K hs) := by
  have : ∀ (a b : List Happening), a ++ b = hs → WaitsOk E n (worldAfter E K a) → WaitsOk E n (worldAfter E K (a ++ b)) := by
    intro a b
    induction b generalizing a with
    | nil => intro _ x; rw [List.append_nil]; exact x
    | cons e b ih =>
      intro hab x
      have e1 : a ++ e :: b = (a ++ [e]) ++ b := by simp
      rw [e1]
      refine ih _ (by rw [← e1]; exact hab) ?_
      have e2 : worldAfter E K (a ++ [e]) = (worldAfter E K a).step E K e := by simp [worldAfter, World.run]
      rw [e2]
      refine waitsOk_step x e fun he => ?_
      subst he
      exact h a b hab.symm
  refine this [] hs rfl ⟨by simp [worldAfter, World.run, World.initial, Client.load, Client.construct],
    by simp [worldAfter, World.run, World.initial, Client.load, Client.construct], ?_⟩
  rw [heldByStore_none (by simp [worldAfter, World.run, World.initial, Client.load, Client.construct, Context.initial])]
  simp [worldAfter, World.run, World.initial, Client.load, Client.construct, heldByCalls, loginsWith]

theorem countP_le_one {α : Type} (p : α → Bool) (l : List α)
    (h : ∀ (i j : Nat) (x y : α), l[i]? = some x → l[j]? = some y → p x = true → p y = true → i = j) : l.countP p ≤ 1 := by
  induction l with
  | nil => simp
  | cons a l ih =>
    have ih := ih fun i j x y h1 h2 h3 h4 => by
      have := h (i + 1) (j + 1) x y (by simpa using h1) (by simpa using h2) h3 h4; omega
    rw [List.countP_cons]
    split
    · next ha =>
      have : l.countP p = 0 := by
        rw [List.countP_eq_zero]
        intro x hx hp
        obtain ⟨j, hj⟩ := List.mem_iff_getElem?.mp hx
        have := h 0 (j + 1) a x (by simp) (by simpa using hj) ha hp
        omega
      omega
    · omega

end Siwe
