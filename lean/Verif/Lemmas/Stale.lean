import Verif.Spec.Stale
import Verif.Lemmas.Tabs
/- C132: messages that a page got since it had none. -/
namespace Siwe
open Spec

/-- The response was given after the calls `h`, by one of the calls `g`. -/
def GivenSince (E : Env) (h g : History) (p : PrepareLoginOkResponse) : Prop :=
  ∃ e ∈ traceFrom (stateAfter E h) g, ∃ addr, e.Issues addr p.nonce p.siweMessage

theorem GivenSince.mono {E : Env} {h g g' : History} {p : PrepareLoginOkResponse} (x : GivenSince E h g p) : GivenSince E h (g ++ g') p := by
  obtain ⟨e, he, x⟩ := x
  exact ⟨e, by rw [traceFrom_append]; exact List.mem_append_left _ he, x⟩

def StaleOk (E : Env) (h g : History) : Pc → Prop
  | .prepReplied _ a r => ∀ p, r = .prepared p → GivenSince E h g p
  | .loginPrepared _ p => GivenSince E h g p
  | _ => True

theorem StaleOk.mono {E : Env} {h g g' : History} {pc : Pc} (x : StaleOk E h g pc) : StaleOk E h (g ++ g') pc := by
  cases pc <;> try trivial
  case prepReplied => exact fun p hp => (x p hp).mono
  case loginPrepared => exact GivenSince.mono x

def StaleOut (E : Env) (h g : History) : Output → Prop
  | .sign _ _ text => ∃ p, GivenSince E h g p ∧ p.siweMessage = text
  | _ => True

structure StaleStep (E : Env) (h g : History) (r : Client × Pc × List Output) : Prop where
  message : ∀ p, r.1.ctx.prepareLoginOkResponse = some p → GivenSince E h g p
  pc : StaleOk E h g r.2.1
  out : ∀ o ∈ r.2.2, StaleOut E h g o

theorem resume_stale {E : Env} {h g : History} {c : Client} (x : ∀ p, c.ctx.prepareLoginOkResponse = some p → GivenSince E h g p) {pc : Pc}
    (y : StaleOk E h g pc) (a : Answer) : StaleStep E h g (c.resume pc a) := by
  have pf : ∀ f e, StaleStep E h g (c.prepareFails f e) := by
    intro f e
    refine ⟨x, ?_, by simp [Client.prepareFails]⟩
    cases f <;> exact trivial
  have lf : ∀ e, StaleStep E h g (c.loginFails e) := fun e => ⟨nofun, trivial, by simp [Client.loginFails]⟩
  have sf : ∀ e, StaleStep E h g (c.signatureFails e) := fun e => ⟨nofun, trivial, by simp [Client.signatureFails, Client.loginFails]⟩
  have rs : ∀ (c : Client) a p, (∀ p, c.ctx.prepareLoginOkResponse = some p → GivenSince E h g p) → GivenSince E h g p →
      StaleStep E h g (c.requestSignature a p) := by
    intro c a p x hp
    refine ⟨x, trivial, fun o ho => ?_⟩
    unfold Client.requestSignature at ho
    simp only at ho
    split at ho
    · simp only [List.mem_singleton] at ho
      subst ho
      exact ⟨p, hp, rfl⟩
    · simp at ho
  unfold Client.resume
  split
  · exact ⟨x, trivial, by simp⟩
  · exact pf _ _
  · unfold Client.prepareWith
    split
    · exact pf _ _
    · split
      · exact pf _ _
      · exact ⟨x, trivial, by simp⟩
  · exact pf _ _
  · exact ⟨x, trivial, by simp [StaleOut]⟩
  · exact pf _ _
  · exact pf _ _
  · next f a r =>
    unfold Client.prepareReply
    split
    · next p =>
      have hp : GivenSince E h g p := y p rfl
      refine ⟨fun p' hp' => ?_, ?_, by simp⟩
      · cases hp'; exact hp
      · cases f
        · trivial
        · exact hp
    · exact pf _ _
    · exact pf _ _
  · exact pf _ _
  · exact ⟨x, trivial, by simp⟩
  · exact lf _
  · unfold Client.loginWith
    split
    · exact lf _
    · split
      · exact lf _
      · split
        · next p hp => exact rs _ _ _ x (x _ hp)
        · unfold Client.startPrepareLogin
          exact ⟨fun p hp => x p (by simpa [(setup_ctx _).1, Client.loggingIn] using hp), trivial, by simp⟩
  · exact lf _
  · exact rs _ _ _ x y
  · exact lf _
  · unfold Client.signed
    split
    · exact sf _
    · exact ⟨x, trivial, by simp⟩
  · exact sf _
  · exact ⟨x, trivial, by simp [StaleOut]⟩
  · exact lf _
  · exact lf _
  · unfold Client.loginReply
    split
    · exact ⟨x, trivial, by simp [StaleOut]⟩
    · exact lf _
    · exact lf _
  · exact lf _
  · exact lf _
  · unfold Client.delegationReply
    split
    · rw [if_neg (by simp)]
      exact ⟨x, trivial, by simp⟩
    · exact lf _
    · exact lf _
  · unfold Client.delegationReply
    split <;> exact lf _
  · exact lf _
  · exact ⟨x, y, by simp⟩

/-- All messages the page has, and all it had signed since the log was `l`, were given since the calls were `h`. -/
structure StaleWorld (E : Env) (h : History) (l : List Output) (w : World) (g : History) (m : List Output) : Prop where
  calls : w.calls = h ++ g
  log : w.log = l ++ m
  message : ∀ p, w.client.ctx.prepareLoginOkResponse = some p → GivenSince E h g p
  tasks : ∀ pc ∈ w.client.tasks, StaleOk E h g pc
  out : ∀ o ∈ m, StaleOut E h g o

theorem StaleOut.mono {E : Env} {h g g' : History} {o : Output} (x : StaleOut E h g o) : StaleOut E h (g ++ g') o := by
  cases o <;> try trivial
  obtain ⟨p, h1, h2⟩ := x
  exact ⟨p, h1.mono, h2⟩

theorem stale_step {E : Env} {K : SessionKeys} {h : History} {l : List Output} {w : World} {g : History} {m : List Output}
    (x : StaleWorld E h l w g m) (e : Happening) : ∃ g' m', StaleWorld E h l (w.step E K e) g' m' := by
  have join : ∀ (c : Client) (pc : Pc), (∀ p, c.ctx.prepareLoginOkResponse = some p → GivenSince E h g p) → StaleOk E h g pc →
      StaleWorld E h l { w with client := w.client.start (c, pc) } g m := by
    intro c pc h1 h2
    refine ⟨x.calls, x.log, h1, fun pc' hpc => ?_, x.out⟩
    rcases List.mem_append.mp hpc with h | h
    · exact x.tasks pc' h
    · simp only [List.mem_singleton] at h
      subst h; exact h2
  cases e with
  | load => exact ⟨g, m, x.calls, x.log, (fun p hp => by
      have : w.client.load.ctx.prepareLoginOkResponse = none := by
        unfold Client.load Client.construct
        cases w.client.storage <;> rfl
      rw [show (w.step E K .load).client = w.client.load from rfl, this] at hp
      cases hp), by simp [World.step, Client.load, Client.construct], x.out⟩
  | create =>
    have k := create_keeps w.client
    exact ⟨g, m, x.calls, x.log, fun p hp => x.message p (k.2.2.2.2.2.2.2.1 ▸ hp), k.1 ▸ x.tasks, x.out⟩
  | setWallet y => exact ⟨g, m, x.calls, x.log, x.message, x.tasks, x.out⟩
  | inject y => exact ⟨g, m, x.calls, x.log, x.message, x.tasks, x.out⟩
  | prepareLogin =>
    refine ⟨g, m, join _ _ (fun p hp => x.message p ?_) trivial⟩
    simpa [(setup_ctx _).1] using hp
  | login =>
    simp only [World.step, Client.startLogin]
    split
    · exact ⟨g, m, join _ _ nofun trivial⟩
    · split
      · exact ⟨g, m, join _ _ nofun trivial⟩
      · refine ⟨g, m, join _ _ (fun p hp => x.message p ?_) trivial⟩
        simpa [(setup_ctx _).1] using hp
  | clear => exact ⟨g, m, x.calls, x.log, nofun, x.tasks, x.out⟩
  | resume i a =>
    simp only [World.step]
    split
    · exact ⟨g, m, x⟩
    · next pc hpc =>
      obtain ⟨k1, k2, k3⟩ := resume_stale x.message (x.tasks pc (List.mem_of_getElem? hpc)) a
      refine ⟨g, m ++ (w.client.resume pc a).2.2, x.calls, by simp [x.log], k1, fun pc' h' => ?_, fun o ho => ?_⟩
      · rcases mem_set h' with rfl | h'
        · exact k2
        · exact x.tasks pc' h'
      · rcases List.mem_append.mp ho with ho | ho
        · exact x.out o ho
        · exact k3 o ho
  | execute i now cert =>
    simp only [World.step]
    split
    · exact ⟨g, m, x⟩
    · next pc hpc =>
      split
      · exact ⟨g, m, x⟩
      · next op hop =>
        refine ⟨g ++ [(now, op)], m, by simp [x.calls], x.log, fun p hp => (x.message p hp).mono, fun pc' h' => ?_, fun o ho => (x.out o ho).mono⟩
        rcases mem_set h' with rfl | h'
        · cases pc <;> simp only [Pc.request, Option.some.injEq, reduceCtorEq] at hop <;> subst hop
          · intro p hp
            next _ account =>
            refine ⟨⟨now, .prepareLogin account, (step (stateAfter E w.calls) now (.prepareLogin account)).2⟩, ?_, account, rfl, hp⟩
            rw [traceFrom_snoc]
            refine List.mem_append_right _ ?_
            rw [x.calls, show stateAfter E (h ++ g) = (run (stateAfter E h) g).1 by rw [stateAfter, run_append]; rfl]
            exact List.mem_singleton_self _
          · trivial
          · trivial
        · exact (x.tasks pc' h').mono
  | lagging i now cert seen =>
    simp only [World.step]
    split
    · exact ⟨g, m, x⟩
    · next pc hpc =>
      split
      · exact ⟨g, m, x⟩
      · next op hop =>
        refine ⟨g, m, x.calls, x.log, x.message, fun pc' h' => ?_, x.out⟩
        rcases mem_set h' with rfl | h'
        · cases pc <;> simp only [Pc.query, Option.some.injEq, reduceCtorEq] at hop <;> subst hop
          trivial
        · exact x.tasks pc' h'
  | other now op =>
    exact ⟨g ++ [(now, op)], m, by simp [World.step, x.calls], x.log, fun p hp => (x.message p hp).mono, fun pc h => (x.tasks pc h).mono,
      fun o ho => (x.out o ho).mono⟩

theorem stale_run {E : Env} {K : SessionKeys} {h : History} {l : List Output} (hs : List Happening) : ∀ {w : World} {g : History}
    {m : List Output}, StaleWorld E h l w g m → ∃ g' m', StaleWorld E h l (w.run E K hs) g' m' := by
  induction hs with
  | nil => exact fun x => ⟨_, _, x⟩
  | cons e hs ih =>
    intro w g m x
    obtain ⟨g', m', x'⟩ := stale_step (K := K) x e
    exact ih x'

end Siwe
