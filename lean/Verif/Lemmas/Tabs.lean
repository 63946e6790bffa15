import Verif.Model.Tabs
import Verif.Lemmas.ClientRuns
/- Invariants of several tabs on one local storage. -/
namespace Siwe
open Spec

/-- The same client over another local storage. -/
def Client.over (c : Client) (s : Option Stored) : Client := { c with storage := s }

/-- A step of a call does not read local storage: it either leaves it alone or writes something that does not depend on it. -/
theorem resume_over (c : Client) (s : Option Stored) (pc : Pc) (a : Answer) :
    ∃ s', (c.over s).resume pc a = ((c.resume pc a).1.over s', (c.resume pc a).2) ∧
      (s' = s ∧ (c.resume pc a).1.storage = c.storage ∨ s' = (c.resume pc a).1.storage) := by
  obtain ⟨ctx, st, wa, inj, ts, g⟩ := c
  unfold Client.resume
  split
  all_goals try exact ⟨s, rfl, .inl ⟨rfl, rfl⟩⟩
  · unfold Client.prepareWith
    split
    · exact ⟨s, rfl, .inl ⟨rfl, rfl⟩⟩
    · split <;> exact ⟨s, rfl, .inl ⟨rfl, rfl⟩⟩
  · unfold Client.prepareReply
    split <;> exact ⟨s, rfl, .inl ⟨rfl, rfl⟩⟩
  · unfold Client.loginWith
    split
    · exact ⟨s, rfl, .inl ⟨rfl, rfl⟩⟩
    · split
      · exact ⟨s, rfl, .inl ⟨rfl, rfl⟩⟩
      · simp only [Client.loggingIn, Client.over]
        split
        · exact ⟨s, rfl, .inl ⟨rfl, rfl⟩⟩
        · simp only [Client.startPrepareLogin, Client.setupWalletClient]
          cases wa
          · cases inj <;> exact ⟨s, rfl, .inl ⟨rfl, rfl⟩⟩
          · exact ⟨s, rfl, .inl ⟨rfl, rfl⟩⟩
  · unfold Client.signed
    split <;> exact ⟨s, rfl, .inl ⟨rfl, rfl⟩⟩
  · unfold Client.loginReply
    split <;> exact ⟨s, rfl, .inl ⟨rfl, rfl⟩⟩
  · unfold Client.delegationReply
    split
    · exact ⟨_, rfl, .inr rfl⟩
    · exact ⟨s, rfl, .inl ⟨rfl, rfl⟩⟩
    · exact ⟨s, rfl, .inl ⟨rfl, rfl⟩⟩
  · unfold Client.delegationReply
    split <;> exact ⟨s, rfl, .inl ⟨rfl, rfl⟩⟩

/-- The same world over another local storage. -/
def World.over (w : World) (s : Option Stored) : World := { w with client := w.client.over s }

/-- Likewise every happening but those that read it. -/
theorem step_over (E : Env) (K : SessionKeys) (w : World) (s : Option Stored) (x : Happening) (hx : x ≠ .load) (hx' : x ≠ .create) :
    ∃ s', (w.over s).step E K x = (w.step E K x).over s' ∧
      (s' = s ∧ (w.step E K x).client.storage = w.client.storage ∨ s' = (w.step E K x).client.storage) := by
  cases x with
  | load => exact absurd rfl hx
  | create => exact absurd rfl hx'
  | setWallet y => exact ⟨s, rfl, .inl ⟨rfl, rfl⟩⟩
  | inject y => exact ⟨s, rfl, .inl ⟨rfl, rfl⟩⟩
  | other t op => exact ⟨s, rfl, .inl ⟨rfl, rfl⟩⟩
  | clear => exact ⟨none, rfl, .inr rfl⟩
  | prepareLogin =>
    obtain ⟨⟨ctx, st, wa, inj, ts, g⟩, calls, log⟩ := w
    cases wa
    · cases inj <;> exact ⟨s, rfl, .inl ⟨rfl, rfl⟩⟩
    · exact ⟨s, rfl, .inl ⟨rfl, rfl⟩⟩
  | login =>
    obtain ⟨⟨ctx, st, wa, inj, ts, g⟩, calls, log⟩ := w
    have k : ∀ r : Option Stored → Client × Pc, (∀ u, Client.startLogin ⟨ctx, u, wa, inj, ts, g⟩ = r u) →
        (∀ u, r u = ((r st).1.over u, (r st).2)) → (r st).1.storage = st →
        ∃ s', (World.over ⟨⟨ctx, st, wa, inj, ts, g⟩, calls, log⟩ s).step E K .login =
            (World.step E K ⟨⟨ctx, st, wa, inj, ts, g⟩, calls, log⟩ .login).over s' ∧
          (s' = s ∧ (World.step E K ⟨⟨ctx, st, wa, inj, ts, g⟩, calls, log⟩ .login).client.storage = st ∨
            s' = (World.step E K ⟨⟨ctx, st, wa, inj, ts, g⟩, calls, log⟩ .login).client.storage) := by
      intro r h1 h2 h3
      refine ⟨s, ?_, .inl ⟨rfl, ?_⟩⟩
      · simp only [World.step, World.over, Client.over, Client.start, h1, h2 s]
      · simp only [World.step, Client.start, h1, h3]
    by_cases h1 : ctx.prepareLoginStatus = .preparing
    · exact k _ (fun u => by unfold Client.startLogin; exact if_pos h1) (fun _ => rfl) rfl
    · by_cases h2 : ctx.loginStatus = .loggingIn
      · exact k _ (fun u => by unfold Client.startLogin; exact (if_neg h1).trans (if_pos h2)) (fun _ => rfl) rfl
      · refine k _ (fun u => by unfold Client.startLogin; exact (if_neg h1).trans (if_neg h2)) (fun _ => ?_) ?_
        all_goals
          cases wa
          · cases inj <;> rfl
          · rfl
  | resume i a =>
    cases hi : w.client.tasks[i]? with
    | none => refine ⟨s, ?_, .inl ⟨?_, ?_⟩⟩ <;> simp only [World.step, World.over, Client.over, hi]
    | some pc =>
      obtain ⟨s', h1, h2⟩ := resume_over w.client s pc a
      have hi' : (w.client.over s).tasks[i]? = some pc := hi
      refine ⟨s', ?_, ?_⟩
      · simp only [World.step, World.over, hi, hi', h1]; rfl
      · simp only [World.step, hi]; exact h2
  | execute i t cert =>
    cases hi : w.client.tasks[i]? with
    | none => refine ⟨s, ?_, .inl ⟨?_, ?_⟩⟩ <;> simp only [World.step, World.over, Client.over, hi]
    | some pc =>
      cases hr : pc.request K cert with
      | none => refine ⟨s, ?_, .inl ⟨?_, ?_⟩⟩ <;> simp only [World.step, World.over, Client.over, hi, hr]
      | some op => refine ⟨s, ?_, .inl ⟨?_, ?_⟩⟩ <;> simp only [World.step, World.over, Client.over, hi, hr]
  | lagging i t cert seen =>
    cases hi : w.client.tasks[i]? with
    | none => refine ⟨s, ?_, .inl ⟨?_, ?_⟩⟩ <;> simp only [World.step, World.over, Client.over, hi]
    | some pc =>
      cases hr : pc.query K cert with
      | none => refine ⟨s, ?_, .inl ⟨?_, ?_⟩⟩ <;> simp only [World.step, World.over, Client.over, hi, hr]
      | some op => refine ⟨s, ?_, .inl ⟨?_, ?_⟩⟩ <;> simp only [World.step, World.over, Client.over, hi, hr]

/-- A step only adds calls and requests. -/
theorem step_extends (E : Env) (K : SessionKeys) (w : World) (x : Happening) :
    ∃ h l, (w.step E K x).calls = w.calls ++ h ∧ (w.step E K x).log = w.log ++ l := by
  cases x with
  | resume i a =>
    simp only [World.step]
    split
    · exact ⟨[], [], (List.append_nil _).symm, (List.append_nil _).symm⟩
    · exact ⟨[], _, (List.append_nil _).symm, rfl⟩
  | execute i t cert =>
    simp only [World.step]
    split
    · exact ⟨[], [], (List.append_nil _).symm, (List.append_nil _).symm⟩
    · split
      · exact ⟨[], [], (List.append_nil _).symm, (List.append_nil _).symm⟩
      · exact ⟨_, [], rfl, (List.append_nil _).symm⟩
  | lagging i t cert seen =>
    simp only [World.step]
    split
    · exact ⟨[], [], (List.append_nil _).symm, (List.append_nil _).symm⟩
    · split
      · exact ⟨[], [], (List.append_nil _).symm, (List.append_nil _).symm⟩
      · exact ⟨[], [], (List.append_nil _).symm, (List.append_nil _).symm⟩
  | other t op => exact ⟨_, [], rfl, (List.append_nil _).symm⟩
  | _ => exact ⟨[], [], (List.append_nil _).symm, (List.append_nil _).symm⟩

theorem WorldOk.grows {E : Env} {K : SessionKeys} {c : Client} {h h' : History} {l l' : List Output} (x : WorldOk E K ⟨c, h, l⟩)
    (k : ∀ o ∈ l ++ l', OutOk E K (h ++ h') (l ++ l') o) : WorldOk E K ⟨c, h ++ h', l ++ l'⟩ :=
  ⟨x.ctx.mono, fun pc hpc => (x.tasks pc hpc).mono, k⟩

/-- What is known about all tabs: each is as if it were alone, over the local storage that it believes in. -/
structure TabsOk (E : Env) (K : SessionKeys) (b : Browser) : Prop where
  tabs : ∀ c ∈ b.tabs, ∃ s, WorldOk E K ⟨c.over s, b.calls, b.log⟩
  out : ∀ o ∈ b.log, OutOk E K b.calls b.log o
  stored : ∀ s, b.storage = some s → Obtained E K b.calls b.log s.address ⟨s.session, s.chain⟩

theorem tabsOk_step {E : Env} {K : SessionKeys} {b : Browser} (x : TabsOk E K b) (e : TabHappening) : TabsOk E K (b.step E K e) := by
  cases e with
  | open_ =>
    refine ⟨fun c hc => ?_, x.out, x.stored⟩
    rcases List.mem_append.mp hc with hc | hc
    · exact x.tabs c hc
    · simp only [List.mem_singleton] at hc
      subst hc
      exact ⟨b.storage, (worldOk_load (c := ⟨.initial, b.storage, none, none, [], b.generated⟩) x.stored),
        by simp [Client.load, Client.construct, Client.over], x.out⟩
  | close j => exact ⟨fun c hc => x.tabs c (List.mem_of_mem_eraseIdx hc), x.out, x.stored⟩
  | tab j y =>
    simp only [Browser.step]
    split
    · exact x
    · next c hc =>
      obtain ⟨s, hs⟩ := x.tabs c (List.mem_of_getElem? hc)
      have hs : WorldOk E K ((b.view c).over s) := ⟨hs.ctx.of (.inl rfl) rfl rfl rfl rfl, hs.tasks, hs.out⟩
      obtain ⟨h', l', e1, e2⟩ := step_extends E K (b.view c) y
      have e1 : ((b.view c).step E K y).calls = b.calls ++ h' := e1
      have e2 : ((b.view c).step E K y).log = b.log ++ l' := e2
      -- the stepping tab, over what it believes, and the shared storage
      have key : (∃ s', WorldOk E K (((b.view c).step E K y).over s')) ∧
          ∀ t, ((b.view c).step E K y).client.storage = some t →
            Obtained E K ((b.view c).step E K y).calls ((b.view c).step E K y).log t.address ⟨t.session, t.chain⟩ := by
        by_cases hy : y = .load
        · subst hy
          have k : WorldOk E K ((b.view c).step E K .load) :=
            ⟨worldOk_load (c := (b.view c).client) x.stored, by simp [World.step, Client.load, Client.construct], x.out⟩
          exact ⟨⟨_, k⟩, k.ctx.stored⟩
        by_cases hy' : y = .create
        · subst hy'
          cases hb : b.storage with
          | none =>
            refine ⟨⟨s, hs.ctx.of (.inl ?_) rfl ?_ ?_ ?_, ?_, hs.out⟩, ?_⟩
            all_goals simp [World.step, World.over, Client.over, Browser.view, Client.create, Client.construct, hb]
            exact hs.tasks
          | some t =>
            have kt := x.stored t hb
            refine ⟨⟨some t, ⟨?_, ?_, ?_, ?_, ?_⟩, ?_, hs.out⟩, ?_⟩
            all_goals simp [World.step, World.over, Client.over, Browser.view, Client.create, Client.construct, hb]
            · exact hs.ctx.message
            · exact kt
            · exact hs.tasks
            · exact kt
        · obtain ⟨s', g1, g2⟩ := step_over E K (b.view c) s y hy hy'
          have k := worldOk_step hs y
          rw [g1] at k
          refine ⟨⟨s', k⟩, fun t ht => ?_⟩
          rcases g2 with ⟨rfl, g2⟩ | g2
          · rw [g2] at ht
            rw [e1, e2]
            exact (x.stored t ht).mono
          · exact k.ctx.stored t (by rw [← ht, ← g2]; rfl)
      obtain ⟨⟨s', k1⟩, k2⟩ := key
      have ko := k1.out
      simp only [World.over] at ko
      refine ⟨fun c' hc' => ?_, ko, k2⟩
      rcases mem_set hc' with rfl | hc'
      · exact ⟨s', k1⟩
      · obtain ⟨t, ht⟩ := x.tabs c' hc'
        refine ⟨t, ?_⟩
        simp only
        rw [e1, e2] at ko ⊢
        exact ht.grows ko

theorem tabsOk (E : Env) (K : SessionKeys) (hs : List TabHappening) : TabsOk E K (browserAfter E K hs) := by
  have : ∀ b, TabsOk E K b → TabsOk E K (Browser.run E K b hs) := by
    induction hs with
    | nil => exact fun b x => x
    | cons e hs ih => exact fun b x => ih _ (tabsOk_step x e)
  exact this _ ⟨by simp [Browser.initial], by simp [Browser.initial], by simp [Browser.initial]⟩

/-! ### Sessions -/

/-- What a step does to sessions: those sent were fresh before or were sent before; those fresh now were fresh before or are new. -/
theorem step_sessions (E : Env) (K : SessionKeys) (w : World) (x : Happening) :
    w.client.generated ≤ (w.step E K x).client.generated ∧
    (∀ n ∈ sentSessions (w.step E K x).log, n ∈ sentSessions w.log ∨ ∃ pc ∈ w.client.tasks, pc.fresh = some n) ∧
    (∀ pc' ∈ (w.step E K x).client.tasks, ∀ n, pc'.fresh = some n → (∃ pc ∈ w.client.tasks, pc.fresh = some n) ∨ w.client.generated ≤ n) := by
  have same : ∀ w' : World, w'.client.generated = w.client.generated → w'.log = w.log →
      (∀ pc' ∈ w'.client.tasks, pc' ∈ w.client.tasks ∨ pc'.fresh = none) →
      w.client.generated ≤ w'.client.generated ∧
      (∀ n ∈ sentSessions w'.log, n ∈ sentSessions w.log ∨ ∃ pc ∈ w.client.tasks, pc.fresh = some n) ∧
      (∀ pc' ∈ w'.client.tasks, ∀ n, pc'.fresh = some n → (∃ pc ∈ w.client.tasks, pc.fresh = some n) ∨ w.client.generated ≤ n) := by
    intro w' h1 h2 h3
    refine ⟨h1 ▸ Nat.le_refl _, fun n hn => .inl (h2 ▸ hn), fun pc' hp n hn => ?_⟩
    rcases h3 pc' hp with h | h
    · exact .inl ⟨pc', h, hn⟩
    · rw [h] at hn; cases hn
  have snoc : ∀ (pc : Pc), pc.fresh = none → ∀ pc' ∈ w.client.tasks ++ [pc], pc' ∈ w.client.tasks ∨ pc'.fresh = none := by
    intro pc h pc' hp
    rcases List.mem_append.mp hp with hp | hp
    · exact .inl hp
    · simp only [List.mem_singleton] at hp
      exact .inr (hp ▸ h)
  cases x with
  | load => exact same _ rfl rfl (by simp [World.step, Client.load, Client.construct])
  | create =>
    have k := create_keeps w.client
    exact same _ k.2.2.1 rfl fun _ h => .inl (k.1 ▸ h)
  | setWallet y => exact same _ rfl rfl fun _ h => .inl h
  | inject y => exact same _ rfl rfl fun _ h => .inl h
  | clear => exact same _ rfl rfl fun _ h => .inl h
  | other t op => exact same _ rfl rfl fun _ h => .inl h
  | prepareLogin =>
    exact same { w with client := w.client.start (w.client.startPrepareLogin none) } (setup_ctx _).2.2.2 rfl (snoc _ rfl)
  | login =>
    have k := fun (c : Client) (pc : Pc) h1 h2 => same { w with client := w.client.start (c, pc) } h1 rfl (snoc pc h2)
    simp only [World.step, Client.startLogin]
    split
    · exact k _ _ rfl rfl
    · split
      · exact k _ _ rfl rfl
      · exact k _ _ (setup_ctx _).2.2.2 rfl
  | execute i t cert =>
    simp only [World.step]
    split
    · exact same _ rfl rfl fun _ h => .inl h
    · next pc hpc =>
      split
      · exact same _ rfl rfl fun _ h => .inl h
      · next op hop =>
        refine same _ rfl rfl fun pc' h => ?_
        rcases mem_set h with rfl | h
        · right; cases pc <;> simp [Pc.request] at hop <;> rfl
        · exact .inl h
  | lagging i t cert seen =>
    simp only [World.step]
    split
    · exact same _ rfl rfl fun _ h => .inl h
    · next pc hpc =>
      split
      · exact same _ rfl rfl fun _ h => .inl h
      · next op hop =>
        refine same _ rfl rfl fun pc' h => ?_
        rcases mem_set h with rfl | h
        · right; cases pc <;> simp [Pc.query] at hop <;> rfl
        · exact .inl h
  | resume i a =>
    simp only [World.step]
    split
    · exact same _ rfl rfl fun _ h => .inl h
    · next pc hpc =>
      have hm := List.mem_of_getElem? hpc
      simp only [sentSessions_append]
      cases resume_session w.client pc a with
      | none h1 h2 h3 =>
        rw [h2, h3, List.append_nil]
        refine ⟨Nat.le_refl _, fun n hn => .inl hn, fun pc' hp n hn => ?_⟩
        rcases mem_set hp with rfl | hp
        · rw [h1] at hn; cases hn
        · exact .inl ⟨pc', hp, hn⟩
      | generate h1 h2 h3 =>
        rw [h2, h3, List.append_nil]
        refine ⟨Nat.le_succ _, fun n hn => .inl hn, fun pc' hp n hn => ?_⟩
        rcases mem_set hp with rfl | hp
        · rw [h1] at hn; cases hn; exact .inr (Nat.le_refl _)
        · exact .inl ⟨pc', hp, hn⟩
      | send m h0 h1 h2 h3 =>
        rw [h2, h3]
        refine ⟨Nat.le_refl _, fun n hn => ?_, fun pc' hp n hn => ?_⟩
        · rcases List.mem_append.mp hn with hn | hn
          · exact .inl hn
          · simp only [List.mem_singleton] at hn
            exact .inr ⟨pc, hm, hn ▸ h0⟩
        · rcases mem_set hp with rfl | hp
          · rw [h1] at hn; cases hn
          · exact .inl ⟨pc', hp, hn⟩
      | idle h1 h2 h3 =>
        rw [h2, h3, List.append_nil]
        refine ⟨Nat.le_refl _, fun n hn => .inl hn, fun pc' hp n hn => ?_⟩
        rcases mem_set hp with rfl | hp
        · rw [h1] at hn; exact .inl ⟨pc, hm, hn⟩
        · exact .inl ⟨pc', hp, hn⟩

/-- The sessions of all tabs. -/
structure TabSessions (b : Browser) : Prop where
  sent : ∀ n ∈ sentSessions b.log, n < b.generated
  nodup : (sentSessions b.log).Nodup
  tabs : ∀ c ∈ b.tabs, SessionsOk (b.view c)
  apart : ∀ (i j : Nat) (c c' : Client) (pc pc' : Pc) (n : Nat), b.tabs[i]? = some c → b.tabs[j]? = some c' → pc ∈ c.tasks → pc' ∈ c'.tasks →
    pc.fresh = some n → pc'.fresh = some n → i = j

theorem tabSessions_step {E : Env} {K : SessionKeys} {b : Browser} (x : TabSessions b) (e : TabHappening) :
    TabSessions (b.step E K e) := by
  cases e with
  | open_ =>
    refine ⟨x.sent, x.nodup, fun c hc => ?_, fun i j c c' pc pc' n h1 h2 h3 h4 h5 h6 => ?_⟩
    · rcases List.mem_append.mp hc with hc | hc
      · exact x.tabs c hc
      · simp only [List.mem_singleton] at hc
        subst hc
        exact ⟨x.sent, x.nodup, by simp [Browser.view, Client.load, Client.construct], by simp [Browser.view, Client.load, Client.construct]⟩
    · rcases getElem?_snoc_cases h1 with h1 | ⟨_, rfl⟩
      · rcases getElem?_snoc_cases h2 with h2 | ⟨_, rfl⟩
        · exact x.apart i j c c' pc pc' n h1 h2 h3 h4 h5 h6
        · simp [Client.load, Client.construct] at h4
      · simp [Client.load, Client.construct] at h3
  | close k =>
    refine ⟨x.sent, x.nodup, fun c hc => x.tabs c (List.mem_of_mem_eraseIdx hc), fun i j c c' pc pc' n h1 h2 h3 h4 h5 h6 => ?_⟩
    simp only [Browser.step, List.getElem?_eraseIdx] at h1 h2
    split at h1 <;> split at h2 <;> have := x.apart _ _ c c' pc pc' n h1 h2 h3 h4 h5 h6 <;> omega
  | tab k y =>
    simp only [Browser.step]
    split
    · exact x
    · next c hc =>
      have hm := List.mem_of_getElem? hc
      have s := sessionsOk_step (E := E) (K := K) (x.tabs c hm) y
      obtain ⟨q1, q2, q3⟩ := step_sessions E K (b.view c) y
      have q1 : b.generated ≤ _ := q1
      have q2 : ∀ n ∈ _, n ∈ sentSessions b.log ∨ ∃ pc ∈ c.tasks, pc.fresh = some n := q2
      have q3 : ∀ pc' ∈ ((b.view c).step E K y).client.tasks, ∀ n, pc'.fresh = some n → (∃ pc ∈ c.tasks, pc.fresh = some n) ∨ b.generated ≤ n := q3
      -- a fresh session of another tab
      have other : ∀ j c' pc n, j ≠ k → b.tabs[j]? = some c' → pc ∈ c'.tasks → pc.fresh = some n →
          n < b.generated ∧ n ∉ sentSessions ((b.view c).step E K y).log := by
        intro j c' pc n hj hc' hp hn
        have r := (x.tabs c' (List.mem_of_getElem? hc')).fresh pc hp n hn
        refine ⟨r.1, fun h => ?_⟩
        rcases q2 n h with h | ⟨pc1, h1, h2⟩
        · exact r.2 h
        · exact hj (x.apart j k c' c pc pc1 n hc' hc hp h1 hn h2)
      refine ⟨s.sent, s.nodup, fun c' hc' => ?_, fun i j d d' pc pc' n h1 h2 h3 h4 h5 h6 => ?_⟩
      · obtain ⟨j, hj⟩ := List.mem_iff_getElem?.mp hc'
        rcases getElem?_set_cases hj with ⟨_, rfl⟩ | ⟨hne, hj⟩
        · exact ⟨s.sent, s.nodup, s.fresh, s.unique⟩
        · refine ⟨s.sent, s.nodup, fun pc hp n hn => ?_, (x.tabs c' (List.mem_of_getElem? hj)).unique⟩
          have r := other j c' pc n (Ne.symm hne) hj hp hn
          exact ⟨Nat.lt_of_lt_of_le r.1 q1, r.2⟩
      · rcases getElem?_set_cases h1 with ⟨e1, rfl⟩ | ⟨e1, h1⟩ <;> rcases getElem?_set_cases h2 with ⟨e2, rfl⟩ | ⟨e2, h2⟩
        · omega
        · rcases q3 pc h3 n h5 with ⟨pc1, g1, g2⟩ | g
          · have := x.apart k j c d' pc1 pc' n hc h2 g1 h4 g2 h6; omega
          · have := (other j d' pc' n (Ne.symm e2) h2 h4 h6).1; omega
        · rcases q3 pc' h4 n h6 with ⟨pc1, g1, g2⟩ | g
          · have := x.apart k i c d pc1 pc n hc h1 g1 h3 g2 h5; omega
          · have := (other i d pc n (Ne.symm e1) h1 h3 h5).1; omega
        · exact x.apart i j d d' pc pc' n h1 h2 h3 h4 h5 h6

theorem tabSessions (E : Env) (K : SessionKeys) (hs : List TabHappening) : TabSessions (browserAfter E K hs) := by
  have : ∀ b, TabSessions b → TabSessions (Browser.run E K b hs) := by
    induction hs with
    | nil => exact fun b x => x
    | cons e hs ih => exact fun b x => ih _ (tabSessions_step x e)
  exact this _ ⟨by simp [Browser.initial, sentSessions], by simp [Browser.initial, sentSessions], by simp [Browser.initial],
    by simp [Browser.initial]⟩

/-! ### What is stored -/

/-- A step of a call either leaves local storage alone or stores the identity that resolves the call's promise. -/
theorem resume_storage (c : Client) (pc : Pc) (ans : Answer) :
    (∀ i, (c.resume pc ans).2.1 = .loggedIn i → pc = .loggedIn i) ∧ (c.resume pc ans).1.storage = c.storage ∨
    RunningLogin pc = true ∧ ∃ account i, (c.resume pc ans).2.1 = .loggedIn i ∧
      (c.resume pc ans).1.storage = some ⟨account, i.session, i.chain⟩ := by
  have fails : ∀ f e, (∀ i, (c.prepareFails f e).2.1 = .loggedIn i → pc = .loggedIn i) ∧ (c.prepareFails f e).1.storage = c.storage := by
    intro f e
    refine ⟨fun i h => ?_, rfl⟩
    cases f <;> cases h
  unfold Client.resume
  split
  all_goals try (refine .inl ⟨(fun i h => ?_), rfl⟩; cases h; done)
  all_goals try exact .inl (fails _ _)
  · unfold Client.prepareWith
    split
    · exact .inl (fails _ _)
    · split
      · exact .inl (fails _ _)
      · exact .inl ⟨(fun i h => by cases h), rfl⟩
  · next f _ r =>
    unfold Client.prepareReply
    split
    · refine .inl ⟨fun i h => ?_, rfl⟩
      cases f <;> cases h
    · exact .inl (fails _ _)
    · exact .inl (fails _ _)
  · unfold Client.loginWith
    split
    · exact .inl ⟨(fun i h => by cases h), rfl⟩
    · split
      · exact .inl ⟨(fun i h => by cases h), rfl⟩
      · split
        · exact .inl ⟨(fun i h => by cases h), rfl⟩
        · exact .inl ⟨(fun i h => by cases h), (setup_ctx _).2.1⟩
  · unfold Client.signed
    split <;> exact .inl ⟨(fun i h => by cases h), rfl⟩
  · unfold Client.loginReply
    split <;> exact .inl ⟨(fun i h => by cases h), rfl⟩
  · unfold Client.delegationReply
    split
    · exact .inr ⟨rfl, _, _, rfl, rfl⟩
    · exact .inl ⟨(fun i h => by cases h), rfl⟩
    · exact .inl ⟨(fun i h => by cases h), rfl⟩
  · unfold Client.delegationReply
    split <;> exact .inl ⟨(fun i h => by cases h), rfl⟩
  · exact .inl ⟨fun i h => h, rfl⟩

/-- A step of a call that is no running `login` does not make it one. -/
theorem resume_running (c : Client) (pc : Pc) (ans : Answer) (h : RunningLogin pc = false) :
    RunningLogin (c.resume pc ans).2.1 = false := by
  have fails : ∀ f e, f.isSome = false → RunningLogin (c.prepareFails f e).2.1 = false := by
    intro f e hf
    cases f
    · rfl
    · cases hf
  unfold Client.resume
  split <;> try (exact Bool.noConfusion (show true = false from h))
  · exact h
  · exact fails _ _ h
  · unfold Client.prepareWith
    split
    · exact fails _ _ h
    · split
      · exact fails _ _ h
      · exact h
  · exact fails _ _ h
  · exact h
  · exact fails _ _ h
  · exact fails _ _ h
  · next f _ r =>
    unfold Client.prepareReply
    split
    · cases f
      · rfl
      · cases h
    · exact fails _ _ h
    · exact fails _ _ h
  · exact fails _ _ h
  · exact h

end Siwe
