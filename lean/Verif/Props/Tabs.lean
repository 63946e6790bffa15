import Verif.Spec.Tabs
import Verif.Lemmas.Tabs
import Verif.Props.Client
/- C75: several tabs of one browser. -/
namespace Siwe
open Spec

/-- C75: an identity is displayed in a tab only after the canister accepted a login of the displayed account, made in some tab of
this browser with the session's own public key and a signature by that account of a text the canister had issued; its chain is the canister's
(see C57). -/
theorem C75_tab_provenance (E : Env) (K : SessionKeys) (hs : List TabHappening) (c : Client) (hc : c ∈ (browserAfter E K hs).tabs)
    (i : Identity) (h : c.ctx.identity = some i) :
    ∃ account sig nonce d e, c.ctx.identityAddress = some account ∧ c.ctx.delegationChain = some i.chain ∧
      Output.login sig account i.session nonce ∈ (browserAfter E K hs).log ∧
      e ∈ trace E (browserAfter E K hs).calls ∧ e.call = .login sig account (K i.session) nonce ∧ e.reply = .loggedIn d ∧
      i.chain.publicKey = d.userCanisterPubkey ∧ i.chain.delegation.pubkey = K i.session ∧
      i.chain.delegation.expiration = d.expiration ∧
      ∃ e' ∈ trace E (browserAfter E K hs).calls, ∃ addr' nonce' text, e'.Issues addr' nonce' text ∧
        ((addr' = account ∧ nonce' = nonce) ∨ KeyCollision E account nonce addr' nonce') ∧ Signs E sig text account := by
  obtain ⟨s, x⟩ := (tabsOk E K hs).tabs c hc
  have x := x.ctx
  have h' : c.ctx.identity = s.map fun s => ⟨s.session, s.chain⟩ := x.identity
  have h1 : c.ctx.identityAddress = s.map (·.address) := x.address
  have h2 : c.ctx.delegationChain = s.map (·.chain) := x.chain
  rw [h] at h'
  obtain ⟨t, rfl, hi⟩ := Option.map_eq_some_iff.mp h'.symm
  subst hi
  obtain ⟨sig, nonce, d, e, g⟩ := (x.stored t rfl).explained
  exact ⟨t.address, sig, nonce, d, e, h1, h2, g⟩

/-- C75: no two login calls of a browser, from whatever tabs, carry the public key of the same session identity. -/
theorem C75_fresh_session_keys (E : Env) (K : SessionKeys) (hK : Function.Injective K) (hs : List TabHappening) :
    ((sentSessions (browserAfter E K hs).log).map K).Nodup :=
  (tabSessions E K hs).nodup.map hK

theorem browserAfter_snoc (E : Env) (K : SessionKeys) (hs : List TabHappening) (x : TabHappening) :
    browserAfter E K (hs ++ [x]) = (browserAfter E K hs).step E K x := by simp [browserAfter, Browser.run]

/-- What a happening does to local storage. -/
theorem storage_step (E : Env) (K : SessionKeys) (b : Browser) (x : TabHappening) :
    (∃ i account, Resolves E K b x i ∧ ¬SignsOut b x ∧ (∀ i', Resolves E K b x i' → i' = i) ∧
      (b.step E K x).storage = some ⟨account, i.session, i.chain⟩) ∨
    (SignsOut b x ∧ (∀ i, ¬Resolves E K b x i) ∧ (b.step E K x).storage = none) ∨
    (¬SignsOut b x ∧ (∀ i, ¬Resolves E K b x i) ∧ (b.step E K x).storage = b.storage) := by
  cases x with
  | open_ =>
    refine .inr (.inr ⟨?_, ?_, rfl⟩)
    · rintro ⟨j, c, h, _⟩; cases h
    · rintro i ⟨j, y, n, c, c', h, _⟩; cases h
  | close j =>
    refine .inr (.inr ⟨?_, ?_, rfl⟩)
    · rintro ⟨j, c, h, _⟩; cases h
    · rintro i ⟨j, y, n, c, c', h, _⟩; cases h
  | tab j y =>
    cases hc : b.tabs[j]? with
    | none =>
      refine .inr (.inr ⟨?_, ?_, by simp only [Browser.step, hc]⟩)
      · rintro ⟨j', c, h, h'⟩; cases h; rw [hc] at h'; cases h'
      · rintro i ⟨j', y', n, c, c', h, h', _⟩; cases h; rw [hc] at h'; cases h'
    | some c =>
      have hlt := (List.getElem?_eq_some_iff.mp hc).1
      have hst : (b.step E K (.tab j y)).storage = ((b.view c).step E K y).client.storage := by simp only [Browser.step, hc]
      have htab : (b.step E K (.tab j y)).tabs[j]? = some ((b.view c).step E K y).client := by
        simp only [Browser.step, hc, List.getElem?_set_self hlt]
      have hres : ∀ i, Resolves E K b (.tab j y) i ↔ ∃ n : Nat, ((b.view c).step E K y).client.tasks[n]? = some (Pc.loggedIn i) ∧
          c.tasks[n]? ≠ some (Pc.loggedIn i) := by
        intro i
        constructor
        · rintro ⟨j', y', n, d, d', h, h1, h2, h3, h4⟩
          cases h
          rw [hc] at h1; cases h1
          rw [htab] at h2; cases h2
          exact ⟨n, h3, h4⟩
        · rintro ⟨n, h1, h2⟩
          exact ⟨j, y, n, c, _, rfl, hc, htab, h1, h2⟩
      have hout : SignsOut b (.tab j y) ↔ y = .clear := by
        constructor
        · rintro ⟨j', c', h, _⟩; cases h; rfl
        · rintro rfl; exact ⟨j, c, rfl, hc⟩
      simp only [hst, hres, hout]
      have vt : (b.view c).client.tasks = c.tasks := rfl
      have quiet : ∀ w : World, w.client.tasks = c.tasks → ∀ i, ¬∃ n : Nat, w.client.tasks[n]? = some (.loggedIn i) ∧
          c.tasks[n]? ≠ some (.loggedIn i) := by
        rintro w hw i ⟨n, h1, h2⟩; rw [hw] at h1; exact h2 h1
      have joins : ∀ (pc : Pc) (i : Identity), (∀ i, pc ≠ .loggedIn i) → ¬∃ n : Nat, (c.tasks ++ [pc])[n]? = some (.loggedIn i) ∧
          c.tasks[n]? ≠ some (.loggedIn i) := by
        rintro pc i hp ⟨n, h1, h2⟩
        rcases getElem?_snoc_cases h1 with h | ⟨_, h⟩
        · exact h2 h
        · exact hp i h.symm
      cases y with
      | clear => exact .inr (.inl ⟨rfl, quiet ((b.view c).step E K .clear) rfl, rfl⟩)
      | load =>
        refine .inr (.inr ⟨(fun h => nomatch h), ?_, ?_⟩)
        · rintro i ⟨n, h1, h2⟩
          simp [World.step, Client.load, Client.construct] at h1
        · simp only [World.step, Client.load, Client.construct, Browser.view]
      | create =>
        have k := create_keeps (b.view c).client
        exact .inr (.inr ⟨(fun h => nomatch h), quiet ((b.view c).step E K .create) k.1, k.2.1⟩)
      | setWallet v => exact .inr (.inr ⟨(fun h => nomatch h), quiet ((b.view c).step E K (.setWallet v)) rfl, rfl⟩)
      | inject v => exact .inr (.inr ⟨(fun h => nomatch h), quiet ((b.view c).step E K (.inject v)) rfl, rfl⟩)
      | other t op => exact .inr (.inr ⟨(fun h => nomatch h), quiet ((b.view c).step E K (.other t op)) rfl, rfl⟩)
      | prepareLogin =>
        exact .inr (.inr ⟨(fun h => nomatch h), fun i => joins _ i (fun i h => nomatch h), (setup_ctx (b.view c).client).2.1⟩)
      | login =>
        refine .inr (.inr ⟨(fun h => nomatch h), ?_, ?_⟩)
        · simp only [World.step, Client.startLogin]
          split
          · exact fun i => joins _ i (fun i h => nomatch h)
          · split
            · exact fun i => joins _ i (fun i h => nomatch h)
            · exact fun i => joins _ i (fun i h => nomatch h)
        · simp only [World.step, Client.startLogin]
          split
          · rfl
          · split
            · rfl
            · exact (setup_ctx (b.view c).client).2.1
      | execute n t cert =>
        refine .inr (.inr ⟨(fun h => nomatch h), ?_, ?_⟩)
        · rintro i ⟨m, h1, h2⟩
          simp only [World.step, vt] at h1
          split at h1
          · exact h2 h1
          · next pc hpc =>
            split at h1
            · exact h2 h1
            · next op hop =>
              rcases getElem?_set_cases h1 with ⟨_, h⟩ | ⟨_, h⟩
              · cases pc <;> simp [Pc.request] at hop <;> cases h
              · exact h2 h
        · simp only [World.step]
          split
          · rfl
          · split <;> rfl
      | lagging n t cert seen =>
        refine .inr (.inr ⟨(fun h => nomatch h), ?_, ?_⟩)
        · rintro i ⟨m, h1, h2⟩
          simp only [World.step, vt] at h1
          split at h1
          · exact h2 h1
          · next pc hpc =>
            split at h1
            · exact h2 h1
            · next op hop =>
              rcases getElem?_set_cases h1 with ⟨_, h⟩ | ⟨_, h⟩
              · cases pc <;> simp [Pc.query] at hop <;> cases h
              · exact h2 h
        · simp only [World.step]
          split
          · rfl
          · split <;> rfl
      | resume n a =>
        simp only [World.step, vt]
        cases hn : c.tasks[n]? with
        | none => exact .inr (.inr ⟨(fun h => nomatch h), quiet (b.view c) rfl, rfl⟩)
        | some pc =>
          have hnlt := (List.getElem?_eq_some_iff.mp hn).1
          rcases resume_storage (b.view c).client pc a with ⟨k1, k2⟩ | ⟨k0, account, i, k1, k2⟩
          · refine .inr (.inr ⟨(fun h => nomatch h), ?_, k2⟩)
            rintro i ⟨m, h1, h2⟩
            rcases getElem?_set_cases h1 with ⟨hm, h⟩ | ⟨_, h⟩
            · have := k1 i h.symm
              subst hm
              exact h2 (this ▸ hn)
            · exact h2 h
          · refine .inl ⟨i, account, ⟨n, ?_, ?_⟩, (fun h => nomatch h), ?_, k2⟩
            · simp only [List.getElem?_set_self hnlt, k1]
            · rw [hn]; intro h; cases h; cases k0
            · rintro i' ⟨m, h1, h2⟩
              rcases getElem?_set_cases h1 with ⟨hm, h⟩ | ⟨_, h⟩
              · rw [k1] at h; cases h; rfl
              · exact absurd h h2

/-- C75: every history of the browser says who is signed in. -/
theorem C75_standing (E : Env) (K : SessionKeys) (hs : List TabHappening) : ∃ o, Standing E K hs o := by
  obtain ⟨n, hn⟩ : ∃ n, hs.length = n := ⟨_, rfl⟩
  induction n generalizing hs with
  | zero => rw [List.length_eq_zero_iff] at hn; subst hn; exact ⟨none, .start⟩
  | succ n ih =>
    obtain ⟨l, x, rfl⟩ : ∃ l x, hs = l ++ [x] := by
      rcases List.eq_nil_or_concat hs with rfl | h
      · cases hn
      · obtain ⟨l, x, h⟩ := h
        exact ⟨l, x, by simpa using h⟩
    obtain ⟨o, ho⟩ := ih l (by simpa using hn)
    rcases storage_step E K (browserAfter E K l) x with ⟨i, a, h, _⟩ | ⟨h, _⟩ | ⟨h1, h2, _⟩
    · exact ⟨_, .signIn l x i h⟩
    · exact ⟨_, .signOut l x h⟩
    · exact ⟨o, .other l x o ho h2 h1⟩

theorem standing_storage {E : Env} {K : SessionKeys} {hs : List TabHappening} {o : Option Identity} (h : Standing E K hs o) :
    ((browserAfter E K hs).storage.map fun s => (⟨s.session, s.chain⟩ : Identity)) = o := by
  induction h with
  | start => rfl
  | signIn hs x i h =>
    rw [browserAfter_snoc]
    rcases storage_step E K (browserAfter E K hs) x with ⟨i', a, k1, k2, k3, k4⟩ | ⟨_, k, _⟩ | ⟨_, k, _⟩
    · rw [k4, k3 i h]; rfl
    · exact absurd h (k i)
    · exact absurd h (k i)
  | signOut hs x h =>
    rw [browserAfter_snoc]
    rcases storage_step E K (browserAfter E K hs) x with ⟨_, _, _, k, _⟩ | ⟨_, _, k⟩ | ⟨k, _⟩
    · exact absurd h k
    · rw [k]; rfl
    · exact absurd h k
  | other hs x o _ h1 h2 ih =>
    rw [browserAfter_snoc]
    rcases storage_step E K (browserAfter E K hs) x with ⟨i, _, k, _⟩ | ⟨k, _⟩ | ⟨_, _, k⟩
    · exact absurd k (h1 i)
    · exact absurd k h2
    · rw [k]; exact ih

theorem load_displays (c : Client) : Displays c.load (c.storage.map fun s => (⟨s.session, s.chain⟩ : Identity)) := by
  cases h : c.storage <;>
    simp [Displays, Client.load, Client.construct, h, Context.initial]

/-- C75: a tab that is opened, or an open tab that is loaded again, displays who is signed in: the identity of the last login in any tab,
unless some tab signed out since. -/
theorem C75_new_tab (E : Env) (K : SessionKeys) (hs : List TabHappening) (o : Option Identity) (h : Standing E K hs o) :
    (∃ c, (browserAfter E K (hs ++ [.open_])).tabs = (browserAfter E K hs).tabs ++ [c] ∧ Displays c o) ∧
    (∀ j < (browserAfter E K hs).tabs.length, ∃ c, (browserAfter E K (hs ++ [.tab j .load])).tabs[j]? = some c ∧ Displays c o) := by
  have g := standing_storage h
  simp only [browserAfter_snoc]
  generalize browserAfter E K hs = b at g
  subst g
  refine ⟨⟨_, rfl, load_displays _⟩, fun j hj => ?_⟩
  have hj' : b.tabs[j]? = some b.tabs[j] := List.getElem?_eq_getElem hj
  exact ⟨_, by simp only [Browser.step, hj', List.getElem?_set_self hj]; rfl, load_displays (b.view b.tabs[j]).client⟩

/-- C75: an open tab that makes another manager (a React provider whose options change, a Vue provider created again) displays from then on
who is signed in, if somebody is; otherwise it goes on displaying what it did. -/
theorem C75_another_manager (E : Env) (K : SessionKeys) (hs : List TabHappening) (o : Option Identity) (h : Standing E K hs o) (j : Nat)
    (c : Client) (hc : (browserAfter E K hs).tabs[j]? = some c) :
    ∃ c', (browserAfter E K (hs ++ [.tab j .create])).tabs[j]? = some c' ∧ (∀ i, o = some i → Displays c' (some i)) ∧
      (o = none → c'.ctx.identity = c.ctx.identity ∧ c'.ctx.identityAddress = c.ctx.identityAddress ∧
        c'.ctx.delegationChain = c.ctx.delegationChain) := by
  have g := standing_storage h
  rw [browserAfter_snoc]
  generalize browserAfter E K hs = b at g hc
  subst g
  refine ⟨((b.view c).step E K .create).client, ?_, fun i hi => ?_, fun hn => ?_⟩
  · simp only [Browser.step, hc, List.getElem?_set_self (List.getElem?_eq_some_iff.mp hc).1]
  · obtain ⟨t, ht, rfl⟩ := Option.map_eq_some_iff.mp hi
    simp [Displays, World.step, Browser.view, Client.create, Client.construct, ht]
  · have ht : b.storage = none := Option.map_eq_none_iff.mp hn
    simp [World.step, Browser.view, Client.create, Client.construct, ht]

/-- Without running logins and without `login()`, nothing gets stored. -/
theorem running_step (E : Env) (K : SessionKeys) (w : World) (h : ∀ pc ∈ w.client.tasks, RunningLogin pc = false) (y : Happening)
    (hy : y ≠ .login) : (∀ pc ∈ (w.step E K y).client.tasks, RunningLogin pc = false) ∧
      ((w.step E K y).client.storage = w.client.storage ∨ (w.step E K y).client.storage = none) := by
  cases y with
  | login => exact absurd rfl hy
  | load => exact ⟨by simp [World.step, Client.load, Client.construct], .inl (by simp only [World.step, Client.load, Client.construct])⟩
  | create => exact ⟨(create_keeps w.client).1 ▸ h, .inl (create_keeps w.client).2.1⟩
  | setWallet v => exact ⟨h, .inl rfl⟩
  | inject v => exact ⟨h, .inl rfl⟩
  | clear => exact ⟨h, .inr rfl⟩
  | other t op => exact ⟨h, .inl rfl⟩
  | prepareLogin =>
    refine ⟨fun pc hpc => ?_, .inl (setup_ctx w.client).2.1⟩
    rcases List.mem_append.mp hpc with g | g
    · exact h pc g
    · simp only [List.mem_singleton] at g
      subst g; rfl
  | execute i t cert =>
    simp only [World.step]
    split
    · exact ⟨h, .inl rfl⟩
    · next pc hpc =>
      split
      · exact ⟨h, .inl rfl⟩
      · next op hop =>
        refine ⟨fun pc' h' => ?_, .inl rfl⟩
        rcases mem_set h' with rfl | h'
        · have := h pc (List.mem_of_getElem? hpc)
          cases pc <;> simp [Pc.request] at hop <;> exact this
        · exact h pc' h'
  | lagging i t cert seen =>
    simp only [World.step]
    split
    · exact ⟨h, .inl rfl⟩
    · next pc hpc =>
      split
      · exact ⟨h, .inl rfl⟩
      · next op hop =>
        refine ⟨fun pc' h' => ?_, .inl rfl⟩
        rcases mem_set h' with rfl | h'
        · have := h pc (List.mem_of_getElem? hpc)
          cases pc <;> simp [Pc.query] at hop <;> exact this
        · exact h pc' h'
  | resume i a =>
    simp only [World.step]
    split
    · exact ⟨h, .inl rfl⟩
    · next pc hpc =>
      have hp := h pc (List.mem_of_getElem? hpc)
      refine ⟨fun pc' h' => ?_, ?_⟩
      · rcases mem_set h' with rfl | h'
        · exact resume_running _ _ _ hp
        · exact h pc' h'
      · rcases resume_storage w.client pc a with k | k
        · exact .inl k.2
        · rw [hp] at k; cases k.1

/-- Nobody is signed in, and no login is running in any tab. -/
structure SignedOut (b : Browser) : Prop where
  storage : b.storage = none
  tasks : ∀ c ∈ b.tabs, ∀ pc ∈ c.tasks, RunningLogin pc = false

theorem load_displays_none {c : Client} (h : c.storage = none) : Displays c.load none := by
  have := load_displays c
  rwa [h] at this

theorem signedOut_step {E : Env} {K : SessionKeys} {b : Browser} (x : SignedOut b) (e : TabHappening)
    (hl : ∀ k, e ≠ .tab k .login) : SignedOut (b.step E K e) ∧
      ∀ j : Nat, (∀ k, e ≠ .close k) → (∀ c, b.tabs[j]? = some c → Displays c none) →
        ∀ c, (b.step E K e).tabs[j]? = some c → Displays c none := by
  cases e with
  | open_ =>
    refine ⟨⟨x.storage, fun c hc => ?_⟩, fun j _ h c hc => ?_⟩
    · rcases List.mem_append.mp hc with hc | hc
      · exact x.tasks c hc
      · simp only [List.mem_singleton] at hc
        subst hc
        simp [Client.load, Client.construct]
    · rcases getElem?_snoc_cases hc with hc | ⟨_, rfl⟩
      · exact h c hc
      · exact load_displays_none x.storage
  | close k => exact ⟨⟨x.storage, fun c hc => x.tasks c (List.mem_of_mem_eraseIdx hc)⟩, fun j h => absurd rfl (h k)⟩
  | tab k y =>
    cases hc : b.tabs[k]? with
    | none =>
      have : b.step E K (.tab k y) = b := by simp only [Browser.step, hc]
      rw [this]
      exact ⟨x, fun _ _ h => h⟩
    | some c =>
      have hy : y ≠ .login := fun h => hl k (h ▸ rfl)
      have hm := List.mem_of_getElem? hc
      obtain ⟨r1, r2⟩ := running_step E K (b.view c) (x.tasks c hm) y hy
      have e : b.step E K (.tab k y) = ⟨b.tabs.set k ((b.view c).step E K y).client, ((b.view c).step E K y).client.storage,
          ((b.view c).step E K y).client.generated, ((b.view c).step E K y).calls, ((b.view c).step E K y).log⟩ := by
        simp only [Browser.step, hc]
      rw [e]
      refine ⟨⟨?_, fun c' hc' => ?_⟩, fun j _ h c' hc' => ?_⟩
      · rcases r2 with r2 | r2
        · exact r2.trans x.storage
        · exact r2
      · rcases mem_set hc' with rfl | hc'
        · exact r1
        · exact x.tasks c' hc'
      · rcases getElem?_set_cases hc' with ⟨rfl, rfl⟩ | ⟨_, hc'⟩
        · have d := h c hc
          have o : OutOk' (b.view c) := ⟨⟨x.storage, d.1, Option.isSome_eq_false_iff.mp d.2.2 |> Option.isNone_iff_eq_none.mp, d.2.1⟩, x.tasks c hm⟩
          have q := (outOk_step (E := E) (K := K) o y hy).client
          simp [Displays, q.identity, q.address, q.chain]
        · exact h c' hc'

theorem browserAfter_append (E : Env) (K : SessionKeys) (hs hs' : List TabHappening) :
    browserAfter E K (hs ++ hs') = (browserAfter E K hs).run E K hs' := by simp [browserAfter, Browser.run]

/-- C75, the part about signing out that holds: if `clear()` is called in a tab while no `login` is running in any tab, then whatever happens
later in the tabs, until `login()` is called in one, nobody is signed in (so that tabs opened or loaded again show nobody, see
`C75_new_tab`), and that tab shows nobody as long as no tab is closed (which would change the numbers).  Missing: the other open tabs, see below. -/
theorem C75_signed_out_partial (E : Env) (K : SessionKeys) (before after : List TabHappening) (j : Nat)
    (hj : j < (browserAfter E K before).tabs.length)
    (hr : ∀ c ∈ (browserAfter E K before).tabs, ∀ pc ∈ c.tasks, RunningLogin pc = false) (hl : ∀ k, .tab k .login ∉ after) :
    Standing E K (before ++ .tab j .clear :: after) none ∧
    ((∀ k, .close k ∉ after) → ∀ c, (browserAfter E K (before ++ .tab j .clear :: after)).tabs[j]? = some c → Displays c none) := by
  have hj' : (browserAfter E K before).tabs[j]? = some (browserAfter E K before).tabs[j] := List.getElem?_eq_getElem hj
  have e : before ++ .tab j .clear :: after = (before ++ [.tab j .clear]) ++ after := by simp
  -- right after `clear()`
  have s0 : SignedOut (browserAfter E K (before ++ [.tab j .clear])) ∧
      ∀ c, (browserAfter E K (before ++ [.tab j .clear])).tabs[j]? = some c → Displays c none := by
    rw [browserAfter_snoc]
    generalize browserAfter E K before = b at hj hr hj'
    simp only [Browser.step, hj']
    refine ⟨⟨rfl, fun c hc => ?_⟩, fun c hc => ?_⟩
    · rcases mem_set hc with rfl | hc
      · exact hr b.tabs[j] (List.getElem_mem hj)
      · exact hr c hc
    · rw [List.getElem?_set_self hj] at hc
      cases hc
      exact ⟨rfl, rfl, rfl⟩
  -- and later
  have run : ∀ l b, (∀ k, .tab k .login ∉ l) → SignedOut b → SignedOut (b.run E K l) ∧
      ((∀ k, .close k ∉ l) → (∀ c, b.tabs[j]? = some c → Displays c none) →
        ∀ c, (b.run E K l).tabs[j]? = some c → Displays c none) := by
    intro l
    induction l with
    | nil => exact fun b _ x => ⟨x, fun _ h => h⟩
    | cons y l ih =>
      intro b hl x
      have q := signedOut_step (E := E) (K := K) x y (fun k h => hl k (h ▸ List.mem_cons_self))
      have r := ih (b.step E K y) (fun k h => hl k (List.mem_cons_of_mem _ h)) q.1
      exact ⟨r.1, fun hc h => r.2 (fun k h' => hc k (List.mem_cons_of_mem _ h'))
        (q.2 j (fun k h' => hc k (h' ▸ List.mem_cons_self)) h)⟩
  have r := run after _ hl s0.1
  rw [← browserAfter_append, ← e] at r
  refine ⟨?_, fun hc => r.2 hc s0.2⟩
  obtain ⟨o, ho⟩ := C75_standing E K (before ++ .tab j .clear :: after)
  have := standing_storage ho
  rw [r.1.storage] at this
  rw [← this] at ho
  exact ho

/-! Examples. -/

/-- Something happens in the `j`-th tab. -/
def Ex.inTab (j : Nat) (hs : List Happening) : List TabHappening := hs.map (.tab j)

/-- Two tabs; the user signs in in the first one, opens a third, signs in there with a new key, and opens a fourth. -/
def Ex.tabs : List TabHappening := [.open_, .open_] ++ Ex.inTab 0 Ex.signIn ++
  .open_ :: Ex.inTab 2 (.setWallet 7 :: Ex.fetches 0 Ex.alice 300 ++ Ex.finishes 0 Ex.aliceSig 400) ++ [.open_]

/-- Non-vacuity: which sessions the four tabs show, and which were sent. -/
example : (browserAfter Toy.env Ex.keys Ex.tabs).tabs.map (fun c => c.ctx.identity.map (·.session)) = [some 0, none, some 1, some 1] ∧
    sentSessions (browserAfter Toy.env Ex.keys Ex.tabs).log = [0, 1] := by decide +kernel

/-- Non-vacuity: signing out in the third tab and going on in the others; a new tab shows nobody. -/
example : (∀ c ∈ (browserAfter Toy.env Ex.keys Ex.tabs).tabs, ∀ pc ∈ c.tasks, RunningLogin pc = false) ∧
    (browserAfter Toy.env Ex.keys (Ex.tabs ++ .tab 2 .clear ::
      (Ex.inTab 1 (.setWallet 7 :: Ex.pagePrepares 0 Ex.alice 500) ++ [.open_]))).tabs.map (fun c => c.ctx.identity.map (·.session)) =
      [some 0, none, none, some 1, none] := by decide +kernel

/-- Non-vacuity: with another manager the second tab shows the login of the third; after signing out in the fourth, the first goes on showing
its identity although it makes another manager. -/
example : (browserAfter Toy.env Ex.keys (Ex.tabs ++ [.tab 1 .create, .tab 3 .clear, .tab 0 .create])).tabs.map
      (fun c => c.ctx.identity.map (·.session)) = [some 0, some 1, some 1, none] := by decide +kernel

/-- What a user would expect of open tabs: once one has signed out, with no login running, none shows an identity. -/
def SignedOutEverywhere (E : Env) (K : SessionKeys) : Prop :=
  ∀ hs j, j < (browserAfter E K hs).tabs.length →
    (∀ c ∈ (browserAfter E K hs).tabs, ∀ pc ∈ c.tasks, RunningLogin pc = false) →
    ∀ c ∈ (browserAfter E K (hs ++ [.tab j .clear])).tabs, c.ctx.identity = none

/-- That fails of the code: an open tab does not notice that another signed out. -/
theorem C75_not_everywhere : ¬SignedOutEverywhere Toy.env Ex.keys := by
  intro H
  have : ∀ c ∈ (browserAfter Toy.env Ex.keys ([.open_] ++ Ex.inTab 0 Ex.signIn ++ [.open_] ++ [.tab 0 .clear])).tabs,
      c.ctx.identity.isSome = false := fun c hc => by
    rw [H _ 0 (by decide +kernel) (by decide +kernel) c hc]; rfl
  exact absurd this (by decide +kernel)

end Siwe
