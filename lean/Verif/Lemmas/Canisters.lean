import Verif.Spec.Canisters
import Verif.Lemmas.Tabs
import Verif.Lemmas.Managers
import Verif.Props.Client
/- Invariants of an app that uses several provider canisters. -/
namespace Siwe
open Spec

/-- The canister accepted the login. -/
def TookIn (E : Env) (K : SessionKeys) (h : History) (l : List Output) (account : Bytes) (n : Nat) (d : LoginDetails) : Prop :=
  ∃ sig nonce, Output.login sig account n nonce ∈ l ∧ ∃ e ∈ trace E h, e.call = .login sig account (K n) nonce ∧ e.reply = .loggedIn d

/-- It also handed out the delegation. -/
def HandedOut (E : Env) (K : SessionKeys) (h : History) (l : List Output) (account : Bytes) (i : Identity) : Prop :=
  ∃ before after t cert d sd, h = before ++ after ∧
    (step (stateAfter E before) t (.getDelegation cert account (K i.session) d.expiration)).2 = .delegation sd ∧
    i.chain = ⟨sd.delegation, sd.signature, d.userCanisterPubkey⟩ ∧ TookIn E K h l account i.session d

theorem TookIn.mono {E : Env} {K : SessionKeys} {h h' : History} {l l' : List Output} {a : Bytes} {n : Nat} {d : LoginDetails}
    (x : TookIn E K h l a n d) : TookIn E K (h ++ h') (l ++ l') a n d := by
  obtain ⟨sig, nonce, h1, e, h2, h3⟩ := x
  exact ⟨sig, nonce, List.mem_append_left _ h1, e, mem_trace_append h2, h3⟩

theorem HandedOut.mono {E : Env} {K : SessionKeys} {h h' : History} {l l' : List Output} {a : Bytes} {i : Identity}
    (x : HandedOut E K h l a i) : HandedOut E K (h ++ h') (l ++ l') a i := by
  obtain ⟨b, af, t, cert, d, sd, h1, h2, h3, h4⟩ := x
  exact ⟨b, af ++ h', t, cert, d, sd, by rw [h1, List.append_assoc], h2, h3, h4.mono⟩

theorem HandedOut.granted {E : Env} {K : SessionKeys} {calls : History} {l : List Output} {account : Bytes} {i : Identity}
    (x : HandedOut E K calls l account i) : GrantedBy E K calls l account i := by
  obtain ⟨before, after, t, cert, d, sd, g1, g2, g3, sig, nonce, g5, e, he, g6, g7⟩ := x
  obtain ⟨b, a, hb⟩ := List.append_of_mem he
  obtain ⟨hb', ha, now, g8, g9⟩ : ∃ hb' ha now, calls = hb' ++ (now, Op.login sig account (K i.session) nonce) :: ha ∧
      (step (stateAfter E hb') now (.login sig account (K i.session) nonce)).2 = .loggedIn d := by
    obtain ⟨h1, h2, q1, q2, q3, q4⟩ := traceFrom_split hb
    refine ⟨h1, h2, e.time, ?_, ?_⟩
    · rw [q1, g6]
    · rw [← g6, ← g7]; exact q3.symm
  obtain ⟨b', e', a', addr', nonce', text, s', p', q1, q2, q3, q4, q5, q6, q7⟩ :=
    C15_login_needs_a_signed_fresh_message E hb' now sig account (K i.session) nonce d g9
  have hdr := C52_decision E before t cert account (K i.session) d.expiration
  rw [g2] at hdr
  have hdel : sd.delegation.pubkey = K i.session ∧ sd.delegation.expiration = d.expiration := by
    cases hdr with
    | success _ s' sh dh w _ k1 k2 k3 k4 k5 k6 k7 k8 k9 k10 k11 => rw [k10]; exact ⟨rfl, rfl⟩
  refine ⟨sig, nonce, d, g5, ⟨e, he, g6, g7⟩, ?_, ?_, ?_, e', ?_, addr', nonce', text, q3, q4, q6⟩
  · rw [g3]
  · rw [g3]; exact hdel.1
  · rw [g3]; exact hdel.2
  · rw [g8]
    apply mem_trace_append
    rw [q1]; simp

/-- What is known about a call, at its canister. -/
def CallOk (E : Env) (K : SessionKeys) (h : History) (l : List Output) : Pc → Prop
  | .loginSent a p s n => Output.login s a n p.nonce ∈ l
  | .loginReplied a p s n r => Output.login s a n p.nonce ∈ l ∧ ∃ e ∈ trace E h, e.call = .login s a (K n) p.nonce ∧ e.reply = r
  | .delegationSent a n d => TookIn E K h l a n d
  | .delegationReplied a n d r => TookIn E K h l a n d ∧
      ∃ b af t cert, h = b ++ af ∧ (step (stateAfter E b) t (.getDelegation cert a (K n) d.expiration)).2 = r
  | _ => True

theorem CallOk.mono {E : Env} {K : SessionKeys} {h h' : History} {l l' : List Output} {pc : Pc} (x : CallOk E K h l pc) :
    CallOk E K (h ++ h') (l ++ l') pc := by
  cases pc <;> try trivial
  case loginSent => exact List.mem_append_left _ x
  case loginReplied => obtain ⟨h1, e, h2, h3⟩ := x; exact ⟨List.mem_append_left _ h1, e, mem_trace_append h2, h3⟩
  case delegationSent => exact TookIn.mono x
  case delegationReplied =>
    obtain ⟨h1, b, af, t, cert, h2, h3⟩ := x
    exact ⟨h1.mono, b, af ++ h', t, cert, by rw [h2, List.append_assoc], h3⟩

/-- The store shows what is in local storage. -/
structure Mirrors (c : Client) : Prop where
  address : c.ctx.identityAddress = c.storage.map (·.address)
  identity : c.ctx.identity = c.storage.map fun s => ⟨s.session, s.chain⟩
  chain : c.ctx.delegationChain = c.storage.map (·.chain)

theorem Mirrors.of {c c' : Client} (x : Mirrors c) (h2 : c'.storage = c.storage) (h3 : c'.ctx.identityAddress = c.ctx.identityAddress)
    (h4 : c'.ctx.identity = c.ctx.identity) (h5 : c'.ctx.delegationChain = c.ctx.delegationChain) : Mirrors c' :=
  ⟨h2 ▸ h3 ▸ x.address, h2 ▸ h4 ▸ x.identity, h2 ▸ h5 ▸ x.chain⟩

/-- A step of a call, with what it stores. -/
structure CallStep (E : Env) (K : SessionKeys) (h : History) (l : List Output) (c : Client) (r : Client × Pc × List Output) : Prop where
  mirrors : Mirrors r.1
  pc : CallOk E K h (l ++ r.2.2) r.2.1
  stored : r.1.storage = c.storage ∨ ∃ s, r.1.storage = some s ∧ HandedOut E K h l s.address ⟨s.session, s.chain⟩

theorem resume_call {E : Env} {K : SessionKeys} {h : History} {l : List Output} {c : Client} (x : Mirrors c) {pc : Pc}
    (y : CallOk E K h l pc) (a : Answer) : CallStep E K h l c (c.resume pc a) := by
  have same : ∀ pc', CallOk E K h l pc' → CallStep E K h l c (c, pc', []) := fun pc' y' =>
    ⟨x, by rw [List.append_nil]; exact y', .inl rfl⟩
  have pf : ∀ f e, CallStep E K h l c (c.prepareFails f e) := by
    intro f e
    refine ⟨x.of rfl rfl rfl rfl, ?_, .inl rfl⟩
    cases f <;> exact trivial
  have lf : ∀ e, CallStep E K h l c (c.loginFails e) := fun e => ⟨x.of rfl rfl rfl rfl, trivial, .inl rfl⟩
  have sf : ∀ e, CallStep E K h l c (c.signatureFails e) := fun e => ⟨x.of rfl rfl rfl rfl, trivial, .inl rfl⟩
  have rs : ∀ a p, CallStep E K h l c (c.requestSignature a p) := fun a p => ⟨x.of rfl rfl rfl rfl, trivial, .inl rfl⟩
  unfold Client.resume
  split
  · exact same _ trivial
  · exact pf _ _
  · unfold Client.prepareWith
    split
    · exact pf _ _
    · split
      · exact pf _ _
      · exact ⟨x.of rfl rfl rfl rfl, trivial, .inl rfl⟩
  · exact pf _ _
  · exact ⟨x, trivial, .inl rfl⟩
  · exact pf _ _
  · exact pf _ _
  · next f a r =>
    unfold Client.prepareReply
    split
    · refine ⟨x.of rfl rfl rfl rfl, ?_, .inl rfl⟩
      cases f <;> exact trivial
    · exact pf _ _
    · exact pf _ _
  · exact pf _ _
  · exact same _ trivial
  · exact lf _
  · unfold Client.loginWith
    split
    · exact lf _
    · split
      · exact lf _
      · split
        · exact ⟨x.of rfl rfl rfl rfl, trivial, .inl rfl⟩
        · unfold Client.startPrepareLogin
          have g := fun c => setup_ctx c
          refine ⟨x.of ?_ ?_ ?_ ?_, trivial, .inl (g _).2.1⟩
          all_goals simp only [(g _).1, (g _).2.1]; rfl
  · exact lf _
  · exact rs _ _
  · exact lf _
  · unfold Client.signed
    split
    · exact sf _
    · exact ⟨x.of rfl rfl rfl rfl, trivial, .inl rfl⟩
  · exact sf _
  · exact ⟨x, by simp [CallOk], .inl rfl⟩
  · exact lf _
  · exact lf _
  · next a p s n r =>
    unfold Client.loginReply
    split
    · next d =>
      obtain ⟨y2, e, he, y3, y4⟩ := y
      refine ⟨x, ?_, .inl rfl⟩
      exact ⟨s, p.nonce, List.mem_append_left _ y2, e, he, y3, y4⟩
    · exact lf _
    · exact lf _
  · exact lf _
  · exact lf _
  · next a n d r =>
    unfold Client.delegationReply
    split
    · next sd =>
      rw [if_neg (by simp)]
      obtain ⟨h3, b, af, t, cert, h1, h2⟩ := y
      exact ⟨⟨rfl, rfl, rfl⟩, trivial, .inr ⟨_, rfl, b, af, t, cert, d, sd, h1, h2, rfl, h3⟩⟩
    · exact lf _
    · exact lf _
  · next a n d r =>
    unfold Client.delegationReply
    split
    · exact lf _
    · exact lf _
    · exact lf _
  · exact lf _
  · exact same _ y

/-- The invariant: what is stored was handed out by one of the canisters `U`, as will be what running logins store. -/
structure CanistersOk (E : Nat → Env) (K : SessionKeys) (U : Nat → Prop) (s : Canisters) : Prop where
  current : U s.current
  lengths : s.owners.length = s.client.tasks.length
  calls : ∀ (i : Nat) pc k, s.client.tasks[i]? = some pc → s.owners[i]? = some k → CallOk (E k) K (s.calls k) (s.log k) pc
  running : ∀ (i : Nat) pc k, s.client.tasks[i]? = some pc → s.owners[i]? = some k → RunningLogin pc = true → U k
  stored : ∀ t, s.client.storage = some t → ∃ k, U k ∧ HandedOut (E k) K (s.calls k) (s.log k) t.address ⟨t.session, t.chain⟩
  mirrors : Mirrors s.client

/-- What happens at a canister only adds calls and requests. -/
theorem on_extends (E : Nat → Env) (K : SessionKeys) (s : Canisters) (k : Nat) (x : Happening) (j : Nat) :
    ∃ h l, (s.on E K k x).calls j = s.calls j ++ h ∧ (s.on E K k x).log j = s.log j ++ l := by
  simp only [Canisters.on]
  split
  · next hj => subst hj; exact step_extends (E j) K (s.view j) x
  · exact ⟨[], [], by simp, by simp⟩

/-- A step that leaves the calls of the page, and what is stored, alone. -/
theorem CanistersOk.quiet {E : Nat → Env} {K : SessionKeys} {U : Nat → Prop} {s : Canisters} (x : CanistersOk E K U s) (k : Nat) (y : Happening)
    (h1 : (s.on E K k y).client.tasks = s.client.tasks) (h2 : (s.on E K k y).client.storage = s.client.storage)
    (h3 : Mirrors (s.on E K k y).client) : CanistersOk E K U (s.on E K k y) := by
  have g := on_extends E K s k y
  refine ⟨x.current, by rw [h1]; exact x.lengths, fun i pc j hi hj => ?_, fun i pc j hi hj => ?_, fun t ht => ?_, h3⟩
  · rw [h1] at hi
    obtain ⟨h, l, e1, e2⟩ := g j
    rw [e1, e2]
    exact (x.calls i pc j hi hj).mono
  · rw [h1] at hi
    exact x.running i pc j hi hj
  · rw [h2] at ht
    obtain ⟨j, hj, ho⟩ := x.stored t ht
    obtain ⟨h, l, e1, e2⟩ := g j
    exact ⟨j, hj, by rw [e1, e2]; exact ho.mono⟩

/-- A new call. -/
theorem CanistersOk.join {E : Nat → Env} {K : SessionKeys} {U : Nat → Prop} {s : Canisters} (x : CanistersOk E K U s) (y : Happening) (pc : Pc)
    (hp : ∀ E' h l, CallOk E' K h l pc)
    (h1 : (s.on E K s.current y).client.tasks = s.client.tasks ++ [pc]) (h2 : (s.on E K s.current y).client.storage = s.client.storage)
    (h3 : Mirrors (s.on E K s.current y).client) :
    CanistersOk E K U { s.on E K s.current y with owners := s.owners ++ [s.current] } := by
  have g := on_extends E K s s.current y
  refine ⟨x.current, by rw [h1]; simp [x.lengths], fun i pc' j hi hj => ?_, fun i pc' j hi hj hr => ?_, fun t ht => ?_, h3⟩
  · simp only [h1] at hi hj ⊢
    rcases getElem?_snoc_cases hi with hi | ⟨rfl, rfl⟩
    · rcases getElem?_snoc_cases hj with hj | ⟨e, rfl⟩
      · obtain ⟨h, l, e1, e2⟩ := g j
        rw [e1, e2]
        exact (x.calls i pc' j hi hj).mono
      · have := (List.getElem?_eq_some_iff.mp hi).1
        have := x.lengths
        omega
    · exact hp _ _ _
  · simp only [h1] at hi hj
    rcases getElem?_snoc_cases hj with hj | ⟨e, rfl⟩
    · rcases getElem?_snoc_cases hi with hi | ⟨e, rfl⟩
      · exact x.running i pc' j hi hj hr
      · have := (List.getElem?_eq_some_iff.mp hj).1
        have := x.lengths
        omega
    · exact x.current
  · simp only [h2] at ht
    obtain ⟨j, hj, ho⟩ := x.stored t ht
    obtain ⟨h, l, e1, e2⟩ := g j
    refine ⟨j, hj, ?_⟩
    simp only
    rw [e1, e2]
    exact ho.mono

/-- A call of the page goes on. -/
theorem CanistersOk.replace {E : Nat → Env} {K : SessionKeys} {U : Nat → Prop} {s : Canisters} (x : CanistersOk E K U s) {i : Nat} {k : Nat}
    (y : Happening) {pc pc' : Pc} (hi : s.client.tasks[i]? = some pc) (hk : s.owners[i]? = some k)
    (h1 : (s.on E K k y).client.tasks = s.client.tasks.set i pc')
    (h2 : CallOk (E k) K ((s.on E K k y).calls k) ((s.on E K k y).log k) pc') (h3 : RunningLogin pc' = true → RunningLogin pc = true)
    (h4 : (s.on E K k y).client.storage = s.client.storage ∨ RunningLogin pc = true ∧ ∃ t, (s.on E K k y).client.storage = some t ∧
      HandedOut (E k) K ((s.on E K k y).calls k) ((s.on E K k y).log k) t.address ⟨t.session, t.chain⟩)
    (h5 : Mirrors (s.on E K k y).client) : CanistersOk E K U (s.on E K k y) := by
  have g := on_extends E K s k y
  refine ⟨x.current, by rw [h1, List.length_set]; exact x.lengths, fun n pc'' j hn hj => ?_, fun n pc'' j hn hj hr => ?_, fun t ht => ?_, h5⟩
  · rw [h1] at hn
    have hj : s.owners[n]? = some j := hj
    rcases getElem?_set_cases hn with ⟨rfl, rfl⟩ | ⟨_, hn⟩
    · rw [hk] at hj; cases hj; exact h2
    · obtain ⟨h, l, e1, e2⟩ := g j
      rw [e1, e2]
      exact (x.calls n pc'' j hn hj).mono
  · rw [h1] at hn
    have hj : s.owners[n]? = some j := hj
    rcases getElem?_set_cases hn with ⟨rfl, rfl⟩ | ⟨_, hn⟩
    · exact x.running _ pc j hi hj (h3 hr)
    · exact x.running n pc'' j hn hj hr
  · rcases h4 with h4 | ⟨hr, t', h4, h4'⟩
    · rw [h4] at ht
      obtain ⟨j, hj, ho⟩ := x.stored t ht
      obtain ⟨h, l, e1, e2⟩ := g j
      exact ⟨j, hj, by rw [e1, e2]; exact ho.mono⟩
    · rw [h4] at ht
      cases ht
      exact ⟨k, x.running i pc k hi hk hr, h4'⟩

theorem canistersOk_step {E : Nat → Env} {K : SessionKeys} {U : Nat → Prop} {s : Canisters} (x : CanistersOk E K U s) (e : CanistersHappening)
    (he : ∀ k, e.canister? = some k → U k) : CanistersOk E K U (s.step E K e) := by
  have rest : ∀ t, s.client.storage = some t → ∀ (k : Nat) y, ∃ j, U j ∧
      HandedOut (E j) K ((s.on E K k y).calls j) ((s.on E K k y).log j) t.address ⟨t.session, t.chain⟩ := by
    intro t ht k y
    obtain ⟨j, hj, ho⟩ := x.stored t ht
    obtain ⟨h, l, e1, e2⟩ := on_extends E K s k y j
    exact ⟨j, hj, by rw [e1, e2]; exact ho.mono⟩
  cases e with
  | load k =>
    refine ⟨he k rfl, by simp [Canisters.step, Canisters.on, World.step, Client.load, Client.construct, Canisters.view], ?_, ?_, ?_, ?_⟩
    · intro i pc j hi hj
      simp [Canisters.step] at hj
    · intro i pc j hi hj
      simp [Canisters.step] at hj
    · intro t ht
      exact rest t ht k .load
    · show Mirrors s.client.load
      unfold Client.load Client.construct
      cases hs : s.client.storage <;> exact ⟨by simp [Context.initial], by simp [Context.initial], by simp [Context.initial]⟩
  | create k =>
    have c := create_keeps s.client
    have q := x.quiet k .create c.1 c.2.1 (by
      show Mirrors s.client.create
      have := x.mirrors
      refine ⟨?_, ?_, ?_⟩ <;> rw [c.2.1]
      all_goals
        cases hc : s.client.storage with
        | none =>
          have := x.mirrors.address
          have := x.mirrors.identity
          have := x.mirrors.chain
          simp_all [Client.create, Client.construct]
        | some t => simp [Client.create, Client.construct, hc])
    exact ⟨he k rfl, q.lengths, q.calls, q.running, q.stored, q.mirrors⟩
  | setWallet w => exact x.quiet _ _ rfl rfl (x.mirrors.of rfl rfl rfl rfl)
  | inject w => exact x.quiet _ _ rfl rfl (x.mirrors.of rfl rfl rfl rfl)
  | other k t op => exact x.quiet k (.other t op) rfl rfl x.mirrors
  | prepareLogin =>
    have g := setup_ctx s.client
    refine x.join .prepareLogin (.prepWallet none s.client.setupWalletClient.2) (fun _ _ _ => trivial) rfl g.2.1 ?_
    refine x.mirrors.of g.2.1 ?_ ?_ ?_
    · exact congrArg Context.identityAddress g.1
    · exact congrArg Context.identity g.1
    · exact congrArg Context.delegationChain g.1
  | login =>
    have g := setup_ctx s.client
    have key : ∃ pc : Pc, s.client.startLogin.2 = pc ∧ (∀ E' h l, CallOk E' K h l pc) ∧ s.client.startLogin.1.storage = s.client.storage ∧
        Mirrors s.client.startLogin.1 := by
      unfold Client.startLogin
      split
      · exact ⟨_, rfl, fun _ _ _ => trivial, rfl, x.mirrors.of rfl rfl rfl rfl⟩
      · split
        · exact ⟨_, rfl, fun _ _ _ => trivial, rfl, x.mirrors.of rfl rfl rfl rfl⟩
        · refine ⟨_, rfl, fun _ _ _ => trivial, g.2.1, x.mirrors.of g.2.1 ?_ ?_ ?_⟩
          · exact congrArg Context.identityAddress g.1
          · exact congrArg Context.identity g.1
          · exact congrArg Context.delegationChain g.1
    obtain ⟨pc, k1, k2, k3, k4⟩ := key
    exact x.join .login pc k2 (by rw [← k1]; rfl) k3 ⟨k4.1, k4.2, k4.3⟩
  | clear =>
    refine ⟨x.current, x.lengths, fun i pc j hi hj => ?_, x.running, fun t ht => ?_, ⟨rfl, rfl, rfl⟩⟩
    · obtain ⟨h, l, e1, e2⟩ := on_extends E K s s.current .clear j
      show CallOk (E j) K ((s.on E K s.current .clear).calls j) ((s.on E K s.current .clear).log j) pc
      rw [e1, e2]
      exact (x.calls i pc j hi hj).mono
    · cases ht
  | resume i a =>
    simp only [Canisters.step]
    split
    · exact x
    · next k hk =>
      have hlt : i < s.client.tasks.length := by rw [← x.lengths]; exact (List.getElem?_eq_some_iff.mp hk).1
      have hi : s.client.tasks[i]? = some s.client.tasks[i] := List.getElem?_eq_getElem hlt
      generalize s.client.tasks[i] = pc at hi
      have r := resume_call x.mirrors (x.calls i pc k hi hk) a
      have hw : (s.view k).step (E k) K (.resume i a) = ⟨{ (s.client.resume pc a).1 with tasks := s.client.tasks.set i (s.client.resume pc a).2.1 },
          s.calls k, s.log k ++ (s.client.resume pc a).2.2⟩ := by
        simp only [World.step, Canisters.view, hi]
      have hc : (s.on E K k (.resume i a)).client = { (s.client.resume pc a).1 with tasks := s.client.tasks.set i (s.client.resume pc a).2.1 } := by
        simp only [Canisters.on, hw]
      have hh : (s.on E K k (.resume i a)).calls k = s.calls k := by simp only [Canisters.on, hw, if_true]
      have hl : (s.on E K k (.resume i a)).log k = s.log k ++ (s.client.resume pc a).2.2 := by simp only [Canisters.on, hw, if_true]
      refine x.replace (.resume i a) hi hk (by rw [hc]) (by rw [hh, hl]; exact r.pc) ?_ ?_ (by rw [hc]; exact r.mirrors.of rfl rfl rfl rfl)
      · intro hr
        cases hrl : RunningLogin pc with
        | true => rfl
        | false => rw [resume_running _ _ _ hrl] at hr; exact hr
      · rw [hc, hh, hl]
        rcases resume_storage s.client pc a with ⟨_, h⟩ | ⟨hr, _⟩
        · exact .inl h
        · rcases r.stored with h | ⟨t, h1, h2⟩
          · exact .inl h
          · refine .inr ⟨hr, t, h1, ?_⟩
            have := h2.mono (h' := []) (l' := (s.client.resume pc a).2.2)
            rwa [List.append_nil] at this
  | execute i t cert =>
    simp only [Canisters.step]
    split
    · exact x
    · next k hk =>
      have hlt : i < s.client.tasks.length := by rw [← x.lengths]; exact (List.getElem?_eq_some_iff.mp hk).1
      have hi : s.client.tasks[i]? = some s.client.tasks[i] := List.getElem?_eq_getElem hlt
      generalize s.client.tasks[i] = pc at hi
      cases hr : pc.request K cert with
      | none =>
        have hw : (s.view k).step (E k) K (.execute i t cert) = s.view k := by
          simp only [World.step, Canisters.view, hi, hr]
        have hc : (s.on E K k (.execute i t cert)).client = s.client := by simp only [Canisters.on, hw]; rfl
        exact x.quiet k _ (by rw [hc]) (by rw [hc]) (by rw [hc]; exact x.mirrors)
      | some op =>
        have hw : (s.view k).step (E k) K (.execute i t cert) = ⟨{ s.client with
            tasks := s.client.tasks.set i (pc.answered (Siwe.step (stateAfter (E k) (s.calls k)) t op).2) }, s.calls k ++ [(t, op)], s.log k⟩ := by
          simp only [World.step, Canisters.view, hi, hr]
        have hc : (s.on E K k (.execute i t cert)).client = { s.client with
            tasks := s.client.tasks.set i (pc.answered (Siwe.step (stateAfter (E k) (s.calls k)) t op).2) } := by simp only [Canisters.on, hw]
        have hh : (s.on E K k (.execute i t cert)).calls k = s.calls k ++ [(t, op)] := by simp only [Canisters.on, hw, if_true]
        have hl : (s.on E K k (.execute i t cert)).log k = s.log k := by simp only [Canisters.on, hw, if_true]
        refine x.replace _ hi hk (by rw [hc]) ?_ ?_ (.inl (by rw [hc])) (by rw [hc]; exact x.mirrors.of rfl rfl rfl rfl)
        · rw [hh, hl]
          have y := x.calls i pc k hi hk
          have hm := mem_trace_snoc (E k) (s.calls k) t op
          cases pc <;> simp only [Pc.request] at hr <;> cases hr
          · trivial
          · exact ⟨y, _, hm, rfl, rfl⟩
          · refine ⟨?_, s.calls k, _, t, cert, rfl, rfl⟩
            obtain ⟨sig, nonce, h1, e, h2, h3⟩ := y
            exact ⟨sig, nonce, h1, e, mem_trace_append h2, h3⟩
        · cases pc <;> simp only [Pc.request] at hr <;> cases hr <;> exact fun h => h
  | lagging i t cert seen =>
    simp only [Canisters.step]
    split
    · exact x
    · next k hk =>
      have hlt : i < s.client.tasks.length := by rw [← x.lengths]; exact (List.getElem?_eq_some_iff.mp hk).1
      have hi : s.client.tasks[i]? = some s.client.tasks[i] := List.getElem?_eq_getElem hlt
      generalize s.client.tasks[i] = pc at hi
      cases hr : pc.query K cert with
      | none =>
        have hw : (s.view k).step (E k) K (.lagging i t cert seen) = s.view k := by
          simp only [World.step, Canisters.view, hi, hr]
        have hc : (s.on E K k (.lagging i t cert seen)).client = s.client := by simp only [Canisters.on, hw]; rfl
        exact x.quiet k _ (by rw [hc]) (by rw [hc]) (by rw [hc]; exact x.mirrors)
      | some op =>
        have hw : (s.view k).step (E k) K (.lagging i t cert seen) = ⟨{ s.client with
            tasks := s.client.tasks.set i (pc.answered (Siwe.step (stateAfter (E k) ((s.calls k).take seen)) t op).2) }, s.calls k, s.log k⟩ := by
          simp only [World.step, Canisters.view, hi, hr]
        have hc : (s.on E K k (.lagging i t cert seen)).client = { s.client with
            tasks := s.client.tasks.set i (pc.answered (Siwe.step (stateAfter (E k) ((s.calls k).take seen)) t op).2) } := by
          simp only [Canisters.on, hw]
        have hh : (s.on E K k (.lagging i t cert seen)).calls k = s.calls k := by simp only [Canisters.on, hw, if_true]
        have hl : (s.on E K k (.lagging i t cert seen)).log k = s.log k := by simp only [Canisters.on, hw, if_true]
        refine x.replace _ hi hk (by rw [hc]) ?_ ?_ (.inl (by rw [hc])) (by rw [hc]; exact x.mirrors.of rfl rfl rfl rfl)
        · rw [hh, hl]
          have y := x.calls i pc k hi hk
          cases pc <;> simp only [Pc.query] at hr <;> cases hr
          exact ⟨y, (s.calls k).take seen, (s.calls k).drop seen, t, cert, (List.take_append_drop _ _).symm, rfl⟩
        · cases pc <;> simp only [Pc.query] at hr <;> cases hr <;> exact fun h => h

/-- Only a call of the page that settles brings a new identity, and its canister handed it out. -/
theorem canisters_new {E : Nat → Env} {K : SessionKeys} {U : Nat → Prop} {s : Canisters} (x : CanistersOk E K U s) (e : CanistersHappening)
    (t : Stored) (h : (s.step E K e).client.storage = some t) :
    s.client.storage = some t ∨ ∃ i a k, e = .resume i a ∧ s.owners[i]? = some k ∧
      HandedOut (E k) K ((s.step E K e).calls k) ((s.step E K e).log k) t.address ⟨t.session, t.chain⟩ := by
  cases e with
  | load k => exact .inl h
  | create k => exact .inl ((create_keeps s.client).2.1 ▸ h)
  | setWallet w => exact .inl h
  | inject w => exact .inl h
  | other k u op => exact .inl h
  | prepareLogin => exact .inl ((setup_ctx s.client).2.1 ▸ h)
  | login =>
    have h : s.client.startLogin.1.storage = some t := h
    unfold Client.startLogin at h
    split at h
    · exact .inl h
    · split at h
      · exact .inl h
      · exact .inl ((setup_ctx s.client).2.1 ▸ h)
  | clear => cases h
  | resume i a =>
    cases hk : s.owners[i]? with
    | none => simp only [Canisters.step, hk] at h; exact .inl h
    | some k =>
      have hlt : i < s.client.tasks.length := by rw [← x.lengths]; exact (List.getElem?_eq_some_iff.mp hk).1
      have hi : s.client.tasks[i]? = some s.client.tasks[i] := List.getElem?_eq_getElem hlt
      generalize s.client.tasks[i] = pc at hi
      have r := resume_call x.mirrors (x.calls i pc k hi hk) a
      have hw : (s.view k).step (E k) K (.resume i a) = ⟨{ (s.client.resume pc a).1 with tasks := s.client.tasks.set i (s.client.resume pc a).2.1 },
          s.calls k, s.log k ++ (s.client.resume pc a).2.2⟩ := by
        simp only [World.step, Canisters.view, hi]
      have hs : s.step E K (.resume i a) = s.on E K k (.resume i a) := by simp only [Canisters.step, hk]
      have hc : (s.on E K k (.resume i a)).client.storage = (s.client.resume pc a).1.storage := by simp only [Canisters.on, hw]
      have hh : (s.on E K k (.resume i a)).calls k = s.calls k := by simp only [Canisters.on, hw, if_true]
      have hl : (s.on E K k (.resume i a)).log k = s.log k ++ (s.client.resume pc a).2.2 := by simp only [Canisters.on, hw, if_true]
      rw [hs, hc] at h
      rcases r.stored with hst | ⟨t', h1, h2⟩
      · exact .inl (hst ▸ h)
      · rw [h1] at h
        obtain rfl := Option.some.inj h
        refine .inr ⟨i, a, k, rfl, hk, ?_⟩
        rw [hs, hh, hl]
        have := h2.mono (h' := []) (l' := (s.client.resume pc a).2.2)
        rwa [List.append_nil] at this
  | execute i u c =>
    left
    simp only [Canisters.step] at h
    split at h
    · exact h
    · next k hk =>
      simp only [Canisters.on, Canisters.view, World.step] at h
      split at h
      · exact h
      · split at h <;> exact h
  | lagging i u c n =>
    left
    simp only [Canisters.step] at h
    split at h
    · exact h
    · next k hk =>
      simp only [Canisters.on, Canisters.view, World.step] at h
      split at h
      · exact h
      · split at h <;> exact h

theorem canistersOk_run {E : Nat → Env} {K : SessionKeys} {U : Nat → Prop} (hs : List CanistersHappening) : ∀ {s : Canisters},
    CanistersOk E K U s → (∀ k ∈ hs.filterMap (·.canister?), U k) → CanistersOk E K U (s.run E K hs) := by
  induction hs with
  | nil => exact fun x _ => x
  | cons e hs ih =>
    intro s x hu
    refine ih (canistersOk_step x e fun k hk => hu k ?_) fun k hk => hu k ?_
    · simp [hk]
    · rw [List.filterMap_cons]
      split
      · exact hk
      · exact List.mem_cons_of_mem _ hk

theorem canistersOk_initial (E : Nat → Env) (K : SessionKeys) {U : Nat → Prop} {k : Nat} (hk : U k) : CanistersOk E K U (.initial k) :=
  ⟨hk, rfl, by simp [Canisters.initial], by simp [Canisters.initial], (fun t ht => by cases ht), ⟨rfl, rfl, rfl⟩⟩

end Siwe
