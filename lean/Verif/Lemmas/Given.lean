import Verif.Lemmas.Client
/- Where the answers to the queries for delegations come from. -/
namespace Siwe
open Spec

/-- In the happenings, the canister answered the query of a login of `a` in session `n`, whose login had the details `d`, with `r`:
executing it, or on a replica that lagged behind. -/
def GivenIn (E : Env) (K : SessionKeys) (hs : List Happening) (a : Bytes) (n : Nat) (d : LoginDetails) (r : Reply) : Prop :=
  ∃ before x after j, hs = before ++ x :: after ∧ (worldAfter E K before).client.tasks[j]? = some (.delegationSent a n d) ∧
    ((∃ t cert, x = .execute j t cert ∧
      r = (step (stateAfter E (worldAfter E K before).calls) t (.getDelegation cert a (K n) d.expiration)).2) ∨
    ∃ t cert seen, x = .lagging j t cert seen ∧
      r = (step (stateAfter E ((worldAfter E K before).calls.take seen)) t (.getDelegation cert a (K n) d.expiration)).2)

theorem GivenIn.snoc {E : Env} {K : SessionKeys} {hs : List Happening} {a : Bytes} {n : Nat} {d : LoginDetails} {r : Reply}
    (h : GivenIn E K hs a n d r) (x : Happening) : GivenIn E K (hs ++ [x]) a n d r := by
  obtain ⟨b, y, af, j, h1, h2⟩ := h
  exact ⟨b, y, af ++ [x], j, by rw [h1]; simp, h2⟩

/-- The answers at hand and the stored identity come from such answers. -/
structure Given (P : Bytes → Nat → LoginDetails → Reply → Prop) (c : Client) : Prop where
  replied : ∀ a n d r, .delegationReplied a n d r ∈ c.tasks → P a n d r
  stored : ∀ s, c.storage = some s →
    ∃ d sd, P s.address s.session d (.delegation sd) ∧ s.chain = createDelegationChain sd d.userCanisterPubkey

theorem Given.mono {P Q : Bytes → Nat → LoginDetails → Reply → Prop} (h : ∀ a n d r, P a n d r → Q a n d r) {c : Client}
    (x : Given P c) : Given Q c :=
  ⟨fun a n d r hm => h _ _ _ _ (x.replied a n d r hm), fun s hs => by
    obtain ⟨d, sd, h1, h2⟩ := x.stored s hs
    exact ⟨d, sd, h _ _ _ _ h1, h2⟩⟩

/-- A call that continues saves an identity only from the answer it has, and does not make up answers. -/
theorem resume_given (c : Client) (pc : Pc) (ans : Answer) :
    ((c.resume pc ans).1.storage = c.storage ∨ ∃ a n d sd, pc = .delegationReplied a n d (.delegation sd) ∧
      (c.resume pc ans).1.storage = some ⟨a, n, createDelegationChain sd d.userCanisterPubkey⟩) ∧
    ∀ a n d r, (c.resume pc ans).2.1 = .delegationReplied a n d r → pc = .delegationReplied a n d r := by
  have pf : ∀ f e, (c.prepareFails f e).1.storage = c.storage ∧
      ∀ a n d r, (c.prepareFails f e).2.1 = .delegationReplied a n d r → pc = .delegationReplied a n d r := by
    intro f e; cases f <;> exact ⟨rfl, by intro a n d r h; cases h⟩
  have lf : ∀ e, (c.loginFails e).1.storage = c.storage ∧
      ∀ a n d r, (c.loginFails e).2.1 = .delegationReplied a n d r → pc = .delegationReplied a n d r := by
    intro e; exact ⟨rfl, by intro a n d r h; cases h⟩
  have up : ∀ {r : Client × Pc × List Output}, (r.1.storage = c.storage ∧ ∀ a n d q, r.2.1 = .delegationReplied a n d q →
      pc = .delegationReplied a n d q) → ((r.1.storage = c.storage ∨ ∃ a n d sd, pc = .delegationReplied a n d (.delegation sd) ∧
      r.1.storage = some ⟨a, n, createDelegationChain sd d.userCanisterPubkey⟩) ∧
      ∀ a n d q, r.2.1 = .delegationReplied a n d q → pc = .delegationReplied a n d q) := fun h => ⟨.inl h.1, h.2⟩
  unfold Client.resume
  split
  · exact up ⟨rfl, by intro a n d r h; cases h⟩
  · exact up (pf _ _)
  · unfold Client.prepareWith
    split
    · exact up (pf _ _)
    · split
      · exact up (pf _ _)
      · exact up ⟨rfl, by intro a n d r h; cases h⟩
  · exact up (pf _ _)
  · exact up ⟨rfl, by intro a n d r h; cases h⟩
  · exact up (pf _ _)
  · exact up (pf _ _)
  · next f _ r =>
    unfold Client.prepareReply
    split
    · refine up ⟨rfl, ?_⟩
      cases f <;> (intro a n d r h; cases h)
    · exact up (pf _ _)
    · exact up (pf _ _)
  · exact up (pf _ _)
  · exact up ⟨rfl, by intro a n d r h; cases h⟩
  · exact up (lf _)
  · unfold Client.loginWith
    split
    · exact up (lf _)
    · split
      · exact up (lf _)
      · split
        · exact up ⟨rfl, by intro a n d r h; cases h⟩
        · exact up ⟨(setup_ctx c.loggingIn).2.1, by intro a n d r h; cases h⟩
  · exact up (lf _)
  · exact up ⟨rfl, by intro a n d r h; cases h⟩
  · exact up (lf _)
  · unfold Client.signed
    split <;> exact up ⟨rfl, by intro a n d r h; cases h⟩
  · exact up ⟨rfl, by intro a n d r h; cases h⟩
  · exact up ⟨rfl, by intro a n d r h; cases h⟩
  · exact up (lf _)
  · exact up (lf _)
  · unfold Client.loginReply
    split
    · exact up ⟨rfl, by intro a n d r h; cases h⟩
    · exact up (lf _)
    · exact up (lf _)
  · exact up (lf _)
  · exact up (lf _)
  · next a n d r =>
    unfold Client.delegationReply
    split
    · next sd =>
      rw [if_neg (by simp)]
      exact ⟨.inr ⟨a, n, d, sd, rfl, rfl⟩, by intro a n d r h; cases h⟩
    · exact up (lf _)
    · exact up (lf _)
  · unfold Client.delegationReply
    split
    · rw [if_pos rfl]; exact up (lf _)
    · exact up (lf _)
    · exact up (lf _)
  · exact up (lf _)
  · exact up ⟨rfl, fun _ _ _ _ h => h⟩

theorem given_step {E : Env} {K : SessionKeys} {hs : List Happening} (x : Given (GivenIn E K hs) (worldAfter E K hs).client)
    (e : Happening) : Given (GivenIn E K (hs ++ [e])) (worldAfter E K (hs ++ [e])).client := by
  have x' := x.mono fun a n d r h => h.snoc e
  have hw : worldAfter E K (hs ++ [e]) = (worldAfter E K hs).step E K e := by simp [worldAfter, World.run]
  rw [hw]
  have joins : ∀ (c : Client) (pc : Pc), c.storage = (worldAfter E K hs).client.storage →
      (∀ a n d r, pc ≠ .delegationReplied a n d r) →
      Given (GivenIn E K (hs ++ [e])) ((worldAfter E K hs).client.start (c, pc)) := by
    intro c pc hst hpc
    refine ⟨fun a n d r hm => ?_, fun s h => x'.stored s (hst ▸ h)⟩
    rcases List.mem_append.mp hm with hm | hm
    · exact x'.replied a n d r hm
    · exact absurd (List.mem_singleton.mp hm).symm (hpc a n d r)
  have answered : ∀ j pc (r : Reply), (worldAfter E K hs).client.tasks[j]? = some pc →
      (∀ a n d, pc = .delegationSent a n d → GivenIn E K (hs ++ [e]) a n d r) → (∀ a n d q, pc ≠ .delegationReplied a n d q) →
      Given (GivenIn E K (hs ++ [e])) { (worldAfter E K hs).client with tasks := (worldAfter E K hs).client.tasks.set j (pc.answered r) } := by
    intro j pc r hpc h1 h2
    refine ⟨fun a n d q hm => ?_, x'.stored⟩
    rcases mem_set hm with hm | hm
    · cases pc <;> simp only [Pc.answered, Pc.delegationReplied.injEq, reduceCtorEq] at hm
      · obtain ⟨rfl, rfl, rfl, rfl⟩ := hm
        exact h1 _ _ _ rfl
      · exact absurd rfl (h2 _ _ _ _)
    · exact x'.replied a n d q hm
  cases e with
  | load =>
    refine ⟨fun a n d r hm => ?_, fun s h => x'.stored s ?_⟩
    · simp [World.step, Client.load, Client.construct] at hm
    · rw [← h]
      cases hc : (worldAfter E K hs).client.storage <;> simp [World.step, Client.load, Client.construct, hc]
  | create =>
    have k := create_keeps (worldAfter E K hs).client
    exact ⟨fun a n d r hm => x'.replied a n d r (k.1 ▸ hm), fun s h => x'.stored s (k.2.1 ▸ h)⟩
  | setWallet y => exact ⟨x'.replied, x'.stored⟩
  | inject y => exact ⟨x'.replied, x'.stored⟩
  | prepareLogin =>
    exact joins _ _ (setup_ctx _).2.1 (by intro a n d r h; cases h)
  | login =>
    simp only [World.step, Client.startLogin]
    split
    · exact joins _ _ rfl (by intro a n d r h; cases h)
    · split
      · exact joins _ _ rfl (by intro a n d r h; cases h)
      · exact joins _ _ (setup_ctx _).2.1 (by intro a n d r h; cases h)
  | clear => exact ⟨x'.replied, fun s h => by cases h⟩
  | resume i ans =>
    simp only [World.step]
    split
    · exact x'
    · next pc hpc =>
      have hm := List.mem_of_getElem? hpc
      obtain ⟨k1, k2⟩ := resume_given (worldAfter E K hs).client pc ans
      refine ⟨fun a n d r h => ?_, fun s h => ?_⟩
      · rcases mem_set h with h | h
        · exact x'.replied a n d r (k2 a n d r h.symm ▸ hm)
        · exact x'.replied a n d r h
      · rcases k1 with k1 | ⟨a, n, d, sd, rfl, k1⟩
        · exact x'.stored s (k1 ▸ h)
        · obtain rfl := Option.some.inj (k1.symm.trans h)
          exact ⟨d, sd, x'.replied _ _ _ _ hm, rfl⟩
  | execute i now cert =>
    simp only [World.step]
    split
    · exact x'
    · next pc hpc =>
      split
      · exact x'
      · next op hop =>
        refine answered i pc _ hpc (fun a n d h => ?_) (fun a n d q h => by subst h; cases hop)
        subst h
        cases hop
        exact ⟨hs, _, [], i, rfl, hpc, .inl ⟨now, cert, rfl, rfl⟩⟩
  | lagging i now cert seen =>
    simp only [World.step]
    split
    · exact x'
    · next pc hpc =>
      split
      · exact x'
      · next op hop =>
        refine answered i pc _ hpc (fun a n d h => ?_) (fun a n d q h => by subst h; cases hop)
        subst h
        cases hop
        exact ⟨hs, _, [], i, rfl, hpc, .inr ⟨now, cert, seen, rfl, rfl⟩⟩
  | other now op => exact ⟨x'.replied, x'.stored⟩

theorem given (E : Env) (K : SessionKeys) (hs : List Happening) : Given (GivenIn E K hs) (worldAfter E K hs).client := by
  have : ∀ l hs, Given (GivenIn E K hs) (worldAfter E K hs).client → Given (GivenIn E K (hs ++ l)) (worldAfter E K (hs ++ l)).client := by
    intro l
    induction l with
    | nil => intro hs x; rw [List.append_nil]; exact x
    | cons e l ih =>
      intro hs x
      have := ih _ (given_step x e)
      rwa [List.append_assoc, List.singleton_append] at this
  exact this hs [] ⟨by simp [worldAfter, World.run, World.initial, Client.load, Client.construct],
    by simp [worldAfter, World.run, World.initial, Client.load, Client.construct]⟩

theorem step_calls (E : Env) (K : SessionKeys) (w : World) (x : Happening) : ∃ h, (w.step E K x).calls = w.calls ++ h := by
  cases x with
  | execute i t cert =>
    simp only [World.step]
    split
    · exact ⟨[], (List.append_nil _).symm⟩
    · split
      · exact ⟨[], (List.append_nil _).symm⟩
      · exact ⟨_, rfl⟩
  | lagging i t cert seen =>
    simp only [World.step]
    split
    · exact ⟨[], (List.append_nil _).symm⟩
    · split <;> exact ⟨[], (List.append_nil _).symm⟩
  | resume i a =>
    simp only [World.step]
    split <;> exact ⟨[], (List.append_nil _).symm⟩
  | other t op => exact ⟨_, rfl⟩
  | _ => exact ⟨[], (List.append_nil _).symm⟩

theorem run_calls (E : Env) (K : SessionKeys) (hs : List Happening) : ∀ w : World, ∃ h, (w.run E K hs).calls = w.calls ++ h := by
  induction hs with
  | nil => exact fun w => ⟨[], (List.append_nil _).symm⟩
  | cons x hs ih =>
    intro w
    obtain ⟨h1, e1⟩ := step_calls E K w x
    obtain ⟨h2, e2⟩ := ih (w.step E K x)
    exact ⟨h1 ++ h2, by rw [← List.append_assoc, ← e1]; exact e2⟩

/-- Where the displayed identity comes from: a login in the calls so far; the delegation from a replica that had executed `before`;
unless that replica lagged behind, it had executed the login. -/
theorem displayed_given {E : Env} {K : SessionKeys} {hs : List Happening} {i : Identity}
    (h : (worldAfter E K hs).client.ctx.identity = some i) :
    ∃ before later t cert account d sd, (worldAfter E K hs).client.ctx.identityAddress = some account ∧
      (worldAfter E K hs).calls = before ++ later ∧
      (step (stateAfter E before) t (.getDelegation cert account (K i.session) d.expiration)).2 = .delegation sd ∧
      i.chain = createDelegationChain sd d.userCanisterPubkey ∧
      (∃ e ∈ trace E (worldAfter E K hs).calls, ∃ nonce, e.LogsIn account (K i.session) nonce d) ∧
      ((∀ j t c k, Happening.lagging j t c k ∉ hs) → ∃ later', later = (t, .getDelegation cert account (K i.session) d.expiration) :: later' ∧
        ∃ e ∈ trace E before, ∃ nonce, e.LogsIn account (K i.session) nonce d) := by
  have x := (worldOk E K hs).ctx
  have g := (given E K hs).stored
  have h' := x.identity
  rw [h] at h'
  obtain ⟨s, hs', hi⟩ := Option.map_eq_some_iff.mp h'.symm
  subst hi
  obtain ⟨d, sd, ⟨b, y, a, j, rfl, hj, hr⟩, hc⟩ := g s hs'
  have hb := (worldOk E K b).tasks _ (List.mem_of_getElem? hj)
  obtain ⟨⟨sig, p, _, _, e, he, h1, h2⟩, _⟩ := hb
  have hl : e.LogsIn s.address (K s.session) p.nonce d := ⟨⟨sig, h1⟩, h2⟩
  have hrun : worldAfter E K (b ++ y :: a) = World.run E K ((worldAfter E K b).step E K y) a := by simp [worldAfter, World.run]
  obtain ⟨h3, e3⟩ := run_calls E K a ((worldAfter E K b).step E K y)
  rw [← hrun] at e3
  have hadr : (worldAfter E K (b ++ y :: a)).client.ctx.identityAddress = some s.address := by rw [x.address, hs']; rfl
  rcases hr with ⟨t, cert, rfl, hr⟩ | ⟨t, cert, seen, rfl, hr⟩
  · have e4 : ((worldAfter E K b).step E K (.execute j t cert)).calls = (worldAfter E K b).calls ++
        [(t, .getDelegation cert s.address (K s.session) d.expiration)] := by simp only [World.step, hj, Pc.request]
    rw [e4, List.append_assoc] at e3
    exact ⟨_, _, t, cert, s.address, d, sd, hadr, e3, hr.symm, hc, ⟨e, by rw [e3]; exact mem_trace_append he, p.nonce, hl⟩,
      fun _ => ⟨_, rfl, e, he, p.nonce, hl⟩⟩
  · have e4 : ((worldAfter E K b).step E K (.lagging j t cert seen)).calls = (worldAfter E K b).calls := by
      simp only [World.step, hj, Pc.query]
    rw [e4] at e3
    refine ⟨(worldAfter E K b).calls.take seen, (worldAfter E K b).calls.drop seen ++ h3, t, cert, s.address, d, sd, hadr, ?_, hr.symm, hc,
      ⟨e, by rw [e3]; exact mem_trace_append he, p.nonce, hl⟩, fun hn => absurd (by simp) (hn j t cert seen)⟩
    rw [← List.append_assoc, List.take_append_drop]; exact e3

end Siwe
