import Verif.Spec.Settles
import Verif.Props.ClientMore
/- Property C73: every call settles, and only once. -/
namespace Siwe
open Spec

/-- How many waits are left at most. -/
def Pc.rank : Pc → Nat
  | .loginWallet _ => 15
  | .loginAddresses => 14
  | .prepWallet _ _ => 13
  | .prepAddresses _ => 12
  | .prepActor _ _ => 11
  | .prepSent _ _ => 10
  | .prepReplied _ _ _ => 9
  | .loginPrepared _ _ => 8
  | .loginPrepareFailed _ => 7
  | .signing _ _ => 6
  | .loginActor _ _ _ _ => 5
  | .loginSent _ _ _ _ => 4
  | .loginReplied _ _ _ _ _ => 3
  | .delegationSent _ _ _ => 2
  | .delegationReplied _ _ _ _ => 1
  | .prepared _ | .loggedIn _ | .failed _ => 0

theorem rank_zero {pc : Pc} : pc.rank = 0 ↔ Running pc = false := by cases pc <;> simp [Pc.rank, Running]

theorem prepareFails_rank (c : Client) (f : Option Bytes) (e : ClientError) : (c.prepareFails f e).2.1.rank ≤ 7 := by
  cases f <;> simp [Client.prepareFails, Pc.rank]

theorem requestSignature_rank (c : Client) (a : Bytes) (p : PrepareLoginOkResponse) : (c.requestSignature a p).2.1.rank = 6 := rfl

/-- An answer changes nothing or leaves fewer waits; one that ends the wait leaves fewer. -/
theorem resume_rank (c : Client) (pc : Pc) (a : Answer) : (c.resume pc a).2.1 = pc ∨ (c.resume pc a).2.1.rank < pc.rank := by
  have hp : ∀ f e n, 7 < n → (c.prepareFails f e).2.1.rank < n := fun f e n h => Nat.lt_of_le_of_lt (prepareFails_rank c f e) h
  unfold Client.resume
  split
  · exact .inr (by simp [Pc.rank])
  · exact .inr (hp _ _ _ (by simp [Pc.rank]))
  · right
    unfold Client.prepareWith
    split
    · exact hp _ _ _ (by simp [Pc.rank])
    · split
      · exact hp _ _ _ (by simp [Pc.rank])
      · simp [Pc.rank]
  · exact .inr (hp _ _ _ (by simp [Pc.rank]))
  · exact .inr (by simp [Pc.rank])
  · exact .inr (hp _ _ _ (by simp [Pc.rank]))
  · exact .inr (hp _ _ _ (by simp [Pc.rank]))
  · right
    unfold Client.prepareReply
    split
    · next f _ _ _ => cases f <;> simp [Pc.rank]
    · exact hp _ _ _ (by simp [Pc.rank])
    · exact hp _ _ _ (by simp [Pc.rank])
  · exact .inr (hp _ _ _ (by simp [Pc.rank]))
  · exact .inr (by simp [Pc.rank])
  · exact .inr (by simp [Client.loginFails, Pc.rank])
  · right
    unfold Client.loginWith
    split
    · simp [Client.loginFails, Pc.rank]
    · split
      · simp [Client.loginFails, Pc.rank]
      · split
        · simp [Client.requestSignature, Pc.rank]
        · simp [Client.startPrepareLogin, Pc.rank]
  · exact .inr (by simp [Client.loginFails, Pc.rank])
  · exact .inr (by simp [Client.requestSignature, Pc.rank])
  · exact .inr (by simp [Client.loginFails, Pc.rank])
  · right
    unfold Client.signed
    split <;> simp [Client.signatureFails, Client.loginFails, Pc.rank]
  · exact .inr (by simp [Client.signatureFails, Client.loginFails, Pc.rank])
  · exact .inr (by simp [Pc.rank])
  · exact .inr (by simp [Client.loginFails, Pc.rank])
  · exact .inr (by simp [Client.loginFails, Pc.rank])
  · right
    unfold Client.loginReply
    split <;> simp [Client.loginFails, Pc.rank]
  · exact .inr (by simp [Client.loginFails, Pc.rank])
  · exact .inr (by simp [Client.loginFails, Pc.rank])
  · right
    unfold Client.delegationReply
    split
    · rw [if_neg (by simp)]; simp [Pc.rank]
    · simp [Client.loginFails, Pc.rank]
    · simp [Client.loginFails, Pc.rank]
  · right
    unfold Client.delegationReply
    split <;> simp [Client.loginFails, Pc.rank]
  · exact .inr (by simp [Client.loginFails, Pc.rank])
  · exact .inl rfl

/-- A settled call ignores every answer. -/
theorem resume_settled {c : Client} {pc : Pc} (h : Running pc = false) (a : Answer) : (c.resume pc a).2.1 = pc := by
  rcases resume_rank c pc a with h1 | h1
  · exact h1
  · rw [rank_zero.mpr h] at h1; omega

theorem step_rank {E : Env} {K : SessionKeys} {i : Nat} {pc : Pc} {w : World} (h : w.client.tasks[i]? = some pc) {x : Happening}
    (hx : x ≠ .load) : ∃ pc', (w.step E K x).client.tasks[i]? = some pc' ∧ (pc' = pc ∨ pc'.rank < pc.rank) := by
  by_cases hl : Leaves i x = true
  · exact ⟨pc, task_left h hl, .inl rfl⟩
  · have hi : i < w.client.tasks.length := (List.getElem?_eq_some_iff.mp h).1
    cases x with
    | resume j a =>
      simp only [Leaves, bne_iff_ne, ne_eq, Decidable.not_not] at hl
      subst hl
      refine ⟨_, ?_, resume_rank w.client pc a⟩
      simp only [World.step, h]
      rw [List.getElem?_set_self hi]
    | execute j now cert =>
      simp only [Leaves, bne_iff_ne, ne_eq, Decidable.not_not] at hl
      subst hl
      simp only [World.step, h]
      split
      · exact ⟨pc, h, .inl rfl⟩
      · next op ho =>
        refine ⟨_, by rw [List.getElem?_set_self hi], .inr ?_⟩
        cases pc <;> simp [Pc.request] at ho <;> simp [Pc.answered, Pc.rank]
    | lagging j now cert seen =>
      simp only [Leaves, bne_iff_ne, ne_eq, Decidable.not_not] at hl
      subst hl
      simp only [World.step, h]
      split
      · exact ⟨pc, h, .inl rfl⟩
      · next op ho =>
        refine ⟨_, by rw [List.getElem?_set_self hi], .inr ?_⟩
        cases pc <;> simp [Pc.query] at ho <;> simp [Pc.answered, Pc.rank]
    | load => exact absurd rfl hx
    | _ => exact absurd rfl hl

/-- Ending a wait leaves fewer. -/
theorem endsWait_rank {E : Env} {K : SessionKeys} {i : Nat} {pc : Pc} {w : World} (h : w.client.tasks[i]? = some pc)
    (hr : Running pc = true) {x : Happening} (hx : EndsWait i (waitsFor pc) x) :
    ∃ pc', (w.step E K x).client.tasks[i]? = some pc' ∧ pc'.rank < pc.rank := by
  have hi : i < w.client.tasks.length := (List.getElem?_eq_some_iff.mp h).1
  have hne : x ≠ .load := by
    rintro rfl
    cases pc <;> simp [waitsFor, EndsWait] at hx
  have moves : ∀ a, EndsWait i (waitsFor pc) (.resume i a) → (w.client.resume pc a).2.1 ≠ pc := by
    intro a ha he
    have hp : ∀ f e, (w.client.prepareFails f e).2.1 ≠ pc ∨ ∃ e, pc = .loginPrepareFailed e ∨ pc = .failed e := by
      intro f e
      by_cases q : (w.client.prepareFails f e).2.1 = pc
      · right
        rw [← q]
        cases f
        · exact ⟨e, .inr rfl⟩
        · exact ⟨e, .inl rfl⟩
      · exact .inl q
    unfold Client.resume at he
    split at he
    all_goals first
      | (cases he; done)
      | exact ((hp _ _).elim (fun q => q he) (fun ⟨_, q⟩ => q.elim nofun nofun))
      | skip
    · unfold Client.prepareWith at he
      split at he
      · exact ((hp _ _).elim (fun q => q he) (fun ⟨_, q⟩ => q.elim nofun nofun))
      · split at he
        · exact ((hp _ _).elim (fun q => q he) (fun ⟨_, q⟩ => q.elim nofun nofun))
        · cases he
    · unfold Client.prepareReply at he
      split at he
      · simp only at he; split at he <;> cases he
      · exact ((hp _ _).elim (fun q => q he) (fun ⟨_, q⟩ => q.elim nofun nofun))
      · exact ((hp _ _).elim (fun q => q he) (fun ⟨_, q⟩ => q.elim nofun nofun))
    · unfold Client.loginWith at he
      split at he
      · cases he
      · split at he
        · cases he
        · split at he <;> cases he
    · unfold Client.signed at he
      split at he <;> cases he
    · unfold Client.loginReply at he
      split at he <;> cases he
    · unfold Client.delegationReply at he
      split at he
      · rw [if_neg (by simp)] at he; cases he
      · cases he
      · cases he
    · unfold Client.delegationReply at he
      split at he <;> cases he
    · clear hp he h hx hne
      cases pc with
      | prepWallet f b => cases b <;> cases a <;> first | (simp [waitsFor, EndsWait] at ha; done) | (simp_all; done)
      | loginWallet b => cases b <;> cases a <;> first | (simp [waitsFor, EndsWait] at ha; done) | (simp_all; done)
      | prepared _ => cases hr
      | loggedIn _ => cases hr
      | failed _ => cases hr
      | _ => cases a <;> first | (simp [waitsFor, EndsWait] at ha; done) | (simp_all; done) | (simp_all; rename_i z; apply z <;> rfl)
  obtain ⟨pc', h1, h2 | h2⟩ := step_rank (E := E) (K := K) h hne
  · exfalso
    subst h2
    have hres : ∀ a, x = .resume i a → False := by
      rintro a rfl
      refine moves a hx ?_
      simp only [World.step, h] at h1
      rw [List.getElem?_set_self hi] at h1
      exact Option.some.inj h1
    have hexe : ∀ now cert, x = .execute i now cert → waitsFor pc' = .canister → False := by
      rintro now cert rfl hc
      simp only [World.step, h] at h1
      cases pc' <;> simp [waitsFor] at hc <;> simp only [Pc.request] at h1 <;> rw [List.getElem?_set_self hi] at h1 <;>
        simp [Pc.answered] at h1
    cases hw : waitsFor pc' with
    | accounts =>
      rw [hw] at hx
      rcases hx with ⟨l, q⟩ | q <;> exact hres _ q
    | signature =>
      rw [hw] at hx
      rcases hx with ⟨l, q⟩ | q <;> exact hres _ q
    | canister =>
      rw [hw] at hx
      rcases hx with ⟨now, cert, q⟩ | q
      · exact hexe _ _ q hw
      · exact hres _ q
    | page =>
      rw [hw] at hx
      exact hres _ hx
  · exact ⟨pc', h1, h2⟩

/-! ### C73 -/

theorem callAt_rank {E : Env} {K : SessionKeys} {w : World} {schedule : Nat → Happening} (hn : ∀ n, schedule n ≠ .load) {i n : Nat}
    {pc : Pc} (h : callAt E K w schedule i n = some pc) (k : Nat) :
    ∃ pc', callAt E K w schedule i (n + k) = some pc' ∧ (pc' = pc ∨ pc'.rank < pc.rank) := by
  induction k with
  | zero => exact ⟨pc, h, .inl rfl⟩
  | succ k ih =>
    obtain ⟨pc', h1, h2⟩ := ih
    obtain ⟨pc'', h3, h4⟩ := step_rank (E := E) (K := K) h1 (hn (n + k))
    refine ⟨pc'', h3, ?_⟩
    rcases h2 with rfl | h2 <;> rcases h4 with rfl | h4
    · exact .inl rfl
    · exact .inr h4
    · exact .inr h2
    · exact .inr (Nat.lt_trans h4 h2)

/-- C73: as long as the page is not loaded again, if every wait of a call of `prepareLogin()` or `login()` ends at some time, whatever else
happens, then its promise settles at some time. -/
theorem C73_every_call_settles (E : Env) (K : SessionKeys) (w : World) (schedule : Nat → Happening) (hn : ∀ n, schedule n ≠ .load)
    (i n : Nat) (pc : Pc) (h : callAt E K w schedule i n = some pc) (hf : Fair E K w schedule i) :
    ∃ m pc', n ≤ m ∧ callAt E K w schedule i m = some pc' ∧ Running pc' = false := by
  have key : ∀ r pc n, callAt E K w schedule i n = some pc → pc.rank ≤ r →
      ∃ m pc', n ≤ m ∧ callAt E K w schedule i m = some pc' ∧ Running pc' = false := by
    intro r
    induction r with
    | zero => exact fun pc n h hr => ⟨n, pc, Nat.le_refl n, h, rank_zero.mp (Nat.le_zero.mp hr)⟩
    | succ r ih =>
      intro pc n h hr
      cases hrun : Running pc with
      | false => exact ⟨n, pc, Nat.le_refl n, h, hrun⟩
      | true =>
        obtain ⟨m, hm, he⟩ := hf n pc h hrun
        obtain ⟨k, rfl⟩ := Nat.le.dest hm
        obtain ⟨pc', h1, h2⟩ := callAt_rank hn h k
        have h3 : pc'.rank ≤ pc.rank := by rcases h2 with rfl | h2 <;> omega
        cases hrun' : Running pc' with
        | false => exact ⟨n + k, pc', hm, h1, hrun'⟩
        | true =>
          obtain ⟨pc'', h4, h5⟩ := endsWait_rank (E := E) (K := K) h1 hrun' (he pc' h1)
          obtain ⟨m', q, hm', h6⟩ := ih pc'' (n + k + 1) h4 (by omega)
          exact ⟨m', q, by omega, h6⟩
  exact key _ pc n h (Nat.le_refl _)

/-- C73: a promise that has settled stays as it is, whatever happens short of a new page load. -/
theorem C73_settles_once (E : Env) (K : SessionKeys) (w : World) (hs : List Happening) (hn : .load ∉ hs) (i : Nat) (pc : Pc)
    (h : w.client.tasks[i]? = some pc) (hp : Running pc = false) : (w.run E K hs).client.tasks[i]? = some pc := by
  induction hs generalizing w with
  | nil => exact h
  | cons x hs ih =>
    obtain ⟨pc', h1, h2⟩ := step_rank (E := E) (K := K) h (x := x) (fun q => hn (q ▸ List.mem_cons_self))
    refine ih (w.step E K x) (fun q => hn (List.mem_cons_of_mem _ q)) ?_
    rcases h2 with rfl | h2
    · exact h1
    · rw [rank_zero.mpr hp] at h2; omega

/-- The example's login as a schedule: what ends the waits of its only call, then nothing of interest. -/
def Ex.schedule (n : Nat) : Happening :=
  ((Ex.fetches 0 Ex.alice 5 ++ Ex.finishes 0 Ex.aliceSig 100)[n]?).getD (.inject none)

/-- `EndsWait`, computed for the example's call. -/
def Ex.endsWait : Wait → Happening → Bool
  | .accounts, .resume 0 (.addresses _) | .signature, .resume 0 (.signature _) | .canister, .execute 0 _ _ | .page, .resume 0 .settled => true
  | _, _ => false

theorem Ex.endsWait_sound {v : Wait} {x : Happening} (h : Ex.endsWait v x = true) : EndsWait 0 v x := by
  unfold Ex.endsWait at h
  split at h
  · exact .inl ⟨_, rfl⟩
  · exact .inl ⟨_, rfl⟩
  · exact .inl ⟨_, _, rfl⟩
  · rfl
  · cases h

theorem Ex.schedule_no_load (n : Nat) : Ex.schedule n ≠ .load := by
  by_cases h : n < 15
  · have : ∀ k < 15, (match Ex.schedule k with | .load => false | _ => true) = true := by decide
    intro q
    have := this n h
    rw [q] at this
    cases this
  · rw [Ex.schedule, List.getElem?_eq_none (by simp only [Ex.fetches, Ex.finishes, List.length_append, List.length_cons, List.length_nil]; omega)]
    exact nofun

/-- Non-vacuity: the schedule is fair to that call, which settles. -/
example : callAt Toy.env Ex.keys (worldAfter Toy.env Ex.keys Ex.page) Ex.schedule 0 1 = some (.loginWallet true) ∧
    callAt Toy.env Ex.keys (worldAfter Toy.env Ex.keys Ex.page) Ex.schedule 0 15 = some (.loggedIn Ex.identity) ∧
    Fair Toy.env Ex.keys (worldAfter Toy.env Ex.keys Ex.page) Ex.schedule 0 := by
  have h15 : callAt Toy.env Ex.keys (worldAfter Toy.env Ex.keys Ex.page) Ex.schedule 0 15 = some (.loggedIn Ex.identity) := by
    decide +kernel
  refine ⟨by decide +kernel, h15, ?_⟩
  intro n pc h hr
  by_cases hn : n < 15
  · have all : ∀ n < 15, (match callAt Toy.env Ex.keys (worldAfter Toy.env Ex.keys Ex.page) Ex.schedule 0 n with
        | some pc => Ex.endsWait (waitsFor pc) (Ex.schedule n)
        | none => true) = true := by decide +kernel
    refine ⟨n, Nat.le_refl n, fun pc' h' => Ex.endsWait_sound ?_⟩
    have := all n hn
    rwa [h'] at this
  · exfalso
    obtain ⟨k, rfl⟩ := Nat.le.dest (Nat.le_of_not_lt hn)
    obtain ⟨pc', h1, h2⟩ := callAt_rank (E := Toy.env) (K := Ex.keys) Ex.schedule_no_load h15 k
    rw [h] at h1
    cases h1
    rcases h2 with rfl | h2
    · cases hr
    · simp [Pc.rank] at h2

end Siwe
