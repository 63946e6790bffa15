import Verif.Lemmas.Canisters
/- Property C130: whose identities a page displays when the app uses more than one provider canister. -/
namespace Siwe
open Spec

/-! ### Examples: the same happenings with the canister `k` -/

def Ex.atCanister (k : Nat) : Happening → CanistersHappening
  | .load => .load k
  | .create => .create k
  | .setWallet w => .setWallet w
  | .inject w => .inject w
  | .prepareLogin => .prepareLogin
  | .login => .login
  | .clear => .clear
  | .resume i a => .resume i a
  | .execute i t c => .execute i t c
  | .lagging i t c n => .lagging i t c n
  | .other t op => .other k t op

/-- A sign-in with the canister 0. -/
def Ex.signInAtZero : List CanistersHappening := Ex.signIn.map (Ex.atCanister 0)

/-- Everywhere the same parameters, whose values are immaterial. -/
def Ex.toys : Nat → Env := fun _ => Toy.env

/-! ### C130 -/

/-- C130: whatever identity a page displays was granted by one of the canisters that its managers, or those of earlier pages, were made
for: that canister accepted the account's login with the session's key and the account's signature of a text the canister itself had
issued, and the chain is the one it handed out for that login. -/
theorem C130_granted_by_a_used_canister (E : Nat → Env) (K : SessionKeys) (k : Nat) (hs : List CanistersHappening) (i : Identity)
    (h : (canistersAfter E K k hs).client.ctx.identity = some i) :
    let s := canistersAfter E K k hs
    ∃ account, s.client.ctx.identityAddress = some account ∧ s.client.ctx.delegationChain = some i.chain ∧
      ∃ j ∈ canistersUsed k hs, GrantedBy (E j) K (s.calls j) (s.log j) account i := by
  have x := canistersOk_run (E := E) (K := K) (U := (· ∈ canistersUsed k hs)) hs (canistersOk_initial E K (List.mem_cons_self ..))
    (fun j hj => List.mem_cons_of_mem _ hj)
  have h : (Canisters.run E K (.initial k) hs).client.ctx.identity = some i := h
  rw [x.mirrors.identity] at h
  obtain ⟨t, ht, rfl⟩ := Option.map_eq_some_iff.mp h
  obtain ⟨j, hj, ho⟩ := x.stored t ht
  refine ⟨t.address, ?_, ?_, j, hj, ho.granted⟩
  · show (Canisters.run E K (.initial k) hs).client.ctx.identityAddress = _
    rw [x.mirrors.address, ht]; rfl
  · show (Canisters.run E K (.initial k) hs).client.ctx.delegationChain = _
    rw [x.mirrors.chain, ht]; rfl

/-- Non-vacuity: after a sign-in with one of three canisters an identity is displayed. -/
example : (canistersAfter Ex.toys Ex.keys 2 (.create 1 :: .load 0 :: Ex.signInAtZero)).client.ctx.identity = some Ex.identity := by
  decide +kernel

/-- C130: the displayed identity changes to another one only when a `login()` gets its delegation, and then it was granted by the canister of the
manager that `login()` was called on, whichever managers were made since. -/
theorem C130_granted_by_the_logins_canister (E : Nat → Env) (K : SessionKeys) (k : Nat) (hs : List CanistersHappening) (e : CanistersHappening)
    (i : Identity) (h : (canistersAfter E K k (hs ++ [e])).client.ctx.identity = some i)
    (hn : (canistersAfter E K k hs).client.ctx.identity ≠ some i) :
    let s := canistersAfter E K k (hs ++ [e])
    ∃ n a j account, e = .resume n a ∧ (canistersAfter E K k hs).owners[n]? = some j ∧ s.client.ctx.identityAddress = some account ∧
      GrantedBy (E j) K (s.calls j) (s.log j) account i := by
  have y := canistersOk_run (E := E) (K := K) (U := fun _ => True) hs (canistersOk_initial E K (k := k) trivial) (fun _ _ => trivial)
  have x := canistersOk_step y e (fun _ _ => trivial)
  have q : canistersAfter E K k (hs ++ [e]) = (canistersAfter E K k hs).step E K e := by simp [canistersAfter, Canisters.run]
  have hm : (canistersAfter E K k hs).client.ctx.identity = _ := y.mirrors.identity
  have hm' : ((canistersAfter E K k hs).step E K e).client.ctx.identity = _ := x.mirrors.identity
  rw [q] at h ⊢
  rw [hm'] at h
  obtain ⟨t, ht, rfl⟩ := Option.map_eq_some_iff.mp h
  rcases canisters_new y e t ht with h1 | ⟨n, a, j, h1, h2, h3⟩
  · exact absurd (by rw [hm]; exact congrArg (Option.map _) h1) hn
  · refine ⟨n, a, j, t.address, h1, h2, ?_, h3.granted⟩
    have hm'' : ((canistersAfter E K k hs).step E K e).client.ctx.identityAddress = _ := x.mirrors.address
    rw [hm'']
    exact congrArg (Option.map _) ht

/-- Non-vacuity: the last of the happenings of a sign-in, in a page in which another manager was made meanwhile. -/
example :
    let hs := Ex.page.map (Ex.atCanister 0) ++ (Ex.fetches 0 Ex.alice 5).map (Ex.atCanister 0) ++ [CanistersHappening.create 1] ++
      ((Ex.finishes 0 Ex.aliceSig 100).map (Ex.atCanister 0)).take 5
    (canistersAfter Ex.toys Ex.keys 0 hs).client.ctx.identity = none ∧
    (canistersAfter Ex.toys Ex.keys 0 (hs ++ [.resume 0 .settled])).client.ctx.identity = some Ex.identity ∧
    (canistersAfter Ex.toys Ex.keys 0 hs).owners = [0] ∧ (canistersAfter Ex.toys Ex.keys 0 hs).current = 1 := by
  decide +kernel

/-- C130, as one would want it, is false: the store and the browser's local storage do not tell canisters apart. A user signs in with one
canister; the page is loaded again with a manager for another canister, which has not even been installed. It displays the identity that
the first canister granted, and has never accepted a login. -/
theorem C130_not_its_own : ¬ ShowsItsOwn Ex.toys Ex.keys := by
  intro h
  have hi : (canistersAfter Ex.toys Ex.keys 0 (Ex.signInAtZero ++ [.load 1])).client.ctx.identity = some Ex.identity := by decide +kernel
  unfold ShowsItsOwn at h
  have h' := h 0 (Ex.signInAtZero ++ [.load 1]) Ex.identity
  replace h' := h' hi
  obtain ⟨account, _, sig, nonce, d, hl, _⟩ := h'
  have hcur : (canistersAfter Ex.toys Ex.keys 0 (Ex.signInAtZero ++ [.load 1])).current = 1 := by decide +kernel
  have hlog : (canistersAfter Ex.toys Ex.keys 0 (Ex.signInAtZero ++ [.load 1])).log 1 = [] := by decide +kernel
  rw [hcur, hlog] at hl
  cases hl

/-- The same without loading the page again: a second manager is made in it. -/
theorem C130_not_its_own_in_one_page :
    let s := canistersAfter Ex.toys Ex.keys 0 (Ex.signInAtZero ++ [.create 1])
    s.client.ctx.identity = some Ex.identity ∧ s.current = 1 ∧ s.calls 1 = [] ∧ s.log 1 = [] := by
  decide +kernel

/-- C130, proved part: the identity was granted by the current manager's canister if all managers, in this page and in earlier ones, were
made for the same canister. Missing: apps with more than one canister, for which it is false (above). -/
theorem C130_one_canister_partial (E : Nat → Env) (K : SessionKeys) (k : Nat) (hs : List CanistersHappening) (i : Identity)
    (hk : ∀ j ∈ canistersUsed k hs, j = k) (h : (canistersAfter E K k hs).client.ctx.identity = some i) :
    let s := canistersAfter E K k hs
    s.current = k ∧ ∃ account, s.client.ctx.identityAddress = some account ∧ GrantedBy (E s.current) K (s.calls s.current) (s.log s.current) account i := by
  have x := canistersOk_run (E := E) (K := K) (U := (· = k)) hs (canistersOk_initial E K rfl)
    (fun j hj => hk j (List.mem_cons_of_mem _ hj))
  have hc : (canistersAfter E K k hs).current = k := x.current
  obtain ⟨account, h1, _, j, hj, h2⟩ := C130_granted_by_a_used_canister E K k hs i h
  refine ⟨hc, account, h1, ?_⟩
  rw [hk j hj] at h2
  rw [hc]
  exact h2

/-- Non-vacuity: one canister, and the page is loaded again after the sign-in. -/
example : (∀ j ∈ canistersUsed 0 (Ex.signInAtZero ++ [.load 0, .create 0]), j = 0) ∧
    (canistersAfter Ex.toys Ex.keys 0 (Ex.signInAtZero ++ [.load 0, .create 0])).client.ctx.identity = some Ex.identity := by
  decide +kernel

/-- C130, proved part: a sign-out while no login is running separates canisters: whatever is displayed later was granted by the canister of
the manager that signed out or by one that a manager was made for since. So an app that changes to another canister gets identities of that
canister only, if it signs the user out first. Missing: apps that do not. -/
theorem C130_after_sign_out_partial (E : Nat → Env) (K : SessionKeys) (k : Nat) (before after : List CanistersHappening) (i : Identity)
    (hr : ∀ pc ∈ (canistersAfter E K k before).client.tasks, RunningLogin pc = false)
    (h : (canistersAfter E K k (before ++ .clear :: after)).client.ctx.identity = some i) :
    let s := canistersAfter E K k (before ++ .clear :: after)
    ∃ account, s.client.ctx.identityAddress = some account ∧
      ∃ j ∈ canistersUsed (canistersAfter E K k before).current after, GrantedBy (E j) K (s.calls j) (s.log j) account i := by
  have y := canistersOk_run (E := E) (K := K) (U := fun _ => True) before (canistersOk_initial E K (k := k) trivial) (fun _ _ => trivial)
  have z : CanistersOk E K (fun _ => True) ((canistersAfter E K k before).step E K .clear) := canistersOk_step y .clear (fun _ _ => trivial)
  have x0 : CanistersOk E K (· ∈ canistersUsed (canistersAfter E K k before).current after) ((canistersAfter E K k before).step E K .clear) := by
    refine ⟨List.mem_cons_self .., z.lengths, z.calls, fun n pc j hn _ hp => ?_, (fun t ht => by cases ht), z.mirrors⟩
    have := hr pc (List.mem_of_getElem? hn)
    rw [hp] at this
    cases this
  have x := canistersOk_run after x0 (fun j hj => List.mem_cons_of_mem _ hj)
  have e : canistersAfter E K k (before ++ .clear :: after) = Canisters.run E K ((canistersAfter E K k before).step E K .clear) after := by
    simp [canistersAfter, Canisters.run]
  rw [e] at h ⊢
  rw [x.mirrors.identity] at h
  obtain ⟨t, ht, rfl⟩ := Option.map_eq_some_iff.mp h
  obtain ⟨j, hj, ho⟩ := x.stored t ht
  refine ⟨t.address, ?_, j, hj, ho.granted⟩
  rw [x.mirrors.address, ht]; rfl

/-- Without the proviso it is false: a login with the canister 0 is running when a manager for the canister 1 is made, which signs the user
out. The login then finishes, and the page displays the identity that the canister 0 granted, although since the sign-out only the manager for
the canister 1 was there to be used, whose canister was never called. -/
theorem C130_running_login :
    let before := Ex.page.map (Ex.atCanister 0) ++ (Ex.fetches 0 Ex.alice 5).map (Ex.atCanister 0) ++ [CanistersHappening.create 1]
    let after := (Ex.finishes 0 Ex.aliceSig 100).map (Ex.atCanister 0)
    let s := canistersAfter Ex.toys Ex.keys 0 (before ++ .clear :: after)
    s.client.ctx.identity = some Ex.identity ∧ canistersUsed (canistersAfter Ex.toys Ex.keys 0 before).current after = [1] ∧
      s.calls 1 = [] ∧ s.log 1 = [] := by
  decide +kernel

/-- Non-vacuity: signed in with the canister 0, signed out, then signed in with the canister 1. -/
example :
    (∀ pc ∈ (canistersAfter Ex.toys Ex.keys 0 (Ex.signInAtZero ++ [.load 1])).client.tasks, RunningLogin pc = false) ∧
    (canistersAfter Ex.toys Ex.keys 0 ((Ex.signInAtZero ++ [.load 1]) ++ .clear :: Ex.signIn.map (Ex.atCanister 1))).client.ctx.identity.isSome = true ∧
    canistersUsed (canistersAfter Ex.toys Ex.keys 0 (Ex.signInAtZero ++ [.load 1])).current (Ex.signIn.map (Ex.atCanister 1)) = [1] := by
  decide +kernel

end Siwe
