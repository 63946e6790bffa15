import Verif.Model.Client
/-
A browser in which the app uses several provider canisters: two in one page, or another one after the app was changed. Every `SiweManager`
has its canister's id (index.ts:72-76), which its calls use (index.ts:147-152 and 246-251); the store (index.ts:54-61) and the entry in local
storage (local-storage.ts:9) do not tell canisters apart.

Simplification: running calls use the wallet client of the manager made last (as in Model/Client.lean; see Model/Managers.lean).
-/
namespace Siwe

/-- The page with its local storage, the canister of the manager made last, the canister of each call, and for each canister the calls it has
executed and what was asked for by calls of its managers (index.ts:63-76). -/
structure Canisters where
  client : Client
  current : Nat
  owners : List Nat
  calls : Nat → History
  log : Nat → List Output

/-- What can happen next. -/
inductive CanistersHappening where
  /-- the page is loaded (again), with a manager for the canister -/
  | load (k : Nat)
  /-- another manager is made in the same page, for the canister -/
  | create (k : Nat)
  | setWallet (w : Wallet)
  | inject (w : Option Wallet)
  /-- on the manager made last -/
  | prepareLogin
  | login
  | clear
  /-- what the `i`-th call awaits settles -/
  | resume (i : Nat) (a : Answer)
  /-- its canister executes the call that the `i`-th task has sent -/
  | execute (i : Nat) (now : UInt64) (certificate : Option Bytes)
  /-- a replica of its canister that has executed only the first `seen` calls answers the query that the `i`-th task has sent -/
  | lagging (i : Nat) (now : UInt64) (certificate : Option Bytes) (seen : Nat)
  /-- anything else happens at the canister -/
  | other (k : Nat) (now : UInt64) (op : Op)

/-- The page and one of the canisters (index.ts:63-76). -/
def Canisters.view (s : Canisters) (k : Nat) : World := ⟨s.client, s.calls k, s.log k⟩

/-- Something happens in the page and at one of the canisters, as in `World.step` (index.ts:72-321). -/
def Canisters.on (E : Nat → Env) (K : SessionKeys) (s : Canisters) (k : Nat) (x : Happening) : Canisters :=
  let w := (s.view k).step (E k) K x
  { s with
    client := w.client
    calls := fun j => if j = k then w.calls else s.calls j
    log := fun j => if j = k then w.log else s.log j }

/-- One step (index.ts:72-321); the canisters' parameters are given. -/
def Canisters.step (E : Nat → Env) (K : SessionKeys) (s : Canisters) : CanistersHappening → Canisters
  | .load k => { s.on E K k .load with current := k, owners := [] }
  | .create k => { s.on E K k .create with current := k }
  | .setWallet w => s.on E K s.current (.setWallet w)
  | .inject w => s.on E K s.current (.inject w)
  | .prepareLogin => { s.on E K s.current .prepareLogin with owners := s.owners ++ [s.current] }
  | .login => { s.on E K s.current .login with owners := s.owners ++ [s.current] }
  | .clear => s.on E K s.current .clear
  | .resume i a =>
    match s.owners[i]? with
    | none => s
    | some k => s.on E K k (.resume i a)
  | .execute i now certificate =>
    match s.owners[i]? with
    | none => s
    | some k => s.on E K k (.execute i now certificate)
  | .lagging i now certificate seen =>
    match s.owners[i]? with
    | none => s
    | some k => s.on E K k (.lagging i now certificate seen)
  | .other k now op => s.on E K k (.other now op)

/-- A page just loaded for the first time, with a manager for the canister `k`, and no canister installed yet (index.ts:47-90). -/
def Canisters.initial (k : Nat) : Canisters := ⟨Client.load ⟨.initial, none, none, none, [], 0⟩, k, [], fun _ => [], fun _ => []⟩

/-- The state after a sequence of happenings (index.ts:72-321). -/
def Canisters.run (E : Nat → Env) (K : SessionKeys) (s : Canisters) (hs : List CanistersHappening) : Canisters := hs.foldl (Canisters.step E K) s

/-- The state after a sequence of happenings from the beginning (index.ts:72-321). -/
def canistersAfter (E : Nat → Env) (K : SessionKeys) (k : Nat) (hs : List CanistersHappening) : Canisters := Canisters.run E K (.initial k) hs

end Siwe
