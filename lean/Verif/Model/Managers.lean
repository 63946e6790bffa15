import Verif.Model.Client
/-
A page with several managers.  Every `SiweManager` has a wallet client of its own (index.ts:64) and all work on one store (index.ts:54-61,
a module variable).  The React provider makes another manager whenever one of its options is a new object (react/index.tsx:26-29), the Vue
provider whenever it is created (vue/index.ts:16-20), and calls of the former managers go on, each with its own manager's wallet client.
-/
namespace Siwe

/-- The page: the store, local storage and the calls of all managers (index.ts:54-61; the field for the wallet client is unused), the wallet
client of each manager (index.ts:64), and for each call the manager it was made on. -/
structure Page where
  world : World
  wallets : List (Option Wallet)
  owners : List Nat

/-- What can happen next. -/
inductive PageHappening where
  /-- the page is loaded again and makes its first manager -/
  | load
  /-- another manager is made -/
  | create
  /-- the app calls the `j`-th manager -/
  | setWallet (j : Nat) (w : Wallet)
  | prepareLogin (j : Nat)
  | login (j : Nat)
  | clear (j : Nat)
  /-- `window.ethereum` appears or disappears -/
  | inject (w : Option Wallet)
  /-- what the `i`-th call awaits settles -/
  | resume (i : Nat) (a : Answer)
  /-- the canister executes the call that the `i`-th task has sent -/
  | execute (i : Nat) (now : UInt64) (certificate : Option Bytes)
  /-- a replica that has executed only the first `seen` calls answers the query that the `i`-th task has sent -/
  | lagging (i : Nat) (now : UInt64) (certificate : Option Bytes) (seen : Nat)
  /-- anything else happens at the canister -/
  | other (now : UInt64) (op : Op)

/-- What a manager with the wallet client `v` sees (index.ts:64). -/
def World.withWallet (w : World) (v : Option Wallet) : World := { w with client := { w.client with wallet := v } }

/-- Something happens in the `j`-th manager: `x`, as in `World.step` (index.ts:95-321); `new` are the managers of new calls. -/
def Page.on (E : Env) (K : SessionKeys) (p : Page) (j : Nat) (x : Happening) (new : List Nat) : Page :=
  match p.wallets[j]? with
  | none => p
  | some v =>
    ⟨(p.world.withWallet v).step E K x, p.wallets.set j ((p.world.withWallet v).step E K x).client.wallet, p.owners ++ new⟩

/-- One step of the page (index.ts:72-321). -/
def Page.step (E : Env) (K : SessionKeys) (p : Page) : PageHappening → Page
  | .load => ⟨p.world.step E K .load, [none], []⟩
  | .create => ⟨p.world.step E K .create, p.wallets ++ [none], p.owners⟩
  | .setWallet j w => p.on E K j (.setWallet w) []
  | .prepareLogin j => p.on E K j .prepareLogin [j]
  | .login j => p.on E K j .login [j]
  | .clear j => p.on E K j .clear []
  | .inject w => { p with world := p.world.step E K (.inject w) }
  | .resume i a =>
    match p.owners[i]? with
    | none => p
    | some j => p.on E K j (.resume i a) []
  | .execute i t c => { p with world := p.world.step E K (.execute i t c) }
  | .lagging i t c n => { p with world := p.world.step E K (.lagging i t c n) }
  | .other t op => { p with world := p.world.step E K (.other t op) }

/-- A page just loaded for the first time, with one manager (index.ts:47-90), and a canister not yet installed. -/
def Page.initial : Page := ⟨.initial, [none], []⟩

/-- The page after a sequence of happenings (index.ts:72-321). -/
def Page.run (E : Env) (K : SessionKeys) (p : Page) (hs : List PageHappening) : Page := hs.foldl (Page.step E K) p

/-- The page after a sequence of happenings from the beginning (index.ts:72-321). -/
def pageAfter (E : Env) (K : SessionKeys) (hs : List PageHappening) : Page := Page.run E K .initial hs

end Siwe
