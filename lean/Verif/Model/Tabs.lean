import Verif.Model.Client
/-
Several pages of the app in the tabs of one browser.  Each tab has its own store, manager, wallet extension and running calls
(index.ts:47-61: the store is a module variable); local storage is shared (local-storage.ts:9: one key for the origin), and so are the
canister and the generator of session identities, which never gives the same identity twice.  The code listens to no `storage` events: a tab
reads local storage only when it is loaded (index.ts:72-90).
-/
namespace Siwe

/-- The tabs (index.ts:47-61 each), local storage (local-storage.ts:9), the number of generated session identities, the calls the canister
has executed and what the tabs have asked for.  The fields `storage` and `generated` of a tab are unused. -/
structure Browser where
  tabs : List Client
  storage : Option Stored
  generated : Nat
  calls : History
  log : List Output

/-- What a tab sees (index.ts:72-90 and 283-290 read and write the shared local storage). -/
def Browser.view (b : Browser) (c : Client) : World := ⟨{ c with storage := b.storage, generated := b.generated }, b.calls, b.log⟩

/-- What can happen next: a tab is opened (index.ts:72-90), closed, or something happens in it. -/
inductive TabHappening where
  | open_
  | close (j : Nat)
  | tab (j : Nat) (x : Happening)

/-- One step of the browser: of one tab, as in `World.step` (index.ts:72-321), on the shared local storage. -/
def Browser.step (E : Env) (K : SessionKeys) (b : Browser) : TabHappening → Browser
  | .open_ => { b with tabs := b.tabs ++ [Client.load ⟨.initial, b.storage, none, none, [], b.generated⟩] }
  | .close j => { b with tabs := b.tabs.eraseIdx j }
  | .tab j x =>
    match b.tabs[j]? with
    | none => b
    | some c =>
      let w := (b.view c).step E K x
      ⟨b.tabs.set j w.client, w.client.storage, w.client.generated, w.calls, w.log⟩

/-- No tab (local-storage.ts:9 with nothing stored), and a canister not yet installed. -/
def Browser.initial : Browser := ⟨[], none, 0, [], []⟩

/-- The browser after a sequence of happenings (index.ts:72-321 in each tab). -/
def Browser.run (E : Env) (K : SessionKeys) (b : Browser) (hs : List TabHappening) : Browser := hs.foldl (Browser.step E K) b

/-- The browser after a sequence of happenings from the beginning (index.ts:72-321 in each tab). -/
def browserAfter (E : Env) (K : SessionKeys) (hs : List TabHappening) : Browser := Browser.run E K .initial hs

end Siwe
