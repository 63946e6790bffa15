import Verif.Model.Managers
import Verif.Spec.Client
/- Pages with several managers. -/
namespace Siwe.Spec

/-- The wallet the app has set last on each manager since the page was loaded. -/
def managerWallets (hs : List PageHappening) : List (Option Wallet) :=
  hs.foldl (fun l x => match x with
    | .load => [none]
    | .create => l ++ [none]
    | .setWallet j v => l.set j (some v)
    | _ => l) [none]

/-- The manager each call was made on, in the order of the calls since the page was loaded; there are as many managers as
`managerWallets` has entries. -/
def managerOfCalls (hs : List PageHappening) : List Nat :=
  (hs.foldl (fun s x => match x with
    | .load => (1, [])
    | .create => (s.1 + 1, s.2)
    | .prepareLogin j | .login j => if j < s.1 then (s.1, s.2 ++ [j]) else s
    | _ => s) ((1, []) : Nat × List Nat)).2

/-- The wallet injected into the page at some time since it was loaded. -/
def PageInjected (hs : List PageHappening) (v : Wallet) : Prop :=
  ∃ before after, hs = before ++ after ∧ .load ∉ after ∧
    before.foldl (fun o x => match x with | .inject u => u | _ => o) none = some v

end Siwe.Spec
