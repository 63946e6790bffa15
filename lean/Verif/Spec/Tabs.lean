import Verif.Model.Tabs
import Verif.Spec.Client
/- Several tabs of one browser. -/
namespace Siwe.Spec

/-- With `x`, a `login()` of some tab gets its result, the identity `i`. -/
def Resolves (E : Env) (K : SessionKeys) (b : Browser) (x : TabHappening) (i : Identity) : Prop :=
  ∃ (j : Nat) (y : Happening) (n : Nat) (c c' : Client), x = .tab j y ∧ b.tabs[j]? = some c ∧ (b.step E K x).tabs[j]? = some c' ∧
    c'.tasks[n]? = some (Pc.loggedIn i) ∧ c.tasks[n]? ≠ some (Pc.loggedIn i)

/-- `x` calls `clear()` in some tab. -/
def SignsOut (b : Browser) (x : TabHappening) : Prop := ∃ (j : Nat) (c : Client), x = .tab j .clear ∧ b.tabs[j]? = some c

/-- Who is signed in after a history of the browser: the identity of the last login in any tab, unless some tab signed out since. -/
inductive Standing (E : Env) (K : SessionKeys) : List TabHappening → Option Identity → Prop
  | start : Standing E K [] none
  | signIn (hs : List TabHappening) (x : TabHappening) (i : Identity) :
      Resolves E K (browserAfter E K hs) x i → Standing E K (hs ++ [x]) (some i)
  | signOut (hs : List TabHappening) (x : TabHappening) : SignsOut (browserAfter E K hs) x → Standing E K (hs ++ [x]) none
  | other (hs : List TabHappening) (x : TabHappening) (o : Option Identity) : Standing E K hs o →
      (∀ i, ¬Resolves E K (browserAfter E K hs) x i) → ¬SignsOut (browserAfter E K hs) x → Standing E K (hs ++ [x]) o

/-- The tab displays `o`: the identity with an account and its chain, or nobody. -/
def Displays (c : Client) (o : Option Identity) : Prop :=
  c.ctx.identity = o ∧ c.ctx.delegationChain = o.map (·.chain) ∧ c.ctx.identityAddress.isSome = o.isSome

end Siwe.Spec
