import Verif.Spec.Trace
/-
C126: what a signature authorises.
-/
namespace Siwe.Spec

/-- A signature is for one session key: where it logs in two, they are the same. -/
def BoundToKey (E : Env) : Prop :=
  ∀ (h : History) (now : UInt64) (sig addr key key' nonce : Bytes) (d d' : LoginDetails),
    (step (stateAfter E h) now (.login sig addr key nonce)).2 = .loggedIn d →
    (step (stateAfter E h) now (.login sig addr key' nonce)).2 = .loggedIn d' → key = key'

end Siwe.Spec
