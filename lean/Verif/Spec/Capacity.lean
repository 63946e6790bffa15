import Verif.Spec.Trace
/- The load on a provider, as seen from the calls alone. -/
namespace Siwe.Spec

/-- Somebody tries to log in, with a well-formed address and signature. -/
def TriesLogin (E : Env) (op : Op) : Prop :=
  ∃ sig addr key nonce, op = .login sig addr key nonce ∧ IsAddress E.keccak addr ∧ HexString 130 sig

/-- The call asks for a sign-in message. -/
def asksMessage (op : Op) : Bool := match op with
  | .prepareLogin _ => true
  | _ => false

/-- The call asks for a login. -/
def asksLogin (op : Op) : Bool := match op with
  | .login _ _ _ _ => true
  | _ => false

/-- The requests for sign-in messages from `x` before to `p` after the time `t`. -/
def requestsAround (h : History) (t x p : Nat) : Nat :=
  h.countP fun y => asksMessage y.2 && decide (t ≤ y.1.toNat + x ∧ y.1.toNat ≤ t + p)

/-- The calls of `siwe_login` in the minute up to `t`. -/
def loginCallsInMinute (h : History) (t : Nat) : Nat :=
  h.countP fun y => asksLogin y.2 && decide (y.1.toNat ≤ t ∧ t < y.1.toNat + 60000000000)

/-- A load: the clock does not run backwards; installations and upgrades allow at most `x` for signing in; at every call somebody has
tried to log in within the last `p`, or the first call was not earlier than that; no more than `n` messages are requested in any period of
length `x + p`, and `siwe_login` is called no more than `k` times in any minute. -/
structure Load (E : Env) (h : History) (x p n k : Nat) : Prop where
  clock : h.Pairwise fun y z => y.1.toNat ≤ z.1.toNat
  signIn : ∀ y ∈ h, ∀ i, y.2 = .install i ∨ y.2 = .upgrade i → (i.signInExpiresIn.getD 300000000000).toNat ≤ x
  attempts : ∀ before y after, h = before ++ y :: after →
    (∃ a ∈ before ++ [y], TriesLogin E a.2 ∧ y.1.toNat ≤ a.1.toNat + p) ∨ ∀ a ∈ before, y.1.toNat ≤ a.1.toNat + p
  requests : ∀ t, requestsAround h t x p ≤ n
  logins : ∀ t, loginCallsInMinute h t ≤ k

end Siwe.Spec
