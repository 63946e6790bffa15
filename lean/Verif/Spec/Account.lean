import Verif.Spec.Request
/- What the owner of an Ethereum account is promised. -/
namespace Siwe.Spec

/-- The owner of the account signed in for the request, not long ago: the canister issued a text to the address, at most `x` ago; the
address's wallet signed it; with that signature somebody logged in, for the session key that the request's first delegation is for; and the
canister the request calls is among the targets configured then. -/
def SignedInFor (E : Env) (es : List Event) (addr : Bytes) (x : Nat) (now : UInt64) (r : Request) : Prop :=
  ∃ before login after issue sig session nonce text ld d rest s p, es = before ++ login :: after ∧ issue ∈ before ∧
    issue.Issues addr nonce text ∧ now.toNat ≤ issue.time.toNat + x ∧ Signs E sig text addr ∧
    login.call = .login sig addr session nonce ∧ login.reply = .loggedIn ld ∧
    r.chain = d :: rest ∧ d.delegation.pubkey = session ∧ InForce E before s p ∧ ∀ ts, s.targets = some ts → r.canister ∈ ts

/-- Hash collisions by which a request could be accepted for the address nevertheless: one in the request; its key and the address's; the
identities of the address and of somebody who logged in; or the keys under which an issued message is stored and one is sought that the
address logged in with. -/
def AccountCollision (E : Env) (i : SettingsInput) (h : History) (addr : Bytes) (r : Request) : Prop :=
  RequestCollision E h r ∨ Collision E.sha224 (keyOf E i addr) r.key ∨
  (∃ e ∈ trace E h, ∃ a key nonce ld, e.LogsIn a key nonce ld ∧ Collision E.sha256 (identityOf i a) (identityOf i addr)) ∨
  ∃ e ∈ trace E h, ∃ e' ∈ trace E h, ∃ a nonce text key nonce' ld, e.Issues a nonce text ∧ e'.LogsIn addr key nonce' ld ∧
    KeyCollision E addr nonce' a nonce

/-- Sessions are configured to last at most `x`. -/
def SessionsLast (h : History) (x : Nat) : Prop :=
  ∀ y ∈ h, ∀ i, y.2 = .install i ∨ y.2 = .upgrade i → (i.sessionExpiresIn.getD 1800000000000).toNat ≤ x

end Siwe.Spec
