import Verif.Model.Canisters
import Verif.Spec.Client
/- Vocabulary for apps that use several provider canisters. -/
namespace Siwe.Spec

/-- The canister a manager is made for. -/
def _root_.Siwe.CanistersHappening.canister? : CanistersHappening → Option Nat
  | .load k | .create k => some k
  | _ => none

/-- The canisters managers were made for. -/
def canistersUsed (k : Nat) (hs : List CanistersHappening) : List Nat := k :: hs.filterMap (·.canister?)

/-- The canister granted the page this identity for the account: it accepted a login of the account with the session's public key and a
signature by the account of a text that it had issued (or storage keys of messages collide), and the identity's chain is the canister's. -/
def GrantedBy (E : Env) (K : SessionKeys) (calls : History) (log : List Output) (account : Bytes) (i : Identity) : Prop :=
  ∃ sig nonce d, Output.login sig account i.session nonce ∈ log ∧
    (∃ e ∈ trace E calls, e.call = .login sig account (K i.session) nonce ∧ e.reply = .loggedIn d) ∧
    i.chain.publicKey = d.userCanisterPubkey ∧ i.chain.delegation.pubkey = K i.session ∧ i.chain.delegation.expiration = d.expiration ∧
    ∃ e ∈ trace E calls, ∃ addr' nonce' text, e.Issues addr' nonce' text ∧
      ((addr' = account ∧ nonce' = nonce) ∨ KeyCollision E account nonce addr' nonce') ∧ Signs E sig text account

/-- What one would want: a page displays only identities granted by the canister of the manager it has made. -/
def ShowsItsOwn (E : Nat → Env) (K : SessionKeys) : Prop :=
  ∀ k hs i, (canistersAfter E K k hs).client.ctx.identity = some i →
    let s := canistersAfter E K k hs
    ∃ account, s.client.ctx.identityAddress = some account ∧ GrantedBy (E s.current) K (s.calls s.current) (s.log s.current) account i

end Siwe.Spec
