import Verif.Spec.Grant
import Verif.Spec.Config
/- What the canister's signature map holds, told from the calls the canister has answered. -/
namespace Siwe.Spec

/-- The calls of the signature map's interface that the canister has made since the module in force was installed: a successful login
removes up to ten entries that are due and then puts its own; a login refused only for its session key removes up to ten; no other call
changes the map. -/
inductive SignatureCalls (E : Env) : List Event → List MapOp → Prop
  | start : SignatureCalls E [] []
  | installed (es : List Event) (e : Event) : e.Reinstalls → SignatureCalls E (es ++ [e]) []
  | loggedIn (es : List Event) (ops : List MapOp) (e : Event) (addr key nonce : Bytes) (d : LoginDetails) (s : Settings)
      (p : ProviderSettings) (sh dh : Hash) : SignatureCalls E es ops → e.LogsIn addr key nonce d → InForce E es s p →
      IsEntry E s addr key d.expiration sh dh → SignatureCalls E (es ++ [e]) (ops ++ [.prune e.time 10, .put e.time sh dh])
  | refused (es : List Event) (ops : List MapOp) (e : Event) (err : DelegationError) : SignatureCalls E es ops →
      e.reply = .err (.login (.delegation err)) → SignatureCalls E (es ++ [e]) (ops ++ [.prune e.time 10])
  | other (es : List Event) (ops : List MapOp) (e : Event) : SignatureCalls E es ops → ¬e.Reinstalls →
      (∀ d, e.reply ≠ .loggedIn d) → (∀ err, e.reply ≠ .err (.login (.delegation err))) → SignatureCalls E (es ++ [e]) ops

/-- The answer to a request for the delegation, given the pairs and entries: the entry decides whether it has expired, the pair
whether it is there. If a pair was put more than once, any of its entries may decide. -/
inductive Retrieval (s : Settings) (a : AbsMap) (now : UInt64) (key : Bytes) (expiration : UInt64) (sh dh : Hash) : Reply → Prop
  | expired (x : SigExpiration) : x ∈ a.entries → x.seedHash = sh → x.delegationHash = dh → x.expiresAt.toNat < now.toNat →
      Retrieval s a now key expiration sh dh (.err (.delegation .signatureExpired))
  | notFound : ¬a.pairs sh dh →
      ((∀ x ∈ a.entries, ¬(x.seedHash = sh ∧ x.delegationHash = dh)) ∨
        ∃ x ∈ a.entries, x.seedHash = sh ∧ x.delegationHash = dh ∧ now.toNat ≤ x.expiresAt.toNat) →
      Retrieval s a now key expiration sh dh (.err (.delegation .signatureNotFound))
  | found (x : SigExpiration) (d : SignedDelegation) : a.pairs sh dh → x ∈ a.entries → x.seedHash = sh → x.delegationHash = dh →
      now.toNat ≤ x.expiresAt.toNat → d.delegation = granted s key expiration →
      Retrieval s a now key expiration sh dh (.delegation d)

/-- The call was a successful login. -/
def Event.isLogin (e : Event) : Bool :=
  match e.reply with
  | .loggedIn _ => true
  | _ => false

/-- The number of successful logins in the minute up to `t`. -/
def loginsInMinute (es : List Event) (t : Nat) : Nat :=
  es.countP fun e => e.isLogin && decide (e.time.toNat ≤ t ∧ t < e.time.toNat + minute)

end Siwe.Spec
