import Verif.Spec.Login
import Verif.Spec.SigMap
import Verif.Spec.Delegation
import Verif.Spec.HashTree
import Verif.Spec.Encoding
/-
Delegations: what a verifier checks, and what a hash collision between two grants is.
-/
namespace Siwe.Spec

/-- The delegation a login for this session key and expiration stands for. -/
def granted (s : Settings) (key : Bytes) (expiration : UInt64) : Delegation := ⟨key, expiration, s.targets⟩

/-- The signature map's entry for this seed and delegation. -/
def IsEntry (E : Env) (s : Settings) (addr key : Bytes) (expiration : UInt64) (seedHash delegationHash : Hash) : Prop :=
  (∃ seed, IsSeed E s addr seed ∧ seedHash = E.sha256 seed.bytes) ∧
  IsDelegationHash E (granted s key expiration) delegationHash

/-- Two grants whose hashes exhibit a SHA-256 collision: of the identity strings, of the seeds, or of the strings hashed
for the delegations. -/
def GrantCollision (E : Env) (s : Settings) (addr key : Bytes) (expiration : UInt64) (addr' key' : Bytes)
    (expiration' : UInt64) : Prop :=
  (∃ x y, IdentityInput s addr x ∧ IdentityInput s addr' y ∧ Collision E.sha256 x y) ∨
  (∃ x y, IsSeed E s addr x ∧ IsSeed E s addr' y ∧ Collision E.sha256 x.bytes y.bytes) ∨
  (∃ x y, DelegationPreimage E (granted s key expiration) x ∧ DelegationPreimage E (granted s key' expiration') y ∧
    Collision E.sha256 x y)

/-- The IC's check of a canister signature by public key `key` on the delegation, given the canister id and the certified
data that a valid certificate attests to: the key names the canister and a seed; the signature carries the certificate
and a well-formed hash tree with the certified digest, in which `sig`, the seed's hash and the delegation's hash lead to
an empty leaf. -/
def Verifies (E : Env) (canisterId certifiedData certificate key : Bytes) (d : SignedDelegation) : Prop :=
  ∃ seed tree dh, readCanisterKey key = some (canisterId, seed) ∧ readSignature d.signature = some (certificate, tree) ∧
    WellFormed tree ∧ (digest E tree).bytes = certifiedData ∧ IsDelegationHash E d.delegation dh ∧
    lookupPath [ascii "sig", (E.sha256 seed).bytes, dh.bytes] tree = some []

/-- Every login refused for its session key (since the last installation or upgrade) is followed by a successful login, or
comes less than a minute after every earlier successful login, so that it removes nothing. -/
def RefusalsHarmless (es : List Event) : Prop :=
  ∀ b x a err, es = b ++ x :: a → SameModule a → x.reply = .err (.login (.delegation err)) →
    (∃ y ∈ a, ∃ ld, y.reply = .loggedIn ld) ∨
    ∀ b1 y b2 addr key nonce ld, b = b1 ++ y :: b2 → SameModule b2 → y.LogsIn addr key nonce ld →
      x.time.toNat < min (y.time.toNat + minute) (2 ^ 64 - 1)

/-- The canister was installed afresh. -/
def Event.Installs (e : Event) : Prop := ∃ i, e.call = .install i ∧ e.reply = .done

/-- The answer `siwe_get_delegation` owes in a state. -/
inductive DelegationReply {E : Env} (st : State E) (now : UInt64) (addr key : Bytes) (expiration : UInt64) :
    Option Bytes → Reply → Prop
  | noCertificate : DelegationReply st now addr key expiration none .trap
  | badAddress (c : Bytes) (e : EthError) : AddressError E.keccak addr e →
      DelegationReply st now addr key expiration (some c) (.err (.eth e))
  | notInstalled (c : Bytes) : IsAddress E.keccak addr → st.lib.settings = none →
      DelegationReply st now addr key expiration (some c) .trap
  | badKey (c : Bytes) (s : Settings) (e : DelegationError) : IsAddress E.keccak addr → st.lib.settings = some s →
      KeyError E key e → DelegationReply st now addr key expiration (some c) (.err (.delegation e))
  | zero (c : Bytes) (s : Settings) : IsAddress E.keccak addr → st.lib.settings = some s → key ≠ [] →
      E.derOk key = true → expiration = 0 →
      DelegationReply st now addr key expiration (some c) (.err (.delegation .invalidExpiration))
  | expired (c : Bytes) (s : Settings) (sh dh : Hash) : IsAddress E.keccak addr → st.lib.settings = some s → key ≠ [] →
      E.derOk key = true → expiration ≠ 0 → IsEntry E s addr key expiration sh dh →
      st.sigMap.isExpired now sh dh = true →
      DelegationReply st now addr key expiration (some c) (.err (.delegation .signatureExpired))
  | notFound (c : Bytes) (s : Settings) (sh dh : Hash) : IsAddress E.keccak addr → st.lib.settings = some s → key ≠ [] →
      E.derOk key = true → expiration ≠ 0 → IsEntry E s addr key expiration sh dh →
      st.sigMap.isExpired now sh dh = false → ¬Holds st.sigMap sh dh →
      DelegationReply st now addr key expiration (some c) (.err (.delegation .signatureNotFound))
  | success (c : Bytes) (s : Settings) (sh dh : Hash) (w : HashTree) (d : SignedDelegation) : IsAddress E.keccak addr →
      st.lib.settings = some s → key ≠ [] → E.derOk key = true → expiration ≠ 0 →
      IsEntry E s addr key expiration sh dh →
      st.sigMap.isExpired now sh dh = false → Holds st.sigMap sh dh → st.sigMap.witness E sh dh = some w →
      d.delegation = granted s key expiration →
      d.signature = createCertifiedSignature c
        (.fork (.pruned (digest E (.labeled (ascii "http_assets") .empty))) (.labeled (ascii "sig") w)) →
      DelegationReply st now addr key expiration (some c) (.delegation d)

end Siwe.Spec
