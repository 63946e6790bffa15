import Verif.Spec.Grant
import Verif.Spec.Mapping
/-
Requests to the Internet Computer and when it accepts them (IC interface specification, "Authentication" and "Canister signatures").
-/
namespace Siwe.Spec

/-- `m` is the byte string that is signed for the delegation. -/
def IsDelegationMessage (E : Env) (d : Delegation) (m : Bytes) : Prop :=
  ∃ mapHash, IsMapHash E (delegationFields d) mapHash ∧ m = delegationMessage mapHash

/-- The byte string that is signed for a request. -/
def requestMessage (requestId : Bytes) : Bytes := 10 :: ascii "ic-request" ++ requestId

/-- The IC's check of a canister signature on any message; `Verifies` is the case of delegations. -/
def CanisterSigned (E : Env) (canisterId certifiedData certificate key message signature : Bytes) : Prop :=
  ∃ seed tree, readCanisterKey key = some (canisterId, seed) ∧ readSignature signature = some (certificate, tree) ∧
    WellFormed tree ∧ (digest E tree).bytes = certifiedData ∧
    lookupPath [ascii "sig", (E.sha256 seed).bytes, (E.sha256 message).bytes] tree = some []

/-- The authentication of a request to call `canister` as `sender`. -/
structure Request where
  requestId : Bytes
  sender : Bytes
  canister : Bytes
  key : Bytes
  chain : List SignedDelegation
  signature : Bytes

/-- The delegations lead from one key to another, each signed by the key before it.  `valid` is the check of signatures: key, message,
signature. -/
inductive Leads (E : Env) (valid : Bytes → Bytes → Bytes → Prop) : Bytes → List SignedDelegation → Bytes → Prop
  | here (k : Bytes) : Leads E valid k [] k
  | next (k m k' : Bytes) (d : SignedDelegation) (ds : List SignedDelegation) : IsDelegationMessage E d.delegation m →
      valid k m d.signature → Leads E valid d.delegation.pubkey ds k' → Leads E valid k (d :: ds) k'

/-- The delegation has not expired and covers the canister. -/
def Admits (now : UInt64) (canister : Bytes) (d : Delegation) : Prop :=
  now.toNat ≤ d.expiration.toNat ∧ ∀ ts, d.targets = some ts → canister ∈ ts

/-- The IC accepts the request: the sender is the principal of the request's key; the delegations lead from there to a key that
signed the request; and all of them allow the call. -/
def Accepted (E : Env) (valid : Bytes → Bytes → Bytes → Prop) (now : UInt64) (r : Request) : Prop :=
  r.sender = principalOfKey E r.key ∧
  (∃ k, Leads E valid r.key r.chain k ∧ valid k (requestMessage r.requestId) r.signature) ∧
  ∀ d ∈ r.chain, Admits now r.canister d.delegation

/-- The check of signatures accepts a signature by a key of the provider's canister only on the strength of a certificate for certified
data the canister had at some point of its history. -/
def ChecksCertificates (E : Env) (h : History) (valid : Bytes → Bytes → Bytes → Prop) : Prop :=
  ∀ key seed m sig, readCanisterKey key = some (E.canisterId, seed) → valid key m sig →
    ∃ h1 certificate, h1 <+: h ∧ CanisterSigned E E.canisterId (stateAfter E h1).certifiedData certificate key m sig

/-- Among the observed calls is a login of the address that entitles the delegation's session key to act for the key: the login's
signature is the address's on a text the canister had issued, for this address and the login's nonce; the login returned a key that
names the same canister and seed, and the expiration, which is the session's length after the text was issued; and the delegation has the
targets configured then. -/
def Entitled (E : Env) (es : List Event) (key addr : Bytes) (d : Delegation) : Prop :=
  ∃ before e after sig nonce ld s p, es = before ++ e :: after ∧ e.call = .login sig addr d.pubkey nonce ∧ e.reply = .loggedIn ld ∧
    readCanisterKey ld.userCanisterPubkey = readCanisterKey key ∧ InForce E before s p ∧
    d.expiration = ld.expiration ∧ d.targets = s.targets ∧
    ∃ i ∈ before, ∃ addr' nonce' text, i.Issues addr' nonce' text ∧
      ((addr' = addr ∧ nonce' = nonce) ∨ KeyCollision E addr nonce addr' nonce') ∧ Signs E sig text addr ∧
      ld.expiration.toNat = min (i.time.toNat + s.sessionExpiresIn.toNat) (2 ^ 64 - 1)

/-- A SHA-256 collision that a canister signature on a message exhibits: between strings hashed in its tree and in one that the canister
certified, between its seed and the seed of a login, or between the message and the message of a login's delegation. -/
def SignatureCollision (E : Env) (h : History) (key message signature : Bytes) : Prop :=
  (∃ cert t h1 x y, readSignature signature = some (cert, t) ∧ h1 <+: h ∧ Hashes E t x ∧
    Hashes E (certifiedTree (stateAfter E h1).sigMap) y ∧ Collision E.sha256 x y) ∨
  (∃ e ∈ trace E h, ∃ addr key' nonce ld seed seed', e.LogsIn addr key' nonce ld ∧
    readCanisterKey ld.userCanisterPubkey = some (E.canisterId, seed) ∧ readCanisterKey key = some (E.canisterId, seed') ∧
    Collision E.sha256 seed seed') ∨
  (∃ before e after addr key' nonce ld s p m, trace E h = before ++ e :: after ∧ e.LogsIn addr key' nonce ld ∧ InForce E before s p ∧
    IsDelegationMessage E (granted s key' ld.expiration) m ∧ Collision E.sha256 m message)

/-- A SHA-256 collision that a request exhibits: one of its first delegation's signature or of its own, or one between strings hashed for
the first delegation and for a login's. -/
def RequestCollision (E : Env) (h : History) (r : Request) : Prop :=
  SignatureCollision E h r.key (requestMessage r.requestId) r.signature ∨
  ∃ d ∈ r.chain.head?, (∃ m, IsDelegationMessage E d.delegation m ∧ SignatureCollision E h r.key m d.signature) ∨
    ∃ before e after addr key' nonce ld s p x y, trace E h = before ++ e :: after ∧ e.LogsIn addr key' nonce ld ∧ InForce E before s p ∧
      DelegationPreimage E (granted s key' ld.expiration) x ∧ DelegationPreimage E d.delegation y ∧ Collision E.sha256 x y

/-- All successful installations and upgrades had arguments that give the same identities as `i`. -/
def SteadyIdentities (i : SettingsInput) (es : List Event) : Prop :=
  ∀ e ∈ es, ∀ j, (e.call = .install j ∨ e.call = .upgrade j) → e.reply = .done → SameIdentities j i

end Siwe.Spec
