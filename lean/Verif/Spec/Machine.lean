import Verif.Spec.Grant
import Verif.Spec.Config
import Verif.Spec.Settings
/-
The provider as a specification machine: what a canister remembers, without its data structures, and what every call does and answers.
-/
namespace Siwe.Spec

/-- A sign-in that was prepared: the text to be signed, when it was issued and when the time for signing in is over. -/
structure Slip where
  text : Bytes
  issuedAt : Nat
  expires : Nat

/-- What the canister remembers. -/
structure Sheet (E : Env) where
  /-- the settings, once it is installed -/
  config : Option (Settings × ProviderSettings)
  /-- the random generator, once randomness arrived -/
  random : Option E.Rng
  /-- prepared sign-ins, by the hash of address and nonce -/
  pending : Hash → Option Slip
  /-- signatures and their expiry -/
  sigs : AbsMap
  /-- digest of a tree of the signatures -/
  root : Bytes
  /-- the certified data -/
  certified : Bytes
  /-- addresses (as bytes) of principals -/
  addressOf : Bytes → Option Bytes
  /-- principals of addresses -/
  principalOf : Bytes → Option Bytes

/-- Nothing in the tree is pruned. -/
def Whole : HashTree → Prop
  | .empty => True
  | .fork l r => Whole l ∧ Whole r
  | .labeled _ t => Whole t
  | .leaf _ => True
  | .pruned _ => False

/-- The digest commits to exactly these signatures: it is the digest of a whole tree that reveals them and no others. -/
def Commits (E : Env) (root : Bytes) (pairs : Hash → Hash → Prop) : Prop :=
  ∃ t : HashTree, Whole t ∧ (digest E t).bytes = root ∧
    (∀ s d, pairs s d → Reveals t [ascii "sig", s.bytes, d.bytes] []) ∧
    ∀ a b v, Reveals t [ascii "sig", a, b] v → v = [] ∧ ∃ s d : Hash, a = s.bytes ∧ b = d.bytes ∧ pairs s d

/-- A canister before installation. -/
def Sheet.blank (E : Env) (root : Bytes) : Sheet E where
  config := none
  random := none
  pending := fun _ => none
  sigs := .empty
  root := root
  certified := []
  addressOf := fun _ => none
  principalOf := fun _ => none

/-- Where a sign-in of the address with the nonce is kept. -/
def IsSlot (E : Env) (addr nonce : Bytes) (k : Hash) : Prop :=
  ∃ bs, bs.length = 20 ∧ Spells (addr.drop 2) bs ∧ k = E.sha256 (pendingKey bs nonce)

/-- The prepared sign-ins whose time is not over. -/
def Sheet.unexpired {E : Env} (a : Sheet E) (now : UInt64) (k : Hash) : Option Slip :=
  (a.pending k).filter fun p => decide (now.toNat < p.expires)

/-- Replace one value of a table. -/
def update {α β : Type} [DecidableEq α] (f : α → β) (k : α) (v : β) : α → β := fun k' => if k' = k then v else f k'

/-- A mapping is switched off. -/
def Sheet.off {E : Env} (a : Sheet E) (flag : ProviderSettings → Bool) : Prop := ∃ s p, a.config = some (s, p) ∧ flag p = true

/-- The answer to a question for the address of a principal. -/
inductive AddressReply {E : Env} (a : Sheet E) (p : Bytes) : Reply → Prop
  | off : a.off (·.disablePrincipalToEthMapping) → AddressReply a p (.err .principalToEthDisabled)
  | tooLong : ¬a.off (·.disablePrincipalToEthMapping) → 29 < p.length → AddressReply a p (.err .notABlob)
  | unknown : ¬a.off (·.disablePrincipalToEthMapping) → p.length ≤ 29 → a.addressOf p = none → AddressReply a p (.err .noAddress)
  | known (bs addr : Bytes) : ¬a.off (·.disablePrincipalToEthMapping) → p.length ≤ 29 → a.addressOf p = some bs →
      IsAddress E.keccak addr → Spells (addr.drop 2) bs → AddressReply a p (.bytes addr)

/-- The answer to a question for the principal of an address. -/
inductive PrincipalReply {E : Env} (a : Sheet E) (addr : Bytes) : Reply → Prop
  | off : a.off (·.disableEthToPrincipalMapping) → PrincipalReply a addr (.err .ethToPrincipalDisabled)
  | badAddress (e : EthError) : ¬a.off (·.disableEthToPrincipalMapping) → AddressError E.keccak addr e →
      PrincipalReply a addr (.err (.eth e))
  | unknown (bs : Bytes) : ¬a.off (·.disableEthToPrincipalMapping) → IsAddress E.keccak addr → Spells (addr.drop 2) bs →
      a.principalOf bs = none → PrincipalReply a addr (.err .noPrincipal)
  | known (bs p : Bytes) : ¬a.off (·.disableEthToPrincipalMapping) → IsAddress E.keccak addr → Spells (addr.drop 2) bs →
      a.principalOf bs = some p → PrincipalReply a addr (.bytes p)

/-- The answer to a request for a delegation. -/
inductive FetchReply {E : Env} (a : Sheet E) (now : UInt64) (addr key : Bytes) (expiration : UInt64) : Option Bytes → Reply → Prop
  | noCertificate : FetchReply a now addr key expiration none .trap
  | badAddress (c : Bytes) (e : EthError) : AddressError E.keccak addr e → FetchReply a now addr key expiration (some c) (.err (.eth e))
  | notInstalled (c : Bytes) : IsAddress E.keccak addr → a.config = none → FetchReply a now addr key expiration (some c) .trap
  | badKey (c : Bytes) (s : Settings) (p : ProviderSettings) (e : DelegationError) : IsAddress E.keccak addr → a.config = some (s, p) →
      KeyError E key e → FetchReply a now addr key expiration (some c) (.err (.delegation e))
  | zero (c : Bytes) (s : Settings) (p : ProviderSettings) : IsAddress E.keccak addr → a.config = some (s, p) → key ≠ [] →
      E.derOk key = true → expiration = 0 → FetchReply a now addr key expiration (some c) (.err (.delegation .invalidExpiration))
  /-- an entry for it has expired -/
  | expired (c : Bytes) (s : Settings) (p : ProviderSettings) (sh dh : Hash) (x : SigExpiration) : IsAddress E.keccak addr →
      a.config = some (s, p) → key ≠ [] → E.derOk key = true → expiration ≠ 0 → IsEntry E s addr key expiration sh dh →
      x ∈ a.sigs.entries → x.seedHash = sh → x.delegationHash = dh → x.expiresAt.toNat < now.toNat →
      FetchReply a now addr key expiration (some c) (.err (.delegation .signatureExpired))
  /-- it is not there, and not all entries for it have expired -/
  | notFound (c : Bytes) (s : Settings) (p : ProviderSettings) (sh dh : Hash) : IsAddress E.keccak addr → a.config = some (s, p) →
      key ≠ [] → E.derOk key = true → expiration ≠ 0 → IsEntry E s addr key expiration sh dh → ¬a.sigs.pairs sh dh →
      ((∀ x ∈ a.sigs.entries, ¬(x.seedHash = sh ∧ x.delegationHash = dh)) ∨
        ∃ x ∈ a.sigs.entries, x.seedHash = sh ∧ x.delegationHash = dh ∧ now.toNat ≤ x.expiresAt.toNat) →
      FetchReply a now addr key expiration (some c) (.err (.delegation .signatureNotFound))
  /-- it is there: the answer verifies under the user's key with a certificate for the digest of the signatures -/
  | success (c : Bytes) (s : Settings) (p : ProviderSettings) (seed sh dh : Hash) (x : SigExpiration) (d : SignedDelegation) :
      IsAddress E.keccak addr → a.config = some (s, p) → key ≠ [] → E.derOk key = true → expiration ≠ 0 →
      IsSeed E s addr seed → IsEntry E s addr key expiration sh dh → a.sigs.pairs sh dh →
      x ∈ a.sigs.entries → x.seedHash = sh → x.delegationHash = dh → now.toNat ≤ x.expiresAt.toNat →
      d.delegation = granted s key expiration →
      (c.length < 2 ^ 64 → ∀ data,
        Verifies E E.canisterId data c (createUserCanisterPubkey E.canisterId seed.bytes) d ↔ data = a.root) →
      FetchReply a now addr key expiration (some c) (.delegation d)

/-- One call: what is remembered afterwards and what is answered. -/
inductive SheetStep {E : Env} (a : Sheet E) (now : UInt64) : Op → Sheet E → Reply → Prop
  /-- installation: nothing is kept -/
  | install (i : SettingsInput) (s : Settings) (p : ProviderSettings) (root : Bytes) : Configures E i s p → ValidSettings E s →
      Commits E root AbsMap.empty.pairs → SheetStep a now (.install i) { Sheet.blank E root with config := some (s, p) } .done
  /-- upgrade: the mappings and the certified data are kept -/
  | upgrade (i : SettingsInput) (s : Settings) (p : ProviderSettings) (root : Bytes) : Configures E i s p → ValidSettings E s →
      Commits E root AbsMap.empty.pairs →
      SheetStep a now (.upgrade i) { Sheet.blank E root with
        config := some (s, p), certified := a.certified, addressOf := a.addressOf, principalOf := a.principalOf } .done
  | refusedInstall (i : SettingsInput) : (∀ s p, Configures E i s p → ¬ValidSettings E s) → SheetStep a now (.install i) a .trap
  | refusedUpgrade (i : SettingsInput) : (∀ s p, Configures E i s p → ¬ValidSettings E s) → SheetStep a now (.upgrade i) a .trap
  | random (seed : Bytes) : SheetStep a now (.rngSeeded seed) { a with random := some (E.rngFromSeed seed) } .done
  | prepareBadAddress (addr : Bytes) (e : EthError) : AddressError E.keccak addr e →
      SheetStep a now (.prepareLogin addr) a (.err (.eth e))
  | prepareNotReady (addr : Bytes) : IsAddress E.keccak addr → a.random = none ∨ a.config = none →
      SheetStep a now (.prepareLogin addr) a .trap
  /-- the text is remembered under the address and a fresh nonce -/
  | prepare (addr : Bytes) (g : E.Rng) (s : Settings) (p : ProviderSettings) (k : Hash) (slip : Slip) (nonce : Bytes) :
      IsAddress E.keccak addr → a.random = some g → a.config = some (s, p) →
      Spells nonce (E.rngFill10 g).1.val → (∀ c ∈ nonce, isUpperLetter c = false) → IsSlot E addr nonce k →
      slip.issuedAt = now.toNat → slip.expires = min (now.toNat + s.signInExpiresIn.toNat) (2 ^ 64 - 1) →
      IsSiweText ⟨s.domain, addr, s.statement, s.uri, 1, s.chainId.toNat, nonce, slip.issuedAt, slip.expires⟩ slip.text →
      SheetStep a now (.prepareLogin addr)
        { a with random := some (E.rngFill10 g).2, pending := update a.pending k (some slip) } (.prepared ⟨slip.text, nonce⟩)
  | loginBadAddress (sig addr key nonce : Bytes) (e : EthError) : AddressError E.keccak addr e →
      SheetStep a now (.login sig addr key nonce) a (.err (.eth e))
  | loginBadSignature (sig addr key nonce : Bytes) (e : EthError) : IsAddress E.keccak addr → SignatureError sig e →
      SheetStep a now (.login sig addr key nonce) a (.err (.eth e))
  /-- every other login forgets the sign-ins whose time is over, and the one it finds -/
  | loginNotFound (sig addr key nonce : Bytes) (k : Hash) : IsAddress E.keccak addr → HexString 130 sig → IsSlot E addr nonce k →
      a.unexpired now k = none →
      SheetStep a now (.login sig addr key nonce) { a with pending := a.unexpired now } (.err (.login .messageNotFound))
  | loginNoKey (sig addr key nonce : Bytes) (k : Hash) (slip : Slip) (e : EthError) : IsAddress E.keccak addr → HexString 130 sig →
      IsSlot E addr nonce k → a.unexpired now k = some slip → RecoveryFails E sig slip.text e →
      SheetStep a now (.login sig addr key nonce) { a with pending := update (a.unexpired now) k none } (.err (.login (.eth e)))
  | loginOtherSigner (sig addr key nonce : Bytes) (k : Hash) (slip : Slip) (pub : Bytes) : IsAddress E.keccak addr → HexString 130 sig →
      IsSlot E addr nonce k → a.unexpired now k = some slip → RecoversKey E sig slip.text pub → ¬Signs E sig slip.text addr →
      SheetStep a now (.login sig addr key nonce) { a with pending := update (a.unexpired now) k none } (.err (.login .addressMismatch))
  /-- signed, but the session key is no good: up to ten expired signatures are removed -/
  | loginBadKey (sig addr key nonce : Bytes) (k : Hash) (slip : Slip) (sigs : AbsMap) (root : Bytes) (e : DelegationError) :
      IsAddress E.keccak addr → HexString 130 sig → IsSlot E addr nonce k → a.unexpired now k = some slip →
      Signs E sig slip.text addr → KeyError E key e → AbsStep a.sigs (.prune now 10) sigs → Commits E root sigs.pairs →
      ((∀ x ∈ a.sigs.entries, now.toNat < x.expiresAt.toNat) → root = a.root) →
      SheetStep a now (.login sig addr key nonce) { a with pending := update (a.unexpired now) k none, sigs := sigs, root := root }
        (.err (.login (.delegation e)))
  /-- signed: up to ten expired signatures are removed, one is added, and the certified data and the mappings are updated -/
  | login (sig addr key nonce bs : Bytes) (k : Hash) (slip : Slip) (s : Settings) (p : ProviderSettings) (seed sh dh : Hash)
      (expiration : UInt64) (pruned sigs : AbsMap) (root pub : Bytes) :
      IsAddress E.keccak addr → HexString 130 sig → IsSlot E addr nonce k → a.unexpired now k = some slip →
      Signs E sig slip.text addr → key ≠ [] → E.derOk key = true → a.config = some (s, p) →
      expiration.toNat = min (slip.issuedAt + s.sessionExpiresIn.toNat) (2 ^ 64 - 1) →
      IsSeed E s addr seed → IsEntry E s addr key expiration sh dh → pub = createUserCanisterPubkey E.canisterId seed.bytes →
      Spells (addr.drop 2) bs → AbsStep a.sigs (.prune now 10) pruned → AbsStep pruned (.put now sh dh) sigs → Commits E root sigs.pairs →
      SheetStep a now (.login sig addr key nonce)
        { a with
          pending := update (a.unexpired now) k none
          sigs := sigs
          root := root
          certified := root
          addressOf := if p.disablePrincipalToEthMapping then a.addressOf else update a.addressOf (principalOfKey E pub) (some bs)
          principalOf := if p.disableEthToPrincipalMapping then a.principalOf else update a.principalOf bs (some (principalOfKey E pub)) }
        (.loggedIn ⟨expiration, pub⟩)
  | fetch (c : Option Bytes) (addr key : Bytes) (expiration : UInt64) (r : Reply) : FetchReply a now addr key expiration c r →
      SheetStep a now (.getDelegation c addr key expiration) a r
  | address (p : Bytes) (r : Reply) : AddressReply a p r → SheetStep a now (.getAddress p) a r
  | callerAddress (p : Bytes) (r : Reply) : AddressReply a p r → SheetStep a now (.getCallerAddress p) a r
  | principal (addr : Bytes) (r : Reply) : PrincipalReply a addr r → SheetStep a now (.getPrincipal addr) a r

/-- Calls in order, from a canister before installation. -/
inductive SheetRun (E : Env) : List Event → Sheet E → Prop
  | start (root : Bytes) : Commits E root AbsMap.empty.pairs → SheetRun E [] (.blank E root)
  | step {es : List Event} {e : Event} {a b : Sheet E} : SheetRun E es a → SheetStep a e.time e.call b e.reply → SheetRun E (es ++ [e]) b

/-- The sheets say the same, apart from the signatures. -/
structure Alike {E : Env} (a b : Sheet E) : Prop where
  config : a.config = b.config
  random : a.random = b.random
  pending : a.pending = b.pending
  addressOf : a.addressOf = b.addressOf
  principalOf : a.principalOf = b.principalOf

/-- The answers are the same, or sign-in messages with the same nonce that show the same: times can be written in more than one way. -/
def SameAnswer (r r' : Reply) : Prop :=
  r = r' ∨ ∃ f t t' nonce, r = .prepared ⟨t, nonce⟩ ∧ r' = .prepared ⟨t', nonce⟩ ∧ IsSiweText f t ∧ IsSiweText f t'

end Siwe.Spec
