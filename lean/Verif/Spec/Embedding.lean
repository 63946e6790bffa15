import Verif.Model.Embedding
import Verif.Spec.Grant
import Verif.Spec.Config
/-
What a canister that embeds the library observes, and what it may rely on.
-/
namespace Siwe.Spec

/-- One observed use of the library. -/
structure LibEvent where
  time : UInt64
  call : LibCall
  reply : LibReply
  deriving DecidableEq

/-- The observed uses of a history that starts in a given state. -/
def libTraceFrom {E : Env} (s : AppState E) : LibHistory → List LibEvent
  | [] => []
  | (now, c) :: rest => ⟨now, c, (appStep s now c).2⟩ :: libTraceFrom (appStep s now c).1 rest

/-- ... of a new canister. -/
def libTrace (E : Env) (h : LibHistory) : List LibEvent := libTraceFrom (AppState.fresh E) h

/-- The canister was not reinstalled or upgraded. -/
def SameRun (es : List LibEvent) : Prop := ∀ e ∈ es, e.call ≠ .restart

/-- The settings last given to `init` since the canister was last installed or upgraded. -/
def ConfiguredWith (es : List LibEvent) (s : Settings) : Prop :=
  ∃ before e after, es = before ++ e :: after ∧ SameRun after ∧ (∀ x ∈ after, ∀ s', x.call ≠ .init s') ∧ e.call = .init s

/-- The random generator was seeded since the canister was last installed or upgraded. -/
def Seeded (es : List LibEvent) : Prop :=
  ∃ before e after seed, es = before ++ e :: after ∧ SameRun after ∧ e.call = .rngSeeded seed

/-- `prepare_login` for the address returned the message and the nonce. -/
def LibEvent.Prepares (e : LibEvent) (addr nonce : Bytes) (m : SiweMessage) : Prop :=
  e.call = .prepareLogin addr ∧ e.reply = .prepared m nonce

/-- `login` for this address, session key, canister and nonce succeeded, on this signature map. -/
def LibEvent.LogsIn (e : LibEvent) (i : Nat) (addr key cid nonce : Bytes) (d : LoginDetails) : Prop :=
  (∃ sig, e.call = .login i sig addr key cid nonce) ∧ e.reply = .loggedIn d

/-- `login` was called with this address and nonce (and a well-formed signature), and said yes or no. -/
def LibEvent.Tries (e : LibEvent) (addr nonce : Bytes) : Prop :=
  (∃ i sig key cid, e.call = .login i sig addr key cid nonce) ∧
    ((∃ err, e.reply = .loginErr err) ∨ ∃ d, e.reply = .loggedIn d)

/-- The message made under these settings at this time for the address with the nonce. -/
structure MessageFor (s : Settings) (now : UInt64) (addr nonce : Bytes) (m : SiweMessage) : Prop where
  scheme : m.scheme = s.scheme
  domain : m.domain = s.domain
  address : m.address = addr
  statement : m.statement = s.statement
  uri : m.uri = s.uri
  version : m.version = 1
  chainId : m.chainId = s.chainId
  nonce : m.nonce = nonce
  issuedAt : m.issuedAt = now
  expirationTime : m.expirationTime.toNat = min (now.toNat + s.signInExpiresIn.toNat) (2 ^ 64 - 1)

/-- The answer `prepare_login` owes after some uses of the library. -/
inductive LibPrepareReply (E : Env) (es : List LibEvent) (now : UInt64) (addr : Bytes) : LibReply → Prop
  | badAddress (e : EthError) : AddressError E.keccak addr e → LibPrepareReply E es now addr (.addressErr e)
  | notReady : IsAddress E.keccak addr → (¬Seeded es ∨ ¬∃ s, ConfiguredWith es s) → LibPrepareReply E es now addr .trap
  | prepared (s : Settings) (nonce : Bytes) (m : SiweMessage) : IsAddress E.keccak addr → Seeded es → ConfiguredWith es s →
      nonce.length = 20 → (∀ c ∈ nonce, isHexDigit c = true ∧ isUpperLetter c = false) → MessageFor s now addr nonce m →
      LibPrepareReply E es now addr (.prepared m nonce)

/-- The message the library holds for an address and a nonce. -/
def Kept {E : Env} (l : LibState E) (addr nonce : Bytes) (m : SiweMessage) : Prop :=
  ∃ bs, bs.length = 20 ∧ Spells (addr.drop 2) bs ∧ l.messages.lookup (E.sha256 (pendingKey bs nonce)) = some m

/-- ... which has not expired and reads `txt`. -/
def KeptUsable {E : Env} (l : LibState E) (now : UInt64) (addr nonce : Bytes) (m : SiweMessage) (txt : Bytes) : Prop :=
  Kept l addr nonce m ∧ now.toNat < m.expirationTime.toNat ∧ (m.text : Res Empty Bytes) = .ok txt

/-- The answer `login` owes, given what the library holds and the settings in force.  (With settings that the builder
refuses, a session can last no time; the time 0 is refused as an expiration.) -/
inductive LibLoginReply {E : Env} (l : LibState E) (es : List LibEvent) (now : UInt64)
    (sig addr key cid nonce : Bytes) : LibReply → Prop
  | badAddress (e : EthError) : AddressError E.keccak addr e → LibLoginReply l es now sig addr key cid nonce (.addressErr e)
  | badSignature (e : EthError) : IsAddress E.keccak addr → SignatureError sig e →
      LibLoginReply l es now sig addr key cid nonce (.signatureErr e)
  | notFound : IsAddress E.keccak addr → HexString 130 sig → (¬∃ m txt, KeptUsable l now addr nonce m txt) →
      LibLoginReply l es now sig addr key cid nonce (.loginErr .messageNotFound)
  | unrecoverable (m : SiweMessage) (txt : Bytes) (e : EthError) : IsAddress E.keccak addr → HexString 130 sig →
      KeptUsable l now addr nonce m txt → RecoveryFails E sig txt e →
      LibLoginReply l es now sig addr key cid nonce (.loginErr (.eth e))
  | otherSigner (m : SiweMessage) (txt pub : Bytes) : IsAddress E.keccak addr → HexString 130 sig →
      KeptUsable l now addr nonce m txt → RecoversKey E sig txt pub → ¬Signs E sig txt addr →
      LibLoginReply l es now sig addr key cid nonce (.loginErr .addressMismatch)
  | badKey (m : SiweMessage) (txt : Bytes) (e : DelegationError) : IsAddress E.keccak addr → HexString 130 sig →
      KeptUsable l now addr nonce m txt → Signs E sig txt addr → KeyError E key e →
      LibLoginReply l es now sig addr key cid nonce (.loginErr (.delegation e))
  | noTime (m : SiweMessage) (txt : Bytes) (s : Settings) : IsAddress E.keccak addr → HexString 130 sig →
      KeptUsable l now addr nonce m txt → Signs E sig txt addr → key ≠ [] → E.derOk key = true → ConfiguredWith es s →
      m.issuedAt = 0 → s.sessionExpiresIn = 0 →
      LibLoginReply l es now sig addr key cid nonce (.loginErr (.delegation .invalidExpiration))
  | success (m : SiweMessage) (txt : Bytes) (s : Settings) (seed : Hash) (d : LoginDetails) :
      IsAddress E.keccak addr → HexString 130 sig → KeptUsable l now addr nonce m txt → Signs E sig txt addr →
      key ≠ [] → E.derOk key = true → ConfiguredWith es s → ¬(m.issuedAt = 0 ∧ s.sessionExpiresIn = 0) → IsSeed E s addr seed →
      d.expiration.toNat = min (m.issuedAt.toNat + s.sessionExpiresIn.toNat) (2 ^ 64 - 1) →
      d.userCanisterPubkey = createUserCanisterPubkey cid seed.bytes →
      LibLoginReply l es now sig addr key cid nonce (.loggedIn d)

/-- The answer owed to a request for the witness of a delegation, given the signature map. -/
inductive LibWitnessReply (E : Env) (m : SigMap) (es : List LibEvent) (now : UInt64) (addr key : Bytes)
    (expiration : UInt64) : LibReply → Prop
  | badAddress (e : EthError) : AddressError E.keccak addr e → LibWitnessReply E m es now addr key expiration (.addressErr e)
  | notConfigured : IsAddress E.keccak addr → (¬∃ s, ConfiguredWith es s) →
      LibWitnessReply E m es now addr key expiration .trap
  | badKey (s : Settings) (e : DelegationError) : IsAddress E.keccak addr → ConfiguredWith es s → KeyError E key e →
      LibWitnessReply E m es now addr key expiration (.delegationErr e)
  | zero (s : Settings) : IsAddress E.keccak addr → ConfiguredWith es s → key ≠ [] → E.derOk key = true → expiration = 0 →
      LibWitnessReply E m es now addr key expiration (.delegationErr .invalidExpiration)
  | expired (s : Settings) (sh dh : Hash) : IsAddress E.keccak addr → ConfiguredWith es s → key ≠ [] → E.derOk key = true →
      expiration ≠ 0 → IsEntry E s addr key expiration sh dh → m.isExpired now sh dh = true →
      LibWitnessReply E m es now addr key expiration (.delegationErr .signatureExpired)
  | notFound (s : Settings) (sh dh : Hash) : IsAddress E.keccak addr → ConfiguredWith es s → key ≠ [] → E.derOk key = true →
      expiration ≠ 0 → IsEntry E s addr key expiration sh dh → m.isExpired now sh dh = false → ¬Holds m sh dh →
      LibWitnessReply E m es now addr key expiration (.delegationErr .signatureNotFound)
  | success (s : Settings) (sh dh : Hash) (w : HashTree) : IsAddress E.keccak addr → ConfiguredWith es s → key ≠ [] →
      E.derOk key = true → expiration ≠ 0 → IsEntry E s addr key expiration sh dh → m.isExpired now sh dh = false →
      Holds m sh dh → m.witness E sh dh = some w → digest E w = m.rootHash E →
      LibWitnessReply E m es now addr key expiration (.witness (granted s key expiration) w)

/-- The use put this pair into this signature map: the canister itself did, or a login did for its delegation, under the
settings in force (given by the uses before it). -/
def LibEvent.Puts (E : Env) (before : List LibEvent) (e : LibEvent) (i : Nat) (sh dh : Hash) : Prop :=
  e.call = .put i sh dh ∨
  ∃ addr key cid nonce d s, e.LogsIn i addr key cid nonce d ∧ ConfiguredWith before s ∧ IsEntry E s addr key d.expiration sh dh

/-- This signature map was not replaced by a new one. -/
def SameMap (i : Nat) (es : List LibEvent) : Prop := ∀ e ∈ es, e.call ≠ .restart ∧ e.call ≠ .newMap i

/-- The call works on this signature map. -/
def UsesMap (i : Nat) (c : LibCall) : Prop :=
  c = .restart ∨ c = .newMap i ∨ (∃ sh dh, c = .put i sh dh) ∨ (∃ sh dh, c = .delete i sh dh) ∨ (∃ k, c = .prune i k) ∨
  ∃ sig addr key cid nonce, c = .login i sig addr key cid nonce

/-- The use issued a message with this nonce to the address. -/
def LibEvent.preparesFor (addr nonce : Bytes) (e : LibEvent) : Bool :=
  match e.call, e.reply with
  | .prepareLogin a, .prepared _ n => a == addr && n == nonce
  | _, _ => false

/-- The use logged the address in with this nonce. -/
def LibEvent.logsInWith (addr nonce : Bytes) (e : LibEvent) : Bool :=
  match e.call, e.reply with
  | .login _ _ a _ _ n, .loggedIn _ => a == addr && n == nonce
  | _, _ => false

/-- The provider's calls, read as uses of the library by the provider: same times, same arguments, corresponding answers;
an installation or upgrade is a new module and a configuration; refused installations and the mapping queries do not
use the library. -/
inductive Mirrors (E : Env) : List Event → List LibEvent → Prop
  | nil : Mirrors E [] []
  | installed {es : List Event} {ls : List LibEvent} (t : UInt64) (i : SettingsInput) (op : Op) (s : Settings)
      (p : ProviderSettings) : Mirrors E es ls → (op = .install i ∨ op = .upgrade i) → Configures E i s p →
      Mirrors E (es ++ [⟨t, op, .done⟩]) (ls ++ [⟨t, .restart, .done⟩, ⟨t, .init s, .done⟩])
  | unused {es : List Event} {ls : List LibEvent} (t : UInt64) (op : Op) (r : Reply) : Mirrors E es ls →
      (((∃ i, op = .install i ∨ op = .upgrade i) ∧ r = .trap) ∨ (∃ p, op = .getAddress p) ∨
        (∃ c, op = .getCallerAddress c) ∨ (∃ a, op = .getPrincipal a) ∨ (∃ a k e, op = .getDelegation none a k e)) →
      Mirrors E (es ++ [⟨t, op, r⟩]) ls
  | seeded {es : List Event} {ls : List LibEvent} (t : UInt64) (seed : Bytes) : Mirrors E es ls →
      Mirrors E (es ++ [⟨t, .rngSeeded seed, .done⟩]) (ls ++ [⟨t, .rngSeeded seed, .done⟩])
  | prepared {es : List Event} {ls : List LibEvent} (t : UInt64) (addr nonce txt : Bytes) (m : SiweMessage) : Mirrors E es ls →
      IsSiweText (shown m) txt →
      Mirrors E (es ++ [⟨t, .prepareLogin addr, .prepared ⟨txt, nonce⟩⟩]) (ls ++ [⟨t, .prepareLogin addr, .prepared m nonce⟩])
  | notPrepared {es : List Event} {ls : List LibEvent} (t : UInt64) (addr : Bytes) (r : Reply) (r' : LibReply) : Mirrors E es ls →
      ((r = .trap ∧ r' = .trap) ∨ ∃ e, r = .err (.eth e) ∧ r' = .addressErr e) →
      Mirrors E (es ++ [⟨t, .prepareLogin addr, r⟩]) (ls ++ [⟨t, .prepareLogin addr, r'⟩])
  | login {es : List Event} {ls : List LibEvent} (t : UInt64) (sig addr key nonce : Bytes) (r : Reply) (r' : LibReply) :
      Mirrors E es ls →
      ((∃ d, r = .loggedIn d ∧ r' = .loggedIn d) ∨ (∃ e, r = .err (.login e) ∧ r' = .loginErr e) ∨
        ∃ e, r = .err (.eth e) ∧ (r' = .addressErr e ∨ r' = .signatureErr e)) →
      Mirrors E (es ++ [⟨t, .login sig addr key nonce, r⟩]) (ls ++ [⟨t, .login 0 sig addr key E.canisterId nonce, r'⟩])
  | witness {es : List Event} {ls : List LibEvent} (t : UInt64) (c addr key : Bytes) (e : UInt64) (r : Reply) (r' : LibReply) :
      Mirrors E es ls →
      ((r = .trap ∧ r' = .trap) ∨ (∃ er, r = .err (.eth er) ∧ r' = .addressErr er) ∨
        (∃ er, r = .err (.delegation er) ∧ r' = .delegationErr er) ∨
        ∃ d w, r' = .witness d w ∧ r = .delegation ⟨d, createCertifiedSignature c
          (.fork (.pruned (digest E (.labeled (ascii "http_assets") .empty))) (.labeled (ascii "sig") w))⟩) →
      Mirrors E (es ++ [⟨t, .getDelegation (some c) addr key e, r⟩]) (ls ++ [⟨t, .witness 0 addr key e, r'⟩])

end Siwe.Spec
