import Verif.Model.Login
/-
packages/ic_siwe_provider/src: the canister as a state machine.
-/
namespace Siwe

/-- service/init_upgrade.rs:9-18 `RuntimeFeature` (the provider's) -/
inductive ProviderFeature where
  | includeUriInSeed
  | disableEthToPrincipalMapping
  | disablePrincipalToEthMapping
  deriving DecidableEq

/-- service/init_upgrade.rs:23-56 `SettingsInput` -/
structure SettingsInput where
  domain : Bytes
  uri : Bytes
  salt : Bytes
  chainId : Option UInt32
  scheme : Option Bytes
  statement : Option Bytes
  signInExpiresIn : Option UInt64
  sessionExpiresIn : Option UInt64
  targets : Option (List Bytes)
  runtimeFeatures : Option (List ProviderFeature)
  deriving DecidableEq

/-- lib.rs:76-79 `Settings` (the provider's) -/
structure ProviderSettings where
  disableEthToPrincipalMapping : Bool
  disablePrincipalToEthMapping : Bool
  deriving DecidableEq

/-- A `StableBTreeMap`, as its entries (one per key). -/
abbrev StableMap := List (Bytes × Bytes)

/-- `StableBTreeMap::insert` -/
def StableMap.insert (m : StableMap) (k v : Bytes) : StableMap := (k, v) :: m.filter fun e => e.1 ≠ k

/-- lib.rs:61-64 and 81-103: the canister's state.  `asset_hashes` is never written by the canister, so it is
the empty tree and only its root hash appears (`assetsRootHash`).  `certifiedData` is what
`set_certified_data` stored last (empty at installation). -/
structure State (E : Env) where
  lib : LibState E
  sigMap : SigMap
  settings : ProviderSettings
  principalAddress : StableMap
  addressPrincipal : StableMap
  certifiedData : Bytes

/-- Root hash of the (always empty) `asset_hashes`. -/
def assetsRootHash (E : Env) : Hash := emptyHash E

/-- lib.rs:56 -/
def labelAssets : Bytes := ascii "http_assets"
/-- lib.rs:57 -/
def labelSig : Bytes := ascii "sig"

/-- State of a canister whose module was just installed, before `init` runs. -/
def State.fresh (E : Env) : State E where
  lib := .initial E
  sigMap := .empty
  settings := ⟨false, false⟩
  principalAddress := []
  addressPrincipal := []
  certifiedData := []

/-- State after an upgrade replaced the module, before `post_upgrade` runs: heap globals are reset, stable
memory (lib.rs:92-102) and certified data are kept. -/
def State.afterUpgrade {E : Env} (s : State E) : State E :=
  { State.fresh E with
    principalAddress := s.principalAddress
    addressPrincipal := s.addressPrincipal
    certifiedData := s.certifiedData }

/-- lib.rs:105-111 `update_root_hash` -/
def updateRootHash {E : Env} (s : State E) : State E :=
  { s with certifiedData :=
      (forkHash E (labeledHash E labelAssets (assetsRootHash E))
        (labeledHash E labelSig (s.sigMap.rootHash E))).bytes }

/-- init_upgrade.rs:89-92: `Principal::from_text(t).unwrap()` on every element -/
def parseTargets {ε : Type} (E : Env) : List Bytes → Res ε (List Bytes)
  | [] => .ok []
  | t :: ts =>
    match E.principalFromText t with
    | none => .panic
    | some p => do
      let ps ← parseTargets E ts
      .ok (p :: ps)

/-- init_upgrade.rs:72-87, the scalar options -/
def applyScalars (i : SettingsInput) : Settings :=
  let b := SettingsBuilder.new i.domain i.uri i.salt
  let b := match i.chainId with | some c => SettingsBuilder.chainId b c | none => b
  let b := match i.scheme with | some x => SettingsBuilder.scheme b x | none => b
  let b := match i.statement with | some x => SettingsBuilder.statement b x | none => b
  let b := match i.signInExpiresIn with | some x => SettingsBuilder.signInExpiresIn b x | none => b
  match i.sessionExpiresIn with | some x => SettingsBuilder.sessionExpiresIn b x | none => b

/-- init_upgrade.rs:88-102, the targets; the own canister id must be among them -/
def applyTargets {ε : Type} (E : Env) (targets : Option (List Bytes)) (b : Settings) : Res ε Settings :=
  match targets with
  | none => .ok b
  | some ts => do
    let ps ← parseTargets E ts
    if !ps.contains E.canisterId then .panic
    else .ok (SettingsBuilder.targets b ps)

/-- init_upgrade.rs:106-120, the loop over the features -/
def applyFeatures : List ProviderFeature → Settings × ProviderSettings → Settings × ProviderSettings
  | [], x => x
  | .includeUriInSeed :: fs, (b, p) =>
    applyFeatures fs (SettingsBuilder.runtimeFeatures b [.includeUriInSeed], p)
  | .disableEthToPrincipalMapping :: fs, (b, p) =>
    applyFeatures fs (b, { p with disableEthToPrincipalMapping := true })
  | .disablePrincipalToEthMapping :: fs, (b, p) =>
    applyFeatures fs (b, { p with disablePrincipalToEthMapping := true })

/-- init_upgrade.rs:104-121, the optional features -/
def applyFeatureOption (fs : Option (List ProviderFeature)) (x : Settings × ProviderSettings) :
    Settings × ProviderSettings :=
  match fs with
  | some fs => applyFeatures fs x
  | none => x

/-- init_upgrade.rs:65-126 `siwe_init`; every failure is an `unwrap` or `panic!` -/
def siweInit {E : Env} (s : State E) (i : SettingsInput) : Res Empty (State E) := do
  let b ← applyTargets E i.targets (applyScalars i)
  let (b, p) := applyFeatureOption i.runtimeFeatures (b, s.settings)
  let settings ← (SettingsBuilder.build E b).unwrap
  .ok { s with lib := libInit s.lib settings, settings := p }

/-- The `Err(String)` replies of the provider's methods, by origin. -/
inductive ProviderError where
  | eth (e : EthError)
  | login (e : LoginError)
  | delegation (e : DelegationError)
  | invalidPrincipal
  | principalToEthDisabled
  | ethToPrincipalDisabled
  | notABlob
  | noAddress
  | noPrincipal
  deriving DecidableEq

/-- siwe_prepare_login.rs:6-9 `PrepareLoginOkResponse` -/
structure PrepareLoginOkResponse where
  siweMessage : Bytes
  nonce : Bytes
  deriving DecidableEq

/-- siwe_prepare_login.rs:20-31 `siwe_prepare_login` -/
def siwePrepareLogin {E : Env} (s : State E) (now : UInt64) (address : Bytes) :
    State E × Res ProviderError PrepareLoginOkResponse :=
  match EthAddress.new E address with
  | .err e => (s, .err (.eth e))
  | .panic => (s, .panic)
  | .ok address =>
    match prepareLogin s.lib now address with
    | .err e => (s, .err (.eth e))
    | .panic => (s, .panic)
    | .ok (l, message, nonce) =>
      (message.text : Res ProviderError _).elim (fun e => ({ s with lib := l }, .err e)) (s, .panic)
        fun text => ({ s with lib := l }, .ok ⟨text, nonce⟩)

/-- `Principal::self_authenticating(key).as_slice()`: SHA-224 of the key and the byte 2 -/
def selfAuthenticating (E : Env) (key : Bytes) : Bytes := (E.sha224 key).bytes ++ [2]

/-- siwe_login.rs:67-80 `manage_principal_address_mappings` -/
def managePrincipalAddressMappings {E : Env} (s : State E) (principal : Bytes) (address : EthAddress) :
    Res ProviderError (State E) := do
  let s ←
    if !s.settings.disablePrincipalToEthMapping then do
      let a ← address.asByteArray.unwrap
      (.ok { s with principalAddress := s.principalAddress.insert principal a } :
        Res ProviderError (State E))
    else .ok s
  if !s.settings.disableEthToPrincipalMapping then do
    let a ← address.asByteArray.unwrap
    .ok { s with addressPrincipal := s.addressPrincipal.insert a principal }
  else .ok s

/-- siwe_login.rs:25-65 `siwe_login` -/
def siweLogin {E : Env} (s : State E) (now : UInt64) (signature address sessionKey nonce : Bytes) :
    State E × Res ProviderError LoginDetails :=
  match EthAddress.new E address with
  | .err e => (s, .err (.eth e))
  | .panic => (s, .panic)
  | .ok address =>
    match EthSignature.new signature with
    | .err e => (s, .err (.eth e))
    | .panic => (s, .panic)
    | .ok signature =>
      let (l, sm, r) := Siwe.login s.lib s.sigMap now signature address sessionKey E.canisterId nonce
      let s := { s with lib := l, sigMap := sm }
      match r with
      | .err e => (s, .err (.login e))
      | .panic => (s, .panic)
      | .ok details =>
        let s := updateRootHash s
        let principal := selfAuthenticating E details.userCanisterPubkey
        -- `as_slice()[..29]` panics on a shorter slice; `Blob<29>::try_from` fails on a longer one
        if principal.length < 29 then (s, .panic)
        else
          match managePrincipalAddressMappings s (principal.take 29) address with
          | .err e => (s, .err e)
          | .panic => (s, .panic)
          | .ok s => (s, .ok details)

/-- siwe_get_delegation.rs:25-69 `siwe_get_delegation`; `certificate` is the result of `data_certificate()` -/
def siweGetDelegation {E : Env} (s : State E) (now : UInt64) (certificate : Option Bytes)
    (address sessionKey : Bytes) (expiration : UInt64) : Res ProviderError SignedDelegation :=
  match certificate with
  | none => .panic
  | some certificate => do
    let address ← (EthAddress.new E address).mapErr .eth
    match s.lib.settings with
    | none => .panic
    | some settings =>
      let seed := generateSeed E settings address
      let delegation ← (createDelegation E settings sessionKey expiration).mapErr .delegation
      let delegationHash ← createDelegationHash E delegation
      let signatureWitness ← (witness E s.sigMap now seed delegationHash).mapErr .delegation
      let tree := HashTree.fork (.pruned (labeledHash E labelAssets (assetsRootHash E)))
        (.labeled labelSig signatureWitness)
      .ok ⟨delegation, createCertifiedSignature certificate tree⟩

/-- get_address.rs:17-40 `get_address` -/
def getAddress {E : Env} (s : State E) (principal : Bytes) : Res ProviderError Bytes :=
  if s.settings.disablePrincipalToEthMapping then .err .principalToEthDisabled
  else if principal.length > 29 then .err .notABlob
  else
    match s.principalAddress.lookup principal with
    | none => .err .noAddress
    | some a => (convertToEip55 E (bytesToEthAddress a)).mapErr .eth

/-- get_caller_address.rs:16-26 `get_caller_address` -/
def getCallerAddress {E : Env} (s : State E) (caller : Bytes) : Res ProviderError Bytes :=
  if s.settings.disablePrincipalToEthMapping then .err .principalToEthDisabled
  else getAddress s caller

/-- get_principal.rs:16-33 `get_principal` -/
def getPrincipal {E : Env} (s : State E) (address : Bytes) : Res ProviderError Bytes :=
  if s.settings.disableEthToPrincipalMapping then .err .ethToPrincipalDisabled
  else do
    let address ← (EthAddress.new E address).mapErr .eth
    let a ← address.asByteArray.unwrap
    match s.addressPrincipal.lookup a with
    | none => .err .noPrincipal
    | some p => .ok p

/-- The calls and events a canister processes. -/
inductive Op where
  | install (i : SettingsInput)
  | upgrade (i : SettingsInput)
  | rngSeeded (seed : Bytes)
  | prepareLogin (address : Bytes)
  | login (signature address sessionKey nonce : Bytes)
  | getDelegation (certificate : Option Bytes) (address sessionKey : Bytes) (expiration : UInt64)
  | getAddress (principal : Bytes)
  | getCallerAddress (caller : Bytes)
  | getPrincipal (address : Bytes)
  deriving DecidableEq

/-- What the caller sees. -/
inductive Reply where
  | trap
  | done
  | err (e : ProviderError)
  | prepared (r : PrepareLoginOkResponse)
  | loggedIn (d : LoginDetails)
  | delegation (d : SignedDelegation)
  | bytes (b : Bytes)
  deriving DecidableEq

/-- Turn a method's result into a reply. -/
def reply {α : Type} (f : α → Reply) : Res ProviderError α → Reply
  | .ok a => f a
  | .err e => .err e
  | .panic => .trap

/-- An update call: a trap discards the state changes (IC message atomicity), `Ok` and `Err` keep them. -/
def commit {E : Env} {α : Type} (s : State E) (f : α → Reply) (x : State E × Res ProviderError α) :
    State E × Reply :=
  match x.2 with
  | .panic => (s, .trap)
  | r => (x.1, reply f r)

/-- init_upgrade.rs:136-150 `init`/`upgrade`: a trap leaves the previous canister in place. -/
def commitInit {E : Env} (s : State E) (x : Res Empty (State E)) : State E × Reply :=
  match x with
  | .ok s' => (s', .done)
  | .err e => nomatch e
  | .panic => (s, .trap)

/-- One call or event at time `now`. -/
def step {E : Env} (s : State E) (now : UInt64) : Op → State E × Reply
  | .install i => commitInit s (siweInit (State.fresh E) i)
  | .upgrade i => commitInit s (siweInit s.afterUpgrade i)
  | .rngSeeded seed => ({ s with lib := seedRng s.lib seed }, .done)
  | .prepareLogin a => commit s .prepared (siwePrepareLogin s now a)
  | .login sig a k n => commit s .loggedIn (siweLogin s now sig a k n)
  | .getDelegation c a k e => (s, reply .delegation (siweGetDelegation s now c a k e))
  | .getAddress p => (s, reply .bytes (getAddress s p))
  | .getCallerAddress c => (s, reply .bytes (getCallerAddress s c))
  | .getPrincipal a => (s, reply .bytes (getPrincipal s a))

/-- A history: timed operations, oldest first. -/
abbrev History := List (UInt64 × Op)

/-- Run a history from a state, collecting the replies. -/
def run {E : Env} (s : State E) : History → State E × List Reply
  | [] => (s, [])
  | (now, op) :: rest =>
    let (s', r) := step s now op
    let (s'', rs) := run s' rest
    (s'', r :: rs)

/-- The state reached from a freshly created, empty canister. -/
def stateAfter (E : Env) (h : History) : State E := (run (State.fresh E) h).1

end Siwe
