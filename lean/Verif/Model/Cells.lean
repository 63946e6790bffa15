import Verif.Model.Provider
/-
The same functions as in `Model/Login.lean` and `Model/Provider.lean`, with the `RefCell`s that Rust keeps the state in: every access to a
global borrows its cell for as long as the closure runs, and a borrow that conflicts with one that is held panics.  (`STATE` of
packages/ic_siwe_provider/src/lib.rs:82 is no `RefCell`, its two fields are.)
-/
namespace Siwe.Cells

/-- The cells: packages/ic_siwe/src/lib.rs:191, 195 and 200; packages/ic_siwe_provider/src/lib.rs:62, 63, 84, 87, 92 and 98 -/
inductive Cell where
  | rng
  | libSettings
  | messages
  | signatureMap
  | assetHashes
  | memoryManager
  | settings
  | principalAddress
  | addressPrincipal
  deriving DecidableEq

/-- `std::cell::BorrowFlag`: how many shared borrows are held, or that the cell is mutably borrowed -/
inductive Borrow where
  | shared (n : Nat)
  | exclusive
  deriving DecidableEq

/-- What a cell contains.  `asset_hashes` is never written and of the memory manager nothing is used but the two memories, so there is nothing
to say about their contents. -/
def Content (E : Env) : Cell → Type
  | .rng => Option E.Rng
  | .libSettings => Option Settings
  | .messages => SiweMessageMap
  | .signatureMap => SigMap
  | .assetHashes => Unit
  | .memoryManager => Unit
  | .settings => ProviderSettings
  | .principalAddress => StableMap
  | .addressPrincipal => StableMap

/-- The contents of a cell. -/
def contents {E : Env} (s : State E) : (c : Cell) → Content E c
  | .rng => s.lib.rng
  | .libSettings => s.lib.settings
  | .messages => s.lib.messages
  | .signatureMap => s.sigMap
  | .assetHashes => ()
  | .memoryManager => ()
  | .settings => s.settings
  | .principalAddress => s.principalAddress
  | .addressPrincipal => s.addressPrincipal

/-- The state with other contents of a cell. -/
def update {E : Env} (s : State E) : (c : Cell) → Content E c → State E
  | .rng, x => { s with lib := { s.lib with rng := x } }
  | .libSettings, x => { s with lib := { s.lib with settings := x } }
  | .messages, x => { s with lib := { s.lib with messages := x } }
  | .signatureMap, x => { s with sigMap := x }
  | .assetHashes, _ => s
  | .memoryManager, _ => s
  | .settings, x => { s with settings := x }
  | .principalAddress, x => { s with principalAddress := x }
  | .addressPrincipal, x => { s with addressPrincipal := x }

/-- The memory of a running canister: the contents of the cells with the certified data, and which cells are borrowed. -/
structure Memory (E : Env) where
  state : State E
  borrows : Cell → Borrow

/-- Why an execution stops. -/
inductive Stop where
  /-- a panic, `unwrap` or `ic_cdk::trap` of the code -/
  | panic
  /-- `BorrowMutError`: "already borrowed" -/
  | alreadyBorrowed (c : Cell)
  /-- `BorrowError`: "already mutably borrowed" -/
  | alreadyMutablyBorrowed (c : Cell)
  deriving DecidableEq

/-- Rust code that reads and writes the memory and may stop. -/
def Prog (E : Env) (α : Type) := Memory E → Except Stop (α × Memory E)

instance {E : Env} : Monad (Prog E) where
  pure a := fun m => .ok (a, m)
  bind x f := fun m =>
    match x m with
    | .ok (a, m) => f a m
    | .error e => .error e

/-- A panic. -/
def stop {E : Env} {α : Type} : Prog E α := fun _ => .error .panic

/-- A function that does not touch the cells: its `Result` as a value. -/
def call {E : Env} {ε α : Type} (x : Res ε α) : Prog E (Except ε α) :=
  match x with
  | .ok a => pure (.ok a)
  | .err e => pure (.error e)
  | .panic => stop

/-- The same with a case distinction on the `Result` (as a function, like `Res.elim`). -/
def callElim {E : Env} {ε α β : Type} (x : Res ε α) (onErr : ε → Prog E β) (onOk : α → Prog E β) : Prog E β :=
  x.elim onErr stop onOk

/-- The memory with another borrow flag of a cell. -/
def Memory.flag {E : Env} (m : Memory E) (c : Cell) (b : Borrow) : Memory E :=
  { m with borrows := fun c' => if c' = c then b else m.borrows c' }

/-- `RefCell::borrow` until the end of the closure (`LocalKey::with_borrow`).  Dropping the guard gives back one shared borrow. -/
def withBorrow {E : Env} {α : Type} (c : Cell) (f : Content E c → Prog E α) : Prog E α := fun m =>
  match m.borrows c with
  | .exclusive => .error (.alreadyMutablyBorrowed c)
  | .shared n =>
    match f (contents m.state c) (m.flag c (.shared (n + 1))) with
    | .error e => .error e
    | .ok (a, m') =>
      .ok (a, m'.flag c (match m'.borrows c with | .shared k => .shared (k - 1) | .exclusive => .exclusive))

/-- `RefCell::borrow_mut` until the end of the closure (`LocalKey::with_borrow_mut`); the closure leaves new contents.  Dropping the guard
makes the cell unused. -/
def withBorrowMut {E : Env} {α : Type} (c : Cell) (f : Content E c → Prog E (α × Content E c)) : Prog E α := fun m =>
  match m.borrows c with
  | .exclusive => .error (.alreadyBorrowed c)
  | .shared (_ + 1) => .error (.alreadyBorrowed c)
  | .shared 0 =>
    match f (contents m.state c) (m.flag c .exclusive) with
    | .error e => .error e
    | .ok ((a, x), m') => .ok (a, { m' with state := update m'.state c x }.flag c (.shared 0))

/-- `ic_cdk::api::set_certified_data` -/
def setCertifiedData {E : Env} (b : Bytes) : Prog E Unit := fun m =>
  .ok ((), { m with state := { m.state with certifiedData := b } })

/-- packages/ic_siwe/src/macros.rs:18-29 `with_settings!` -/
def withSettings {E : Env} {α : Type} (f : Settings → Prog E α) : Prog E α :=
  withBorrow .libSettings fun s =>
    match s with
    | none => stop
    | some s => f s

/-- packages/ic_siwe/src/rand.rs:2-10 `generate_nonce` -/
def generateNonce {E : Env} : Prog E Bytes :=
  withBorrowMut .rng fun rng =>
    match rng with
    | none => stop
    | some rng =>
      let (buf, rng') := E.rngFill10 rng
      pure (hexEncode buf.val, some rng')

/-- packages/ic_siwe/src/siwe.rs:76-92 `SiweMessage::new` -/
def newMessage {E : Env} (now : UInt64) (address : EthAddress) (nonce : Bytes) : Prog E SiweMessage :=
  withSettings fun s => pure (SiweMessage.new s now address nonce)

/-- packages/ic_siwe/src/login.rs:46-56 `prepare_login` -/
def prepareLogin {E : Env} (now : UInt64) (address : EthAddress) : Prog E (Except EthError (SiweMessage × Bytes)) := do
  let nonce ← generateNonce
  let message ← newMessage now address nonce
  let r : Except EthError Unit ← withBorrowMut .messages fun messages => do
    match ← call (messages.insert E message address nonce : Res EthError _) with
    | .ok messages => pure (.ok (), messages)
    | .error e => pure (.error e, messages)
  match r with
  | .ok () => pure (.ok (message, nonce))
  | .error e => pure (.error e)

/-- packages/ic_siwe/src/delegation.rs:79-103 `generate_seed` -/
def generateSeed {E : Env} (address : EthAddress) : Prog E Hash :=
  withSettings fun s => pure (Siwe.generateSeed E s address)

/-- packages/ic_siwe/src/delegation.rs:110-138 `create_delegation`; the settings are only borrowed at its end -/
def createDelegation {E : Env} (sessionKey : Bytes) (expiration : UInt64) : Prog E (Except DelegationError Delegation) :=
  if sessionKey.isEmpty then pure (.error .sessionKeyEmpty)
  else if !E.derOk sessionKey then pure (.error .sessionKeyNotDer)
  else if expiration = 0 then pure (.error .invalidExpiration)
  else withSettings fun s => pure (.ok ⟨sessionKey, expiration, s.targets⟩)

/-- packages/ic_siwe/src/login.rs:165-192: the rest of `login` after the signature check, with the pending messages still borrowed -/
def grant {E : Env} (sm : SigMap) (now : UInt64) (message : SiweMessage) (address : EthAddress) (sessionKey canisterId : Bytes) :
    Prog E (SigMap × Except LoginError LoginDetails) := do
  let expiration ← withSettings fun s => pure (satAdd message.issuedAt s.sessionExpiresIn)
  let seed ← generateSeed address
  match ← call (sm.pruneExpired now maxSigsToPrune : Res LoginError _) with
  | .error e => pure (sm, .error e)
  | .ok (_, sm) =>
    match ← createDelegation sessionKey expiration with
    | .error e => pure (sm, .error (.delegation e))
    | .ok delegation =>
      match ← call (createDelegationHash E delegation : Res LoginError _) with
      | .error e => pure (sm, .error e)
      | .ok delegationHash =>
        match ← call (sm.put now (hashBytes E seed.bytes) delegationHash : Res LoginError _) with
        | .error e => pure (sm, .error e)
        | .ok sm => pure (sm, .ok ⟨expiration, createUserCanisterPubkey canisterId seed.bytes⟩)

/-- packages/ic_siwe/src/login.rs:147-193: the rest of the closure below, once the pending message and its text are known -/
def loginWith {E : Env} (sm : SigMap) (now : UInt64) (signature : EthSignature) (address : EthAddress)
    (sessionKey canisterId nonce : Bytes) (messages : SiweMessageMap) (message : SiweMessage) (text : Bytes) :
    Prog E ((SigMap × Except LoginError LoginDetails) × SiweMessageMap) := do
  let result ← call (checkSignature E text signature address)
  match ← call (messages.remove E address nonce : Res LoginError _) with
  | .error e => pure ((sm, .error e), messages)
  | .ok messages =>
    match result with
    | .error e => pure ((sm, .error e), messages)
    | .ok () => do
      let r ← grant sm now message address sessionKey canisterId
      pure (r, messages)

/-- packages/ic_siwe/src/login.rs:139-193: the closure that `login` runs with the pending messages borrowed -/
def loginBody {E : Env} (sm : SigMap) (now : UInt64) (signature : EthSignature) (address : EthAddress)
    (sessionKey canisterId nonce : Bytes) (messages : SiweMessageMap) :
    Prog E ((SigMap × Except LoginError LoginDetails) × SiweMessageMap) := do
  let messages := messages.pruneExpired now
  match ← call (messages.get E address nonce : Res LoginError _) with
  | .error e => pure ((sm, .error e), messages)
  | .ok none => pure ((sm, .error .messageNotFound), messages)
  | .ok (some message) =>
    callElim (message.text : Res LoginError _) (fun e => pure ((sm, .error e), messages))
      fun text => loginWith sm now signature address sessionKey canisterId nonce messages message text

/-- packages/ic_siwe/src/login.rs:128-194 `login`; `sm` is the caller's signature map, and its contents afterwards are returned -/
def login {E : Env} (sm : SigMap) (now : UInt64) (signature : EthSignature) (address : EthAddress)
    (sessionKey canisterId nonce : Bytes) : Prog E (SigMap × Except LoginError LoginDetails) :=
  withBorrowMut .messages (loginBody sm now signature address sessionKey canisterId nonce)

/-- packages/ic_siwe/src/init.rs:25-31 `init`: `LocalKey::set` borrows the cell mutably for the assignment -/
def libInit {E : Env} (s : Settings) : Prog E Unit :=
  withBorrowMut .libSettings fun _ => pure ((), some s)

/-- packages/ic_siwe/src/init.rs:46 -/
def seedRng {E : Env} (seed : Bytes) : Prog E Unit :=
  withBorrowMut .rng fun _ => pure ((), some (E.rngFromSeed seed))

/-- packages/ic_siwe_provider/src/service/init_upgrade.rs:104-125: what `siwe_init` does with the provider's settings borrowed; the library is
initialised in between -/
def siweInitBody {E : Env} (features : Option (List ProviderFeature)) (b : Settings) (p : ProviderSettings) :
    Prog E (Unit × ProviderSettings) := do
  match ← call ((SettingsBuilder.build E (applyFeatureOption features (b, p)).1).unwrap : Res Empty _) with
  | .error e => nomatch e
  | .ok s => do
    libInit s
    pure ((), (applyFeatureOption features (b, p)).2)

/-- packages/ic_siwe_provider/src/service/init_upgrade.rs:65-126 `siwe_init` -/
def siweInit {E : Env} (i : SettingsInput) : Prog E Unit := do
  match ← call (applyTargets E i.targets (applyScalars i) : Res Empty _) with
  | .error e => nomatch e
  | .ok b => withBorrowMut .settings (siweInitBody i.runtimeFeatures b)

/-- packages/ic_siwe_provider/src/service/siwe_prepare_login.rs:20-31 `siwe_prepare_login` -/
def siwePrepareLogin {E : Env} (now : UInt64) (address : Bytes) : Prog E (Except ProviderError PrepareLoginOkResponse) := do
  match ← call (EthAddress.new E address) with
  | .error e => pure (.error (.eth e))
  | .ok address =>
    match ← prepareLogin now address with
    | .error e => pure (.error (.eth e))
    | .ok (message, nonce) =>
      callElim (message.text : Res ProviderError _) (fun e => pure (.error e)) fun text => pure (.ok ⟨text, nonce⟩)

/-- packages/ic_siwe_provider/src/lib.rs:105-111 `update_root_hash`, called with the assets borrowed and the signature map that the caller
has borrowed -/
def updateRootHash {E : Env} (sm : SigMap) : Prog E Unit :=
  withBorrow .assetHashes fun _ =>
    setCertifiedData (forkHash E (labeledHash E labelAssets (assetsRootHash E))
      (labeledHash E labelSig (sm.rootHash E))).bytes

/-- packages/ic_siwe_provider/src/lib.rs:92-102: the first access to a mapping borrows the memory manager to get its memory.  (Here every
access does.) -/
def withMapping {E : Env} {α : Type} (f : Prog E α) : Prog E α := do
  withBorrow .memoryManager fun _ => pure ()
  f

/-- packages/ic_siwe_provider/src/service/siwe_login.rs:70-72 -/
def insertPrincipalAddress {E : Env} (principal : Bytes) (address : EthAddress) : Prog E Unit :=
  withMapping <| withBorrowMut .principalAddress fun (pa : StableMap) => do
    match ← call (address.asByteArray.unwrap : Res Empty _) with
    | .error e => nomatch e
    | .ok a => pure ((), pa.insert principal a)

/-- packages/ic_siwe_provider/src/service/siwe_login.rs:75-77 -/
def insertAddressPrincipal {E : Env} (principal : Bytes) (address : EthAddress) : Prog E Unit :=
  withMapping <| withBorrowMut .addressPrincipal fun (ap : StableMap) => do
    match ← call (address.asByteArray.unwrap : Res Empty _) with
    | .error e => nomatch e
    | .ok a => pure ((), ap.insert a principal)

/-- `SETTINGS.with_borrow` (or a `borrow()` in a condition, which ends with it), to read a flag of the provider's settings -/
def providerFlag {E : Env} (g : ProviderSettings → Bool) : Prog E Bool :=
  withBorrow .settings fun s => pure (g s)

/-- `if !disabled { … }` -/
def unlessDisabled {E : Env} (disabled : Bool) (x : Prog E Unit) : Prog E Unit := if disabled then pure () else x

/-- packages/ic_siwe_provider/src/service/siwe_login.rs:67-80 `manage_principal_address_mappings`; the settings are borrowed for the
conditions only -/
def managePrincipalAddressMappings {E : Env} (principal : Bytes) (address : EthAddress) : Prog E Unit := do
  unlessDisabled (← providerFlag fun s => s.disablePrincipalToEthMapping) (insertPrincipalAddress principal address)
  unlessDisabled (← providerFlag fun s => s.disableEthToPrincipalMapping) (insertAddressPrincipal principal address)

/-- packages/ic_siwe_provider/src/service/siwe_login.rs:33-64: what `siwe_login` does with the signature map borrowed -/
def siweLoginBody {E : Env} (now : UInt64) (signature address sessionKey nonce : Bytes) (sm : SigMap) :
    Prog E (Except ProviderError LoginDetails × SigMap) := do
  match ← call (EthAddress.new E address) with
  | .error e => pure (.error (.eth e), sm)
  | .ok address =>
    match ← call (EthSignature.new signature) with
    | .error e => pure (.error (.eth e), sm)
    | .ok signature =>
      let (sm, r) ← login sm now signature address sessionKey E.canisterId nonce
      match r with
      | .error e => pure (.error (.login e), sm)
      | .ok details => do
        updateRootHash sm
        let principal := selfAuthenticating E details.userCanisterPubkey
        if principal.length < 29 then stop
        else
          managePrincipalAddressMappings (principal.take 29) address
          pure (.ok details, sm)

/-- packages/ic_siwe_provider/src/service/siwe_login.rs:25-65 `siwe_login` -/
def siweLogin {E : Env} (now : UInt64) (signature address sessionKey nonce : Bytes) : Prog E (Except ProviderError LoginDetails) :=
  withBorrowMut .signatureMap (siweLoginBody now signature address sessionKey nonce)

/-- packages/ic_siwe_provider/src/service/siwe_get_delegation.rs:38-67: what `siwe_get_delegation` does with the signature map borrowed
(mutably, although it is not changed) -/
def siweGetDelegationBody {E : Env} (now : UInt64) (certificate : Bytes) (address : EthAddress) (sessionKey : Bytes)
    (expiration : UInt64) (sm : SigMap) : Prog E (Except ProviderError SignedDelegation × SigMap) := do
  let seed ← generateSeed address
  match ← createDelegation sessionKey expiration with
  | .error e => pure (.error (.delegation e), sm)
  | .ok delegation =>
    match ← call (createDelegationHash E delegation : Res ProviderError _) with
    | .error e => pure (.error e, sm)
    | .ok delegationHash =>
      match ← call (witness E sm now seed delegationHash) with
      | .error e => pure (.error (.delegation e), sm)
      | .ok signatureWitness => do
        let assets ← withBorrow .assetHashes fun _ => pure (assetsRootHash E)
        let tree := HashTree.fork (.pruned (labeledHash E labelAssets assets)) (.labeled labelSig signatureWitness)
        pure (.ok ⟨delegation, createCertifiedSignature certificate tree⟩, sm)

/-- packages/ic_siwe_provider/src/service/siwe_get_delegation.rs:25-69 `siwe_get_delegation` -/
def siweGetDelegation {E : Env} (now : UInt64) (certificate : Option Bytes) (address sessionKey : Bytes) (expiration : UInt64) :
    Prog E (Except ProviderError SignedDelegation) :=
  match certificate with
  | none => stop
  | some certificate => do
    match ← call (EthAddress.new E address) with
    | .error e => pure (.error (.eth e))
    | .ok address => withBorrowMut .signatureMap (siweGetDelegationBody now certificate address sessionKey expiration)

/-- packages/ic_siwe_provider/src/service/get_address.rs:30-35 -/
def lookupAddress {E : Env} (principal : Bytes) : Prog E (Option Bytes) :=
  withMapping <| withBorrow .principalAddress fun pa => pure (List.lookup principal (pa : StableMap))

/-- packages/ic_siwe_provider/src/service/get_principal.rs:27-32 -/
def lookupPrincipal {E : Env} (address : Bytes) : Prog E (Option Bytes) :=
  withMapping <| withBorrow .addressPrincipal fun ap => pure (List.lookup address (ap : StableMap))

/-- packages/ic_siwe_provider/src/service/get_address.rs:17-40 `get_address` -/
def getAddress {E : Env} (principal : Bytes) : Prog E (Except ProviderError Bytes) := do
  if (← providerFlag fun s => s.disablePrincipalToEthMapping) then pure (.error .principalToEthDisabled)
  else if principal.length > 29 then pure (.error .notABlob)
  else
    match ← lookupAddress principal with
    | none => pure (.error .noAddress)
    | some a =>
      match ← call (convertToEip55 E (bytesToEthAddress a)) with
      | .error e => pure (.error (.eth e))
      | .ok t => pure (.ok t)

/-- packages/ic_siwe_provider/src/service/get_caller_address.rs:16-26 `get_caller_address` -/
def getCallerAddress {E : Env} (caller : Bytes) : Prog E (Except ProviderError Bytes) := do
  if (← providerFlag fun s => s.disablePrincipalToEthMapping) then pure (.error .principalToEthDisabled)
  else getAddress caller

/-- packages/ic_siwe_provider/src/service/get_principal.rs:16-33 `get_principal` (the bytes of the address are computed before the
borrow here, inside it there) -/
def getPrincipal {E : Env} (address : Bytes) : Prog E (Except ProviderError Bytes) := do
  if (← providerFlag fun s => s.disableEthToPrincipalMapping) then pure (.error .ethToPrincipalDisabled)
  else
    match ← call (EthAddress.new E address) with
    | .error e => pure (.error (.eth e))
    | .ok address =>
      match ← call (address.asByteArray.unwrap : Res Empty _) with
      | .error e => nomatch e
      | .ok a =>
        match ← lookupPrincipal a with
        | none => pure (.error .noPrincipal)
        | some p => pure (.ok p)

/-- The reply to an `Ok` or `Err`. -/
def answer {E : Env} {α : Type} (f : α → Reply) (x : Prog E (Except ProviderError α)) : Prog E Reply := do
  match ← x with
  | .ok a => pure (f a)
  | .error e => pure (.err e)

/-- What runs for a call or event. -/
def program {E : Env} (now : UInt64) : Op → Prog E Reply
  | .install i => do siweInit i; pure .done
  | .upgrade i => do siweInit i; pure .done
  | .rngSeeded seed => do seedRng seed; pure .done
  | .prepareLogin a => answer .prepared (siwePrepareLogin now a)
  | .login sig a k n => answer .loggedIn (siweLogin now sig a k n)
  | .getDelegation c a k e => answer .delegation (siweGetDelegation now c a k e)
  | .getAddress p => answer .bytes (getAddress p)
  | .getCallerAddress c => answer .bytes (getCallerAddress c)
  | .getPrincipal a => answer .bytes (getPrincipal a)

/-- No cell is borrowed. -/
def unused : Cell → Borrow := fun _ => .shared 0

/-- The memory in which a call or event starts, as the previous one left it.  The heap, and with it the cells, is new after an installation or
upgrade. -/
def before {E : Env} (m : Memory E) : Op → Memory E
  | .install _ => ⟨.fresh E, unused⟩
  | .upgrade _ => ⟨m.state.afterUpgrade, unused⟩
  | _ => m

/-- Whether the method is a query, whose changes to the memory are discarded. -/
def isQuery : Op → Bool
  | .getDelegation .. | .getAddress _ | .getCallerAddress _ | .getPrincipal _ => true
  | _ => false

/-- One call or event: a trap discards all changes to the memory, borrows included. -/
def step {E : Env} (m : Memory E) (now : UInt64) (op : Op) : Memory E × Reply :=
  match program now op (before m op) with
  | .error _ => (m, .trap)
  | .ok (r, m') => (if isQuery op then m else m', r)

/-- Run a history, collecting the replies. -/
def run {E : Env} (m : Memory E) : History → Memory E × List Reply
  | [] => (m, [])
  | (now, op) :: rest =>
    let (m', r) := step m now op
    let (m'', rs) := run m' rest
    (m'', r :: rs)

end Siwe.Cells
