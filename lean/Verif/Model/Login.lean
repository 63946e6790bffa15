import Verif.Model.Delegation
/-
packages/ic_siwe/src/login.rs, packages/ic_siwe/src/rand.rs, packages/ic_siwe/src/init.rs and the globals of
packages/ic_siwe/src/lib.rs:189-201.
-/
namespace Siwe

/-- lib.rs:189-201, the library's thread-local state -/
structure LibState (E : Env) where
  rng : Option E.Rng
  settings : Option Settings
  messages : SiweMessageMap

/-- lib.rs:189-201 initial values -/
def LibState.initial (E : Env) : LibState E := ⟨none, none, []⟩

/-- init.rs:25-31 `init`.  The timer it starts (init.rs:33-49) is the separate event `seedRng`. -/
def libInit {E : Env} (l : LibState E) (s : Settings) : LibState E := { l with settings := some s }

/-- init.rs:46: the reply of `raw_rand` arrives -/
def seedRng {E : Env} (l : LibState E) (seed : Bytes) : LibState E :=
  { l with rng := some (E.rngFromSeed seed) }

/-- rand.rs:2-10 `generate_nonce`; `unwrap` of an unseeded generator panics -/
def generateNonce {ε : Type} {E : Env} (l : LibState E) : Res ε (Bytes × LibState E) :=
  match l.rng with
  | none => .panic
  | some rng =>
    let (buf, rng') := E.rngFill10 rng
    .ok (hexEncode buf.val, { l with rng := some rng' })

/-- login.rs:46-56 `prepare_login`: new state, message and nonce.  It never returns `Err`. -/
def prepareLogin {E : Env} (l : LibState E) (now : UInt64) (address : EthAddress) :
    Res EthError (LibState E × SiweMessage × Bytes) := do
  let (nonce, l) ← generateNonce l
  match l.settings with
  | none => .panic
  | some s =>
    let message := SiweMessage.new s now address nonce
    let messages ← l.messages.insert E message address nonce
    .ok ({ l with messages := messages }, message, nonce)

/-- login.rs:60-67 `LoginDetails` -/
structure LoginDetails where
  expiration : UInt64
  userCanisterPubkey : Bytes
  deriving DecidableEq

/-- login.rs:69-75 `LoginError`; `ASN1EncodeErr` cannot arise (see `createUserCanisterPubkey`) -/
inductive LoginError where
  | eth (e : EthError)
  | messageNotFound
  | addressMismatch
  | delegation (e : DelegationError)
  deriving DecidableEq

/-- login.rs:23 `MAX_SIGS_TO_PRUNE` -/
def maxSigsToPrune : Nat := 10

/-- login.rs:149-158: the signature check -/
def checkSignature (E : Env) (text : Bytes) (signature : EthSignature) (address : EthAddress) :
    Res LoginError Unit :=
  match recoverEthAddress E text signature with
  | .ok recovered => if recovered ≠ address.str then .err .addressMismatch else .ok ()
  | .err e => .err (.eth e)
  | .panic => .panic

/-- login.rs:173-192: everything after the signature check, returning the signature map as it is left -/
def grant (E : Env) (s : Settings) (sm : SigMap) (now : UInt64) (message : SiweMessage)
    (address : EthAddress) (sessionKey canisterId : Bytes) : SigMap × Res LoginError LoginDetails :=
  let expiration := satAdd message.issuedAt s.sessionExpiresIn
  let seed := generateSeed E s address
  match (sm.pruneExpired now maxSigsToPrune : Res LoginError _) with
  | .err e => (sm, .err e)
  | .panic => (sm, .panic)
  | .ok (_, sm) =>
    match createDelegation E s sessionKey expiration with
    | .err e => (sm, .err (.delegation e))
    | .panic => (sm, .panic)
    | .ok delegation =>
      match (createDelegationHash E delegation : Res LoginError _) with
      | .err e => (sm, .err e)
      | .panic => (sm, .panic)
      | .ok delegationHash =>
        match (sm.put now (hashBytes E seed.bytes) delegationHash : Res LoginError _) with
        | .err e => (sm, .err e)
        | .panic => (sm, .panic)
        | .ok sm => (sm, .ok ⟨expiration, createUserCanisterPubkey canisterId seed.bytes⟩)

/-- login.rs:147-194: the rest of `login` once the pending message and its text are known.  `l` is the library
state with expired messages already removed. -/
def loginWith {E : Env} (l : LibState E) (sm : SigMap) (now : UInt64) (signature : EthSignature)
    (address : EthAddress) (sessionKey canisterId nonce : Bytes) (message : SiweMessage) (text : Bytes) :
    LibState E × SigMap × Res LoginError LoginDetails :=
  let result := checkSignature E text signature address
  match (l.messages.remove E address nonce : Res LoginError _) with
  | .err e => (l, sm, .err e)
  | .panic => (l, sm, .panic)
  | .ok msgs =>
    let l := { l with messages := msgs }
    match result with
    | .err e => (l, sm, .err e)
    | .panic => (l, sm, .panic)
    | .ok () =>
      match l.settings with
      | none => (l, sm, .panic)
      | some s =>
        let (sm, r) := grant E s sm now message address sessionKey canisterId
        (l, sm, r)

/-- login.rs:128-194 `login`: the library state and signature map as they are left (also on `Err`), and
the result. -/
def login {E : Env} (l : LibState E) (sm : SigMap) (now : UInt64) (signature : EthSignature)
    (address : EthAddress) (sessionKey canisterId nonce : Bytes) :
    LibState E × SigMap × Res LoginError LoginDetails :=
  let l := { l with messages := l.messages.pruneExpired now }
  match (l.messages.get E address nonce : Res LoginError _) with
  | .err e => (l, sm, .err e)
  | .panic => (l, sm, .panic)
  | .ok none => (l, sm, .err .messageNotFound)
  | .ok (some message) =>
    (message.text : Res LoginError _).elim (fun e => (l, sm, .err e)) (l, sm, .panic)
      fun text => loginWith l sm now signature address sessionKey canisterId nonce message text

end Siwe
