import Verif.Model.Candid
import Verif.Model.Provider
import Verif.Model.ErrorText
/-
The canister's interface: as published (ic_siwe_provider.did), as the client has it (ic_siwe_js/src/ic_siwe_provider.did.js),
and as the code has it (the Rust types' `CandidType`); how a message becomes a call of the code, and how a result becomes a reply.
-/
namespace Siwe.Candid

abbrev text : Ty := .prim .text
abbrev nat : Ty := .prim .nat
abbrev nat32 : Ty := .prim .nat32
abbrev nat64 : Ty := .prim .nat64
abbrev null : Ty := .prim .null
abbrev principal : Ty := .prim .principal
/-- `blob`, `IDL.Vec(IDL.Nat8)`, `ByteBuf` -/
abbrev blob : Ty := .vec (.prim .nat8)
/-- A record with named fields. -/
def record (fs : List (String × Ty)) : Ty := .record (.named fs)
/-- A variant with named cases. -/
def variant (fs : List (String × Ty)) : Ty := .variant (.named fs)

/-- A method of the service. -/
structure Method where
  name : String
  args : List Ty
  result : Ty
  query : Bool
  deriving DecidableEq

/- ic_siwe_provider/ic_siwe_provider.did -/
namespace Did

/-- ic_siwe_provider.did:11-15 `RuntimeFeature` -/
def runtimeFeature : Ty :=
  variant [("IncludeUriInSeed", null), ("DisableEthToPrincipalMapping", null), ("DisablePrincipalToEthMapping", null)]

/-- ic_siwe_provider.did:17-28 `SettingsInput`, the argument of the service -/
def settingsInput : Ty := record
  [("domain", text), ("uri", text), ("salt", text), ("chain_id", .opt nat), ("scheme", .opt text), ("statement", .opt text),
   ("sign_in_expires_in", .opt nat64), ("session_expires_in", .opt nat64), ("targets", .opt (.vec text)),
   ("runtime_features", .opt (.vec runtimeFeature))]

/-- ic_siwe_provider.did:30-33 -/
def getAddressResponse : Ty := variant [("Ok", text), ("Err", text)]
/-- ic_siwe_provider.did:45-49 -/
def delegation : Ty := record [("pubkey", blob), ("expiration", nat64), ("targets", .opt (.vec principal))]
/-- ic_siwe_provider.did:40-43 -/
def signedDelegation : Ty := record [("delegation", delegation), ("signature", blob)]
/-- ic_siwe_provider.did:35-38 -/
def getDelegationResponse : Ty := variant [("Ok", signedDelegation), ("Err", text)]
/-- ic_siwe_provider.did:51-54; `type Principal = blob` (line 3) -/
def getPrincipalResponse : Ty := variant [("Ok", blob), ("Err", text)]
/-- ic_siwe_provider.did:61-64 -/
def loginDetails : Ty := record [("expiration", nat64), ("user_canister_pubkey", blob)]
/-- ic_siwe_provider.did:56-59 -/
def loginResponse : Ty := variant [("Ok", loginDetails), ("Err", text)]
/-- ic_siwe_provider.did:66-69 -/
def prepareLoginOkResponse : Ty := record [("siwe_message", text), ("nonce", text)]
/-- ic_siwe_provider.did:71-74 -/
def prepareLoginResponse : Ty := variant [("Ok", prepareLoginOkResponse), ("Err", text)]

/-- ic_siwe_provider.did:76-83 -/
def methods : List Method :=
  [⟨"get_address", [blob], getAddressResponse, true⟩,
   ⟨"get_caller_address", [], getAddressResponse, true⟩,
   ⟨"get_principal", [text], getPrincipalResponse, true⟩,
   ⟨"siwe_prepare_login", [text], prepareLoginResponse, false⟩,
   ⟨"siwe_login", [text, text, blob, text], loginResponse, false⟩,
   ⟨"siwe_get_delegation", [text, blob, nat64], getDelegationResponse, true⟩]

end Did

/- ic_siwe_js/src/ic_siwe_provider.did.js -/
namespace Js

/-- ic_siwe_provider.did.js:77-81 -/
def runtimeFeature : Ty :=
  variant [("IncludeUriInSeed", null), ("DisableEthToPrincipalMapping", null), ("DisablePrincipalToEthMapping", null)]

/-- ic_siwe_provider.did.js:82-93 -/
def settingsInput : Ty := record
  [("uri", text), ("runtime_features", .opt (.vec runtimeFeature)), ("domain", text), ("statement", .opt text),
   ("scheme", .opt text), ("salt", text), ("session_expires_in", .opt nat64), ("targets", .opt (.vec text)),
   ("chain_id", .opt nat), ("sign_in_expires_in", .opt nat64)]

/-- ic_siwe_provider.did.js:20-21 -/
def getAddressResponse : Ty := variant [("Ok", text), ("Err", text)]
/-- ic_siwe_provider.did.js:22-25; `Principal`, line 19 -/
def getPrincipalResponse : Ty := variant [("Ok", blob), ("Err", text)]
/-- ic_siwe_provider.did.js:29-33 -/
def delegation : Ty := record [("pubkey", blob), ("targets", .opt (.vec principal)), ("expiration", nat64)]
/-- ic_siwe_provider.did.js:34-37 -/
def signedDelegation : Ty := record [("signature", blob), ("delegation", delegation)]
/-- ic_siwe_provider.did.js:38-41 -/
def getDelegationResponse : Ty := variant [("Ok", signedDelegation), ("Err", text)]
/-- ic_siwe_provider.did.js:45-48 -/
def loginDetails : Ty := record [("user_canister_pubkey", blob), ("expiration", nat64)]
/-- ic_siwe_provider.did.js:49 -/
def loginResponse : Ty := variant [("Ok", loginDetails), ("Err", text)]
/-- ic_siwe_provider.did.js:51-54 -/
def prepareLoginOkResponse : Ty := record [("nonce", text), ("siwe_message", text)]
/-- ic_siwe_provider.did.js:55-58 -/
def prepareLoginResponse : Ty := variant [("Ok", prepareLoginOkResponse), ("Err", text)]

/-- ic_siwe_provider.did.js:59-74 -/
def methods : List Method :=
  [⟨"get_address", [blob], getAddressResponse, true⟩,
   ⟨"get_caller_address", [], getAddressResponse, true⟩,
   ⟨"get_principal", [text], getPrincipalResponse, true⟩,
   ⟨"siwe_get_delegation", [text, blob, nat64], getDelegationResponse, true⟩,
   ⟨"siwe_login", [text, text, blob, text], loginResponse, false⟩,
   ⟨"siwe_prepare_login", [text], prepareLoginResponse, false⟩]

end Js

/- The Rust types, through `#[derive(CandidType)]`: a `String` is a text, a `ByteBuf` a blob, `u32`/`u64` are nat32/nat64, a struct is a
record of its fields, an enum a variant of its cases, `Result<T, E>` the variant of `Ok` and `Err`. -/
namespace Rust

/-- init_upgrade.rs:8-18 `RuntimeFeature` -/
def runtimeFeature : Ty :=
  variant [("IncludeUriInSeed", null), ("DisableEthToPrincipalMapping", null), ("DisablePrincipalToEthMapping", null)]

/-- init_upgrade.rs:22-56 `SettingsInput` -/
def settingsInput : Ty := record
  [("domain", text), ("uri", text), ("salt", text), ("chain_id", .opt nat32), ("scheme", .opt text), ("statement", .opt text),
   ("sign_in_expires_in", .opt nat64), ("session_expires_in", .opt nat64), ("targets", .opt (.vec text)),
   ("runtime_features", .opt (.vec runtimeFeature))]

/-- `Result<T, String>` -/
def resultOf (t : Ty) : Ty := variant [("Ok", t), ("Err", text)]
/-- ic_siwe/src/delegation.rs:53-58 `Delegation` -/
def delegation : Ty := record [("pubkey", blob), ("expiration", nat64), ("targets", .opt (.vec principal))]
/-- ic_siwe/src/delegation.rs:60-64 `SignedDelegation` -/
def signedDelegation : Ty := record [("delegation", delegation), ("signature", blob)]
/-- ic_siwe/src/login.rs:59-67 `LoginDetails` -/
def loginDetails : Ty := record [("expiration", nat64), ("user_canister_pubkey", blob)]
/-- siwe_prepare_login.rs:5-9 `PrepareLoginOkResponse` -/
def prepareLoginOkResponse : Ty := record [("siwe_message", text), ("nonce", text)]

end Rust

/-- The exported functions. -/
inductive Function where
  | prepareLogin | login | getDelegation | getAddress | getCallerAddress | getPrincipal
  deriving DecidableEq

/-- The functions' signatures with their `#[update]`/`#[query]` attributes: siwe_prepare_login.rs:19-20, siwe_login.rs:24-30,
siwe_get_delegation.rs:24-29, get_address.rs:16-17, get_caller_address.rs:15-16, get_principal.rs:15-16. -/
def Function.method : Function → Method
  | .prepareLogin => ⟨"siwe_prepare_login", [text], Rust.resultOf Rust.prepareLoginOkResponse, false⟩
  | .login => ⟨"siwe_login", [text, text, blob, text], Rust.resultOf Rust.loginDetails, false⟩
  | .getDelegation => ⟨"siwe_get_delegation", [text, blob, nat64], Rust.resultOf Rust.signedDelegation, true⟩
  | .getAddress => ⟨"get_address", [blob], Rust.resultOf text, true⟩
  | .getCallerAddress => ⟨"get_caller_address", [], Rust.resultOf text, true⟩
  | .getPrincipal => ⟨"get_principal", [text], Rust.resultOf blob, true⟩

/-- Every exported function. -/
def Function.all : List Function := [.prepareLogin, .login, .getDelegation, .getAddress, .getCallerAddress, .getPrincipal]

/- Reading a decoded value into a Rust type (serde's `Deserialize`). -/
namespace Val

/-- `String` -/
def text? : Val → Option Bytes
  | .text b => .some b
  | _ => .none
/-- `u8` -/
def nat8? : Val → Option UInt8
  | .nat8 n => .some n
  | _ => .none
/-- `u32` -/
def nat32? : Val → Option UInt32
  | .nat32 n => .some n
  | _ => .none
/-- `u64` -/
def nat64? : Val → Option UInt64
  | .nat64 n => .some n
  | _ => .none
/-- `Vec<T>` -/
def vec? {α : Type} (f : Val → Option α) : Val → Option (List α)
  | .vec vs => vs.mapM f
  | _ => .none
/-- `ByteBuf` -/
def blob? (v : Val) : Option Bytes := v.vec? nat8?
/-- `Option<T>` -/
def opt? {α : Type} (f : Val → Option α) : Val → Option (Option α)
  | .none => .some .none
  | .some v => (f v).map .some
  | _ => .none
/-- a struct's field -/
def field (name : String) : Val → Option Val
  | .record fs => fs.lookup (label name)
  | _ => .none

end Val

/-- init_upgrade.rs:8-18, derived `Deserialize` -/
def readFeature : Val → Option ProviderFeature
  | .variant l .null =>
    if l = label "IncludeUriInSeed" then .some .includeUriInSeed
    else if l = label "DisableEthToPrincipalMapping" then .some .disableEthToPrincipalMapping
    else if l = label "DisablePrincipalToEthMapping" then .some .disablePrincipalToEthMapping
    else .none
  | _ => .none

/-- init_upgrade.rs:22-56, derived `Deserialize` -/
def readSettings (v : Val) : Option SettingsInput := do
  let domain ← (← v.field "domain").text?
  let uri ← (← v.field "uri").text?
  let salt ← (← v.field "salt").text?
  let chainId ← (← v.field "chain_id").opt? Val.nat32?
  let scheme ← (← v.field "scheme").opt? Val.text?
  let statement ← (← v.field "statement").opt? Val.text?
  let signInExpiresIn ← (← v.field "sign_in_expires_in").opt? Val.nat64?
  let sessionExpiresIn ← (← v.field "session_expires_in").opt? Val.nat64?
  let targets ← (← v.field "targets").opt? (Val.vec? Val.text?)
  let runtimeFeatures ← (← v.field "runtime_features").opt? (Val.vec? readFeature)
  .some ⟨domain, uri, salt, chainId, scheme, statement, signInExpiresIn, sessionExpiresIn, targets, runtimeFeatures⟩

/-- The arguments of a message: each with the type it is sent at. -/
abbrev Args := List (Ty × Val)

/-- init_upgrade.rs:135-136 and 147-148: the argument of `init` and `post_upgrade`, decoded by `ic_cdk`; a failure traps -/
def receiveSettings (args : Args) : Option SettingsInput := do
  match ← decodeArgs [Rust.settingsInput] args with
  | [v] => readSettings v
  | _ => .none

/-- A call of an exported function, its arguments decoded by `ic_cdk`; a failure traps.  The caller and the data certificate come with
the message. -/
def receiveCall (f : Function) (caller : Bytes) (certificate : Option Bytes) (args : Args) : Option Op := do
  match f, ← decodeArgs f.method.args args with
  | .prepareLogin, [a] => .some (.prepareLogin (← a.text?))
  | .login, [s, a, k, n] => .some (.login (← s.text?) (← a.text?) (← k.blob?) (← n.text?))
  | .getDelegation, [a, k, e] => .some (.getDelegation certificate (← a.text?) (← k.blob?) (← e.nat64?))
  | .getAddress, [p] => .some (.getAddress (← p.blob?))
  | .getCallerAddress, [] => .some (.getCallerAddress caller)
  | .getPrincipal, [a] => .some (.getPrincipal (← a.text?))
  | _, _ => .none

/-- What arrives at the canister. -/
inductive Message where
  | install (args : Args)
  | upgrade (args : Args)
  | rngSeeded (seed : Bytes)
  | call (name : String) (caller : Bytes) (certificate : Option Bytes) (args : Args)

/-- The operation a message asks for, if it can be decoded and the function exists. -/
def receive : Message → Option Op
  | .install args => (receiveSettings args).map .install
  | .upgrade args => (receiveSettings args).map .upgrade
  | .rngSeeded seed => .some (.rngSeeded seed)
  | .call name caller certificate args => do
    let f ← Function.all.find? fun f => f.method.name = name
    receiveCall f caller certificate args

/-- One message: what cannot be decoded traps before any of the code runs. -/
def stepMessage {E : Env} (s : State E) (now : UInt64) (m : Message) : State E × Reply :=
  match receive m with
  | .some op => step s now op
  | .none => (s, .trap)

/-- A history of messages, from a state. -/
def runMessages {E : Env} (s : State E) : List (UInt64 × Message) → State E × List Reply
  | [] => (s, [])
  | (now, m) :: rest =>
    let (s', r) := stepMessage s now m
    let (s'', rs) := runMessages s' rest
    (s'', r :: rs)

/-- A record's value: its fields in the order of the labels. -/
def recordVal (fs : List (String × Val)) : Val :=
  .record (sortBy (fun a b => a.1 ≤ b.1) (fs.map fun f => (label f.1, f.2)))
/-- A variant's value. -/
def caseVal (name : String) (v : Val) : Val := .variant (label name) v
/-- `Option<T>` -/
def optVal {α : Type} (f : α → Val) : Option α → Val
  | .none => .none
  | .some a => .some (f a)

/-- ic_siwe/src/delegation.rs:53-64, derived serialization -/
def delegationVal (d : SignedDelegation) : Val :=
  recordVal [("delegation", recordVal [("pubkey", .blob d.delegation.pubkey), ("expiration", .nat64 d.delegation.expiration),
      ("targets", optVal (fun ts => .vec (ts.map .principal)) d.delegation.targets)]),
    ("signature", .blob d.signature)]

/-- The reply to a call, encoded by `ic_cdk`; `derText` is the text of a DER error.  There is no reply value when a call traps.
The two functions that return a blob or a text give it in `Ok`. -/
def replyVal (derText : Bytes) (f : Function) : Reply → Option Val
  | .trap => .none
  | .done => .none
  | .err e => .some (caseVal "Err" (.text (e.text derText)))
  | .prepared r => .some (caseVal "Ok" (recordVal [("siwe_message", .text r.siweMessage), ("nonce", .text r.nonce)]))
  | .loggedIn d =>
    .some (caseVal "Ok" (recordVal [("expiration", .nat64 d.expiration), ("user_canister_pubkey", .blob d.userCanisterPubkey)]))
  | .delegation d => .some (caseVal "Ok" (delegationVal d))
  | .bytes b => .some (caseVal "Ok" (if f = .getPrincipal then .blob b else .text b))

end Siwe.Candid
