import Verif.Model.Provider
import Verif.Model.StableBTree
/-
The canister of `Model/Provider.lean` with its two mappings in stable memory (ic_siwe_provider/src/lib.rs:92-102): B-trees that are
loaded when they are first used after an installation or an upgrade, and changed only through their memory.

Simplification: the two virtual memories are two memories; the memory manager that keeps them in one is not modelled.
-/
namespace Siwe.StableBTree

/-- A `thread_local!` map (lib.rs:92-102): not loaded yet, or loaded. -/
inductive Handle where
  | closed (m : Memory)
  | opened (t : BTreeMap)

/-- lib.rs:92-102: the first use runs the initialiser, `StableBTreeMap::init` of the map's memory. -/
def Handle.map : Handle → BTreeMap
  | .closed m => init m
  | .opened t => t

/-- What an upgrade leaves of a map: its memory. -/
def Handle.reset : Handle → Handle
  | .closed m => .closed m
  | .opened t => .closed t.memory

/-- lib.rs:61-103: the canister's state, as `State` but for the mappings. -/
structure Canister (E : Env) where
  lib : LibState E
  sigMap : SigMap
  settings : ProviderSettings
  certifiedData : Bytes
  principalAddress : Handle
  addressPrincipal : Handle

/-- The state without the mappings, for the functions that do not use them. -/
def Canister.heap {E : Env} (c : Canister E) : State E where
  lib := c.lib
  sigMap := c.sigMap
  settings := c.settings
  principalAddress := []
  addressPrincipal := []
  certifiedData := c.certifiedData

/-- Take over what a function that does not use the mappings did. -/
def Canister.withHeap {E : Env} (c : Canister E) (s : State E) : Canister E :=
  { c with lib := s.lib, sigMap := s.sigMap, settings := s.settings, certifiedData := s.certifiedData }

/-- `State.fresh`: at installation the stable memory is unused. -/
def Canister.fresh (E : Env) : Canister E where
  lib := .initial E
  sigMap := .empty
  settings := ⟨false, false⟩
  certifiedData := []
  principalAddress := .closed .unused
  addressPrincipal := .closed .unused

/-- `State.afterUpgrade`: of the mappings, what lies in stable memory remains. -/
def Canister.afterUpgrade {E : Env} (c : Canister E) : Canister E :=
  { Canister.fresh E with
    certifiedData := c.certifiedData
    principalAddress := c.principalAddress.reset
    addressPrincipal := c.addressPrincipal.reset }

/-- siwe_login.rs:67-80 `manage_principal_address_mappings` -/
def managePrincipalAddressMappings {E : Env} (c : Canister E) (principal : Bytes) (address : EthAddress) :
    Res ProviderError (Canister E) := do
  let c ←
    if !c.settings.disablePrincipalToEthMapping then do
      let a ← address.asByteArray.unwrap
      match insert c.principalAddress.map principal a with
      | none => .panic
      | some (t, _) => (.ok { c with principalAddress := .opened t } : Res ProviderError (Canister E))
    else .ok c
  if !c.settings.disableEthToPrincipalMapping then do
    let a ← address.asByteArray.unwrap
    match insert c.addressPrincipal.map a principal with
    | none => .panic
    | some (t, _) => .ok { c with addressPrincipal := .opened t }
  else .ok c

/-- siwe_login.rs:25-65 `siwe_login` -/
def siweLogin {E : Env} (c : Canister E) (now : UInt64) (signature address sessionKey nonce : Bytes) :
    Canister E × Res ProviderError LoginDetails :=
  match EthAddress.new E address with
  | .err e => (c, .err (.eth e))
  | .panic => (c, .panic)
  | .ok address =>
    match EthSignature.new signature with
    | .err e => (c, .err (.eth e))
    | .panic => (c, .panic)
    | .ok signature =>
      let (l, sm, r) := Siwe.login c.lib c.sigMap now signature address sessionKey E.canisterId nonce
      let c := { c with lib := l, sigMap := sm }
      match r with
      | .err e => (c, .err (.login e))
      | .panic => (c, .panic)
      | .ok details =>
        let c := c.withHeap (updateRootHash c.heap)
        let principal := selfAuthenticating E details.userCanisterPubkey
        if principal.length < 29 then (c, .panic)
        else
          match managePrincipalAddressMappings c (principal.take 29) address with
          | .err e => (c, .err e)
          | .panic => (c, .panic)
          | .ok c => (c, .ok details)

/-- get_address.rs:17-40 `get_address` -/
def getAddress {E : Env} (c : Canister E) (principal : Bytes) : Res ProviderError Bytes :=
  if c.settings.disablePrincipalToEthMapping then .err .principalToEthDisabled
  else if principal.length > 29 then .err .notABlob
  else
    match get c.principalAddress.map principal with
    | none => .panic
    | some none => .err .noAddress
    | some (some a) => (convertToEip55 E (bytesToEthAddress a)).mapErr .eth

/-- get_caller_address.rs:16-26 `get_caller_address` -/
def getCallerAddress {E : Env} (c : Canister E) (caller : Bytes) : Res ProviderError Bytes :=
  if c.settings.disablePrincipalToEthMapping then .err .principalToEthDisabled
  else getAddress c caller

/-- get_principal.rs:16-33 `get_principal` -/
def getPrincipal {E : Env} (c : Canister E) (address : Bytes) : Res ProviderError Bytes :=
  if c.settings.disableEthToPrincipalMapping then .err .ethToPrincipalDisabled
  else do
    let address ← (EthAddress.new E address).mapErr .eth
    let a ← address.asByteArray.unwrap
    match get c.addressPrincipal.map a with
    | none => .panic
    | some none => .err .noPrincipal
    | some (some p) => .ok p

/-- init_upgrade.rs:136-150: as `commitInit`. -/
def commitInit {E : Env} (old new : Canister E) (x : Res Empty (State E)) : Canister E × Reply :=
  match x with
  | .ok s => (new.withHeap s, .done)
  | .err e => nomatch e
  | .panic => (old, .trap)

/-- An update call: as `commit`, a trap discards the changes, those to stable memory included. -/
def commit {E : Env} {α : Type} (c : Canister E) (f : α → Reply) (x : Canister E × Res ProviderError α) : Canister E × Reply :=
  match x.2 with
  | .panic => (c, .trap)
  | r => (x.1, reply f r)

/-- One call or event at time `now`; a query's changes (a map that was loaded) are discarded. -/
def step {E : Env} (c : Canister E) (now : UInt64) : Op → Canister E × Reply
  | .install i => commitInit c (Canister.fresh E) (siweInit (Canister.fresh E).heap i)
  | .upgrade i => commitInit c c.afterUpgrade (siweInit c.afterUpgrade.heap i)
  | .rngSeeded seed => ({ c with lib := seedRng c.lib seed }, .done)
  | .prepareLogin a =>
    let x := siwePrepareLogin c.heap now a
    commit c .prepared (c.withHeap x.1, x.2)
  | .login sig a k n => commit c .loggedIn (siweLogin c now sig a k n)
  | .getDelegation cert a k e => (c, reply .delegation (siweGetDelegation c.heap now cert a k e))
  | .getAddress p => (c, reply .bytes (getAddress c p))
  | .getCallerAddress p => (c, reply .bytes (getCallerAddress c p))
  | .getPrincipal a => (c, reply .bytes (getPrincipal c a))

/-- Run a history, collecting the replies. -/
def run {E : Env} (c : Canister E) : History → Canister E × List Reply
  | [] => (c, [])
  | (now, op) :: rest =>
    let (c', r) := step c now op
    let (c'', rs) := run c' rest
    (c'', r :: rs)

end Siwe.StableBTree
