import Verif.Model.Login
/-
A canister that embeds the library (packages/ic_siwe) and calls its public functions as it likes, instead of being the
provider of packages/ic_siwe_provider.  The library keeps its configuration, its random generator and the pending messages
in thread-locals that only its own functions reach (lib.rs:188-201); signature maps belong to the canister, which may have
several and may also change them itself (signature_map.rs:49-125 is public).
-/
namespace Siwe

/-- lib.rs:189-201 and the canister's signature maps, numbered. -/
structure AppState (E : Env) where
  lib : LibState E
  maps : Nat → SigMap

/-- The state of a module that was just installed or upgraded: thread-locals have their initial values (lib.rs:189-201),
signature maps are empty (signature_map.rs:43).  Neither can be saved across an upgrade: nothing makes them serializable. -/
def AppState.fresh (E : Env) : AppState E := ⟨.initial E, fun _ => .empty⟩

/-- Replace one signature map. -/
def setMap (maps : Nat → SigMap) (i : Nat) (m : SigMap) : Nat → SigMap := fun j => if j = i then m else maps j

/-- The uses a canister can make of the library.  `restart` is an installation or upgrade of the canister; `rngSeeded`
the reply to the `raw_rand` call that `init` starts (init.rs:33-49).  `Settings` has public fields (settings.rs:26-58), so
`init` can be given settings that `SettingsBuilder` would refuse, and it can be called again.  Addresses and signatures
are given as the texts that `EthAddress::new` and `EthSignature::new` (the only constructors) are called with. -/
inductive LibCall where
  | restart
  | init (s : Settings)
  | rngSeeded (seed : Bytes)
  | prepareLogin (address : Bytes)
  | login (map : Nat) (signature address sessionKey canisterId nonce : Bytes)
  | newMap (map : Nat)
  | put (map : Nat) (seedHash delegationHash : Hash)
  | delete (map : Nat) (seedHash delegationHash : Hash)
  | prune (map : Nat) (limit : Nat)
  | witness (map : Nat) (address sessionKey : Bytes) (expiration : UInt64)
  deriving DecidableEq

/-- What the canister gets back. -/
inductive LibReply where
  | trap
  | done
  | addressErr (e : EthError)
  | signatureErr (e : EthError)
  | prepared (message : SiweMessage) (nonce : Bytes)
  | loginErr (e : LoginError)
  | loggedIn (d : LoginDetails)
  | pruned (n : Nat)
  | delegationErr (e : DelegationError)
  | witness (d : Delegation) (tree : HashTree)
  deriving DecidableEq

/-- login.rs:46-56, after `EthAddress::new` (eth.rs:58-72) -/
def appPrepare {E : Env} (s : AppState E) (now : UInt64) (address : Bytes) : AppState E × LibReply :=
  match EthAddress.new E address with
  | .err e => (s, .addressErr e)
  | .panic => (s, .trap)
  | .ok a =>
    match prepareLogin s.lib now a with
    | .err e => (s, .addressErr e)
    | .panic => (s, .trap)
    | .ok (l, m, n) => ({ s with lib := l }, .prepared m n)

/-- login.rs:128-194, after `EthAddress::new` and `EthSignature::new`; a panic traps and changes nothing -/
def appLogin {E : Env} (s : AppState E) (now : UInt64) (i : Nat) (signature address sessionKey canisterId nonce : Bytes) :
    AppState E × LibReply :=
  match EthAddress.new E address with
  | .err e => (s, .addressErr e)
  | .panic => (s, .trap)
  | .ok a =>
    match EthSignature.new signature with
    | .err e => (s, .signatureErr e)
    | .panic => (s, .trap)
    | .ok g =>
      match login s.lib (s.maps i) now g a sessionKey canisterId nonce with
      | (l, sm, .ok d) => (⟨l, setMap s.maps i sm⟩, .loggedIn d)
      | (l, sm, .err e) => (⟨l, setMap s.maps i sm⟩, .loginErr e)
      | (_, _, .panic) => (s, .trap)

/-- A change of one signature map by the canister itself. -/
def appMap {E : Env} {α : Type} (s : AppState E) (i : Nat) (f : α → LibReply) (x : Res Empty (α × SigMap)) :
    AppState E × LibReply :=
  match x with
  | .ok (a, m) => ({ s with maps := setMap s.maps i m }, f a)
  | .err e => nomatch e
  | .panic => (s, .trap)

/-- delegation.rs:79-210 as used to serve a delegation (siwe_get_delegation.rs:33-50): the seed, the delegation, its hash
and the witness. -/
def appWitness {E : Env} (s : AppState E) (now : UInt64) (i : Nat) (address sessionKey : Bytes) (expiration : UInt64) :
    LibReply :=
  match EthAddress.new E address with
  | .err e => .addressErr e
  | .panic => .trap
  | .ok a =>
    match s.lib.settings with
    | none => .trap
    | some st =>
      match createDelegation E st sessionKey expiration with
      | .err e => .delegationErr e
      | .panic => .trap
      | .ok d =>
        match (createDelegationHash E d : Res DelegationError Hash) with
        | .err e => .delegationErr e
        | .panic => .trap
        | .ok dh =>
          match witness E (s.maps i) now (generateSeed E st a) dh with
          | .err e => .delegationErr e
          | .panic => .trap
          | .ok t => .witness d t

/-- One use of the library at time `now`. -/
def appStep {E : Env} (s : AppState E) (now : UInt64) : LibCall → AppState E × LibReply
  | .restart => (AppState.fresh E, .done)
  | .init st => ({ s with lib := libInit s.lib st }, .done)
  | .rngSeeded seed => ({ s with lib := seedRng s.lib seed }, .done)
  | .prepareLogin a => appPrepare s now a
  | .login i sig a k c n => appLogin s now i sig a k c n
  | .newMap i => ({ s with maps := setMap s.maps i .empty }, .done)
  | .put i sh dh => appMap s i (fun () => .done) (do let m ← (s.maps i).put now sh dh; .ok ((), m))
  | .delete i sh dh => appMap s i (fun () => .done) (do let m ← (s.maps i).delete sh dh; .ok ((), m))
  | .prune i k => appMap s i .pruned ((s.maps i).pruneExpired now k)
  | .witness i a k e => (s, appWitness s now i a k e)

/-- Timed uses of the library, oldest first. -/
abbrev LibHistory := List (UInt64 × LibCall)

/-- The state after some uses. -/
def appRun {E : Env} (s : AppState E) : LibHistory → AppState E
  | [] => s
  | (now, c) :: rest => appRun (appStep s now c).1 rest

/-- ... of a new canister. -/
def appAfter (E : Env) (h : LibHistory) : AppState E := appRun (AppState.fresh E) h

end Siwe
