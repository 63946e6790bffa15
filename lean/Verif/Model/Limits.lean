import Verif.Model.Provider
/-
The provider on a machine with limits: how much of the stored data a call looks at one by one, and how many pending sign-ins there is
memory for.  The Internet Computer stops a call that runs for too many instructions or that needs more memory than there is; like every
trap this discards the changes the call has made.

Simplifications: work is counted in entries that a loop over stored data looks at, as this is the only work that grows with the data in
proportion to it (looking up a key in a hash map, a search tree or a stable map is not counted, nor is the occasional reorganisation of a
hash map).  Memory is counted in pending sign-ins; signatures and the mappings are not counted.
-/
namespace Siwe

/-- siwe.rs:179-183 `SiweMessageMap::prune_expired`: `HashMap::retain` looks at every entry. -/
def SiweMessageMap.pruneVisits : SiweMessageMap → Nat
  | [] => 0
  | _ :: rest => 1 + pruneVisits rest

/-- signature_map.rs:86-96, the loop of `prune_expired`: the rounds that are begun, of at most as many as the argument says. -/
def SigMap.pruneRounds : Nat → SigMap → UInt64 → Nat
  | 0, _, _ => 0
  | steps + 1, m, now =>
    match heapPeek m.expirationQueue with
    | some e =>
      if e.expiresAt > now then 1
      else
        match heapPop m.expirationQueue with
        | some (e', q) =>
          match (SigMap.delete ⟨m.certifiedMap, q⟩ e'.seedHash e'.delegationHash : Res Empty SigMap) with
          | .ok m' => 1 + pruneRounds steps m' now
          | _ => 1
        | none => 1 + pruneRounds steps m now
    | none => 1 + pruneRounds steps m now

/-- signature_map.rs:102-105 `self.expiration_queue.iter().find(…)`: the entries looked at until one is found. -/
def findVisits {α : Type} (p : α → Bool) : List α → Nat
  | [] => 0
  | x :: rest => if p x then 1 else 1 + findVisits p rest

/-- login.rs:136-186: the entries `login` looks at, of the pending sign-ins (line 140) and, if the signature is in order, of the
signatures (line 178, `signature_map.prune_expired(get_current_time(), MAX_SIGS_TO_PRUNE)`). -/
def loginVisits {E : Env} (l : LibState E) (sm : SigMap) (now : UInt64) (signature : EthSignature) (address : EthAddress)
    (nonce : Bytes) : Nat :=
  l.messages.pruneVisits +
    match ((l.messages.pruneExpired now).get E address nonce : Res LoginError _) with
    | .ok (some message) =>
      (message.text : Res LoginError _).elim (fun _ => 0) 0 fun text =>
        match checkSignature E text signature address with
        | .ok () => SigMap.pruneRounds (min maxSigsToPrune sm.expirationQueue.length) sm now
        | _ => 0
    | _ => 0

/-- siwe_login.rs:25-50 `siwe_login`: nothing is looked at before the address and the signature have been read. -/
def siweLoginVisits {E : Env} (s : State E) (now : UInt64) (signature address nonce : Bytes) : Nat :=
  match EthAddress.new E address with
  | .ok address =>
    match EthSignature.new signature with
    | .ok signature => loginVisits s.lib s.sigMap now signature address nonce
    | _ => 0
  | _ => 0

/-- siwe_get_delegation.rs:25-69 `siwe_get_delegation`, delegation.rs:153: the search of `is_expired`. -/
def siweGetDelegationVisits {E : Env} (s : State E) (certificate : Option Bytes) (address sessionKey : Bytes)
    (expiration : UInt64) : Nat :=
  match certificate, EthAddress.new E address, s.lib.settings with
  | some _, .ok address, some settings =>
    match createDelegation E settings sessionKey expiration with
    | .ok delegation =>
      match (createDelegationHash E delegation : Res Empty Hash) with
      | .ok hash =>
        findVisits (fun e => e.seedHash = hashBytes E (generateSeed E settings address).bytes ∧ e.delegationHash = hash)
          s.sigMap.expirationQueue
      | _ => 0
    | _ => 0
  | _, _, _ => 0

/-- The entries of the stored data a call looks at one by one. -/
def visits {E : Env} (s : State E) (now : UInt64) : Op → Nat
  | .login sig a _ n => siweLoginVisits s now sig a n
  | .getDelegation c a k e => siweGetDelegationVisits s c a k e
  | _ => 0

/-- What the machine allows: how many pending sign-ins there is memory for, and how many entries a call may look at. -/
structure Limits where
  messages : Nat
  visits : Nat

namespace Limits

/-- A call on a machine with limits: if it exceeds one, it traps, and nothing is changed. -/
def step {E : Env} (L : Limits) (s : State E) (now : UInt64) (op : Op) : State E × Reply :=
  if L.visits < Siwe.visits s now op ∨ L.messages < (Siwe.step s now op).1.lib.messages.length then (s, .trap)
  else Siwe.step s now op

/-- Run a history from a state, collecting the replies. -/
def run {E : Env} (L : Limits) (s : State E) : History → State E × List Reply
  | [] => (s, [])
  | (now, op) :: rest =>
    let (s', r) := L.step s now op
    let (s'', rs) := L.run s' rest
    (s'', r :: rs)

/-- The state reached from a freshly created, empty canister. -/
def stateAfter (L : Limits) (E : Env) (h : History) : State E := (L.run (State.fresh E) h).1

end Limits
end Siwe
