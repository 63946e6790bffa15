import Verif.Model.RbTree
import Verif.Model.BinHeap
/-
packages/ic_siwe/src/signature_map.rs
-/
namespace Siwe

/-- signature_map.rs:7 `DELEGATION_SIGNATURE_EXPIRES_AT` (1 minute) -/
def delegationSignatureExpiresAt : UInt64 := 60 * 1000000000

/-- signature_map.rs:13-15 `Unit::root_hash` -/
def unitRootHash (E : Env) (_ : Unit) : Hash := leafHash E []

/-- signature_map.rs:44-47 `SignatureMap` -/
structure SigMap where
  certifiedMap : RbTree Hash (RbTree Hash Unit)
  expirationQueue : List SigExpiration
  deriving DecidableEq

namespace SigMap

/-- signature_map.rs:43 `SignatureMap::default()` -/
def empty : SigMap := ⟨.nil, []⟩

/-- signature_map.rs:50-67 `put`.  (The `modify` at line 58 runs only when the key is present.) -/
def put {ε : Type} (m : SigMap) (now : UInt64) (seedHash delegationHash : Hash) : Res ε SigMap :=
  let expiresAt := satAdd now delegationSignatureExpiresAt
  let cm? : Option (RbTree Hash (RbTree Hash Unit)) :=
    match m.certifiedMap.get seedHash with
    | none => some (m.certifiedMap.insert seedHash (RbTree.nil.insert delegationHash ()))
    | some _ => m.certifiedMap.modify seedHash fun submap => some (submap.insert delegationHash ())
  match cm? with
  | none => .panic
  | some cm => .ok ⟨cm, heapPush m.expirationQueue ⟨seedHash, delegationHash, expiresAt⟩⟩

/-- signature_map.rs:69-78 `delete`.  `is_empty` is false when the seed is absent, else whether the
submap is empty after the deletion. -/
def delete {ε : Type} (m : SigMap) (seedHash delegationHash : Hash) : Res ε SigMap :=
  match m.certifiedMap.modify seedHash fun sub => sub.delete delegationHash with
  | none => .panic
  | some cm =>
    let isEmpty := match cm.get seedHash with
      | none => false
      | some sub => sub.isEmpty
    if isEmpty then
      match cm.delete seedHash with
      | none => .panic
      | some cm' => .ok ⟨cm', m.expirationQueue⟩
    else .ok ⟨cm, m.expirationQueue⟩

/-- signature_map.rs:86-96, the loop of `prune_expired`: `steps` iterations left, `n` pruned so far -/
def pruneLoop {ε : Type} : Nat → SigMap → UInt64 → Nat → Res ε (Nat × SigMap)
  | 0, m, _, n => .ok (n, m)
  | steps + 1, m, now, n =>
    match heapPeek m.expirationQueue with
    | some e =>
      if e.expiresAt > now then .ok (n, m)
      else
        match heapPop m.expirationQueue with
        | some (e', q) => do
          let m' ← delete ⟨m.certifiedMap, q⟩ e'.seedHash e'.delegationHash
          pruneLoop steps m' now (n + 1)
        | none => pruneLoop steps m now (n + 1)
    | none => pruneLoop steps m now (n + 1) -- `pop` on an empty queue also gives `None`

/-- signature_map.rs:80-99 `prune_expired` -/
def pruneExpired {ε : Type} (m : SigMap) (now : UInt64) (maxToPrune : Nat) : Res ε (Nat × SigMap) :=
  pruneLoop (min maxToPrune m.expirationQueue.length) m now 0

/-- signature_map.rs:101-110 `is_expired` -/
def isExpired (m : SigMap) (now : UInt64) (seedHash delegationHash : Hash) : Bool :=
  match m.expirationQueue.find? fun e => e.seedHash = seedHash ∧ e.delegationHash = delegationHash with
  | some e => now > e.expiresAt
  | none => false

/-- the value hash of the outer tree: `RbTree<Hash, Unit>::root_hash` -/
def subHash (E : Env) (t : RbTree Hash Unit) : Hash := t.rootHash E (unitRootHash E)

/-- signature_map.rs:112-114 `root_hash` -/
def rootHash (E : Env) (m : SigMap) : Hash := m.certifiedMap.rootHash E (subHash E)

/-- signature_map.rs:116-124 `witness` -/
def witness (E : Env) (m : SigMap) (seedHash delegationHash : Hash) : Option HashTree := do
  let sub ← m.certifiedMap.get seedHash
  let _ ← sub.get delegationHash
  m.certifiedMap.lookupAndBuild E (subHash E) seedHash fun nested =>
    nested.lookupAndBuild E (unitRootHash E) delegationHash fun _ => some (.leaf [])

end SigMap
end Siwe
