import Verif.Model.SigMap
/-
Independent specification of the signature map: a set of (seed, delegation) pairs and a bag of expiry entries.
-/
namespace Siwe

/-- In-order contents of a search tree. -/
def RbTree.toList {K V : Type} : RbTree K V → List (K × V)
  | .nil => []
  | .node _ l k v r => l.toList ++ (k, v) :: r.toList

namespace Spec

/-- The map's tree has the seed `s`, with subtree `sub`. -/
def HasSeed (m : SigMap) (s : Hash) (sub : RbTree Hash Unit) : Prop := (s, sub) ∈ m.certifiedMap.toList

/-- The map's tree holds the pair. -/
def Holds (m : SigMap) (s d : Hash) : Prop := ∃ sub, HasSeed m s sub ∧ (d, ()) ∈ sub.toList

/-- The calls of the signature map's interface that change it. -/
inductive MapOp where
  | put (now : UInt64) (s d : Hash)
  | delete (s d : Hash)
  | prune (now : UInt64) (limit : Nat)
  deriving DecidableEq

/-- Perform one call. -/
def MapOp.apply (m : SigMap) : MapOp → Res Empty SigMap
  | .put now s d => m.put now s d
  | .delete s d => m.delete s d
  | .prune now k => do
    let (_, m') ← m.pruneExpired now k
    .ok m'

/-- Perform calls in order. -/
def applyOps (m : SigMap) : List MapOp → Res Empty SigMap
  | [] => .ok m
  | op :: ops => do
    let m' ← op.apply m
    applyOps m' ops

/-- Nanoseconds an entry lives: one minute. -/
def minute : Nat := 60 * 10 ^ 9

/-- Expiry of an entry made at `now` (a 64-bit clock saturates). -/
def IsExpiryOf (now expiresAt : UInt64) : Prop := expiresAt.toNat = min (now.toNat + minute) (2 ^ 64 - 1)

/-- `removed` is what a pruning call with this limit takes out of the bag of entries `before`, leaving `after`:
due entries only, soonest expiry first, as many as the limit allows. -/
structure Pruned (now : UInt64) (limit : Nat) (before removed after : List SigExpiration) : Prop where
  split : before.Perm (removed ++ after)
  due : ∀ e ∈ removed, e.expiresAt.toNat ≤ now.toNat
  soonest : ∀ e ∈ removed, ∀ f ∈ after, e.expiresAt.toNat ≤ f.expiresAt.toNat
  inOrder : removed.Pairwise fun e f => e.expiresAt.toNat ≤ f.expiresAt.toNat
  bounded : removed.length ≤ limit
  exhaustive : removed.length = limit ∨ ∀ f ∈ after, now.toNat < f.expiresAt.toNat

/-- The abstract state: a set of pairs and a bag of entries. -/
structure AbsMap where
  pairs : Hash → Hash → Prop
  entries : List SigExpiration

/-- The empty abstract state. -/
def AbsMap.empty : AbsMap := ⟨fun _ _ => False, []⟩

/-- What a call does to the abstract state. -/
inductive AbsStep : AbsMap → MapOp → AbsMap → Prop
  | put (a : AbsMap) (now e : UInt64) (s d : Hash) : IsExpiryOf now e →
      AbsStep a (.put now s d) ⟨fun s' d' => (s' = s ∧ d' = d) ∨ a.pairs s' d', ⟨s, d, e⟩ :: a.entries⟩
  | delete (a : AbsMap) (s d : Hash) :
      AbsStep a (.delete s d) ⟨fun s' d' => ¬(s' = s ∧ d' = d) ∧ a.pairs s' d', a.entries⟩
  | prune (a : AbsMap) (now : UInt64) (k : Nat) (removed after : List SigExpiration) :
      Pruned now k a.entries removed after →
      AbsStep a (.prune now k)
        ⟨fun s d => a.pairs s d ∧ ∀ e ∈ removed, ¬(e.seedHash = s ∧ e.delegationHash = d), after⟩

/-- The abstract states some calls can lead to. -/
inductive AbsRun : AbsMap → List MapOp → AbsMap → Prop
  | nil (a : AbsMap) : AbsRun a [] a
  | cons {a b c : AbsMap} {op : MapOp} {ops : List MapOp} : AbsStep a op b → AbsRun b ops c → AbsRun a (op :: ops) c

/-- The map represents the abstract state. -/
structure Represents (m : SigMap) (a : AbsMap) : Prop where
  pairs : ∀ s d, Holds m s d ↔ a.pairs s d
  entries : m.expirationQueue.Perm a.entries

end Spec
end Siwe
