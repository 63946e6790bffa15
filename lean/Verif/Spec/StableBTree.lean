import Verif.Model.StableBTree
import Mathlib.Data.List.Dedup
/- Specification of the ordered maps in stable memory. -/
namespace Siwe.Spec
open StableBTree

/-- What happens to a map. -/
inductive MapUse where
  /-- an entry is inserted -/
  | insert (k v : Bytes)
  /-- the canister is upgraded: only the map's memory remains, and the map is loaded from it -/
  | upgrade
  deriving DecidableEq

/-- One use of a map; `none` if it panics. -/
def useMap (t : BTreeMap) : MapUse → Option BTreeMap
  | .insert k v => (StableBTree.insert t k v).map (·.1)
  | .upgrade => some (init t.memory)

/-- A map in unused memory after these uses, oldest first; `none` if one of them panicked. -/
def mapAfter (us : List MapUse) : Option BTreeMap := us.foldl (fun t u => t.bind (useMap · u)) (some (init .unused))

/-- The entries that were inserted, oldest first. -/
def inserted (us : List MapUse) : List (Bytes × Bytes) := us.filterMap fun
  | .insert k v => some (k, v)
  | .upgrade => none

/-- The value of a key after these insertions, oldest first: the one inserted last. -/
def latest (ops : List (Bytes × Bytes)) (k : Bytes) : Option Bytes := (ops.reverse.find? fun e => e.1 = k).map (·.2)

/-- How many keys were inserted. -/
def keysOf (ops : List (Bytes × Bytes)) : Nat := (ops.map (·.1)).dedup.length

end Siwe.Spec
