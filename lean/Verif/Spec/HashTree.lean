import Verif.Spec.SigMap
import Verif.Spec.Message
/-
Hash trees as the IC interface specification defines them ("Certification": digest, lookup, well-formedness), and
the complete tree whose digest the canister certifies.
-/
namespace Siwe.Spec

/-- The string hashed for a node, given the digests of its children; `none` for a pruned node. -/
def preimage (E : Env) (digest : HashTree → Hash) : HashTree → Option Bytes
  | .empty => some (17 :: ascii "ic-hashtree-empty")
  | .fork l r => some (16 :: ascii "ic-hashtree-fork" ++ (digest l).bytes ++ (digest r).bytes)
  | .labeled label t => some (19 :: ascii "ic-hashtree-labeled" ++ label ++ (digest t).bytes)
  | .leaf v => some (16 :: ascii "ic-hashtree-leaf" ++ v)
  | .pruned _ => none

/-- The root digest of a hash tree. -/
def digest (E : Env) : HashTree → Hash
  | .empty => E.sha256 (17 :: ascii "ic-hashtree-empty")
  | .fork l r => E.sha256 (16 :: ascii "ic-hashtree-fork" ++ (digest E l).bytes ++ (digest E r).bytes)
  | .labeled label t => E.sha256 (19 :: ascii "ic-hashtree-labeled" ++ label ++ (digest E t).bytes)
  | .leaf v => E.sha256 (16 :: ascii "ic-hashtree-leaf" ++ v)
  | .pruned h => h

/-- `x` is hashed when the digest of the tree is computed. -/
def Hashes (E : Env) (t : HashTree) (x : Bytes) : Prop :=
  preimage E (digest E) t = some x ∨
    match t with
    | .fork l r => Hashes E l x ∨ Hashes E r x
    | .labeled _ t => Hashes E t x
    | _ => False

/-- Somewhere below its forks the tree shows the value `v` under the path. -/
inductive Reveals : HashTree → List Bytes → Bytes → Prop
  | leaf (v : Bytes) : Reveals (.leaf v) [] v
  | label (l : Bytes) (t : HashTree) (p : List Bytes) (v : Bytes) : Reveals t p v → Reveals (.labeled l t) (l :: p) v
  | left (l r : HashTree) (p : List Bytes) (v : Bytes) : Reveals l p v → Reveals (.fork l r) p v
  | right (l r : HashTree) (p : List Bytes) (v : Bytes) : Reveals r p v → Reveals (.fork l r) p v

/-- `flatten_forks` of the IC interface specification. -/
def flattenForks : HashTree → List HashTree
  | .empty => []
  | .fork l r => flattenForks l ++ flattenForks r
  | t => [t]

/-- `find_label`, when the label is found. -/
def findLabel (l : Bytes) : List HashTree → Option HashTree
  | [] => none
  | .labeled l' t :: ts => if l' = l then some t else findLabel l ts
  | _ :: ts => findLabel l ts

/-- `lookup_path`, when the value is found. -/
def lookupPath : List Bytes → HashTree → Option Bytes
  | [], .leaf v => some v
  | [], _ => none
  | l :: p, t => (findLabel l (flattenForks t)).bind (lookupPath p)

/-- The labels in a list of trees, in order. -/
def labelsOf (ts : List HashTree) : List Bytes :=
  ts.filterMap fun t => match t with
    | .labeled l _ => some l
    | _ => none

/-- `well_formed` of the IC interface specification: at every level labels strictly increase and no leaf stands
beside a label. -/
inductive WellFormed : HashTree → Prop
  | leaf (v : Bytes) : WellFormed (.leaf v)
  | forest (t : HashTree) : (labelsOf (flattenForks t)).Pairwise (fun a b => compare a b = .lt) →
      (∀ l u, .labeled l u ∈ flattenForks t → WellFormed u) → (∀ v, .leaf v ∉ flattenForks t) → WellFormed t

/-- The complete hash tree of a search tree: a node is the fork of what is left of it, itself, and what is right of
it, absent sides left out. -/
def completeTree {V : Type} (value : V → HashTree) : RbTree Hash V → HashTree
  | .nil => .empty
  | .node _ .nil k v .nil => .labeled k.bytes (value v)
  | .node _ l k v .nil => .fork (completeTree value l) (.labeled k.bytes (value v))
  | .node _ .nil k v r => .fork (.labeled k.bytes (value v)) (completeTree value r)
  | .node _ l k v r => .fork (completeTree value l) (.fork (.labeled k.bytes (value v)) (completeTree value r))

/-- The complete tree of the signatures: seed hash, then delegation hash, then an empty leaf. -/
def signatureTree (m : SigMap) : HashTree := completeTree (completeTree fun _ => .leaf []) m.certifiedMap

/-- The complete tree whose digest is certified: no assets, and the signatures. -/
def certifiedTree (m : SigMap) : HashTree :=
  .fork (.labeled (ascii "http_assets") .empty) (.labeled (ascii "sig") (signatureTree m))

end Siwe.Spec
