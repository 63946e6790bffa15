import Verif.Model.HashTree
/-
`ic_certified_map::RbTree` 0.4.0 (left-leaning red-black tree), the representation of
`SignatureMap::certified_map`, packages/ic_siwe/src/signature_map.rs:45.
Dependency modelled from its published source.  Simplification: the crate caches `subtree_hash` in every
node and recomputes it after every change; the model recomputes it from the structure when asked.
Dereferencing a null pointer is `none`.
-/
namespace Siwe

/-- `rbtree::Color` -/
inductive Color where
  | red | black
  deriving DecidableEq, Repr

/-- `Color::flip_assign` -/
def Color.flip : Color → Color
  | .red => .black
  | .black => .red

/-- `rbtree::Node` behind a possibly null pointer. -/
inductive RbTree (K V : Type) where
  | nil
  | node (c : Color) (l : RbTree K V) (k : K) (v : V) (r : RbTree K V)
  deriving DecidableEq

namespace RbTree
variable {K V : Type}

/-- number of nodes; bounds the recursion depth of `delete` -/
def size : RbTree K V → Nat
  | nil => 0
  | node _ l _ _ r => l.size + r.size + 1

/-- `RbTree::is_empty` -/
def isEmpty : RbTree K V → Bool
  | nil => true
  | node .. => false

/-- `is_red` (null is black) -/
def isRed : RbTree K V → Bool
  | node .red _ _ _ _ => true
  | _ => false

/-- `(*h).left`; null dereference is `none` -/
def left? : RbTree K V → Option (RbTree K V)
  | nil => none
  | node _ l _ _ _ => some l

/-- `(*h).color = c` on a non-null pointer (callers check); null stays null -/
def setColor (c : Color) : RbTree K V → RbTree K V
  | nil => nil
  | node _ l k v r => node c l k v r

/-- `rotate_left`; every caller has just checked that the right child is red, hence not null -/
def rotateLeft : RbTree K V → RbTree K V
  | node c l k v (node _ rl rk rv rr) => node c (node .red l k v rl) rk rv rr
  | t => t

/-- `rotate_right`; every caller has just checked that the left child is red, hence not null -/
def rotateRight : RbTree K V → RbTree K V
  | node c (node _ ll lk lv lr) k v r => node c ll lk lv (node .red lr k v r)
  | t => t

/-- `flip_colors`; dereferences both children -/
def flipColors : RbTree K V → Option (RbTree K V)
  | node c (node cl ll lk lv lr) k v (node cr rl rk rv rr) =>
    some (node c.flip (node cl.flip ll lk lv lr) k v (node cr.flip rl rk rv rr))
  | _ => none

/-- first step of `balance`: a right-leaning red link is rotated left -/
def balance1 : RbTree K V → RbTree K V
  | t@(node _ l _ _ r) => if r.isRed && !l.isRed then rotateLeft t else t
  | nil => nil

/-- second step of `balance`: two red left links in a row are rotated right -/
def balance2 : RbTree K V → RbTree K V
  | t@(node _ (node .red ll _ _ _) _ _ _) => if ll.isRed then rotateRight t else t
  | t => t

/-- third step of `balance`: two red children are flipped -/
def balance3 : RbTree K V → RbTree K V
  | node c (node .red ll lk lv lr) k v (node .red rl rk rv rr) =>
    node c.flip (node .black ll lk lv lr) k v (node .black rl rk rv rr)
  | t => t

/-- `balance` -/
def balance (h : RbTree K V) : RbTree K V := balance3 (balance2 (balance1 h))

variable [Ord K]

/-- `RbTree::get` -/
def get (t : RbTree K V) (key : K) : Option V :=
  match t with
  | nil => none
  | node _ l k v r =>
    match compare key k with
    | .eq => some v
    | .lt => l.get key
    | .gt => r.get key

/-- `insert`'s inner `go` -/
def insertGo (t : RbTree K V) (key : K) (value : V) : RbTree K V :=
  match t with
  | nil => node .red nil key value nil
  | node c l k v r =>
    match compare key k with
    | .eq => node c l k value r
    | .lt => balance (node c (l.insertGo key value) k v r)
    | .gt => balance (node c l k v (r.insertGo key value))

/-- `RbTree::insert` -/
def insert (t : RbTree K V) (key : K) (value : V) : RbTree K V :=
  setColor .black (t.insertGo key value)

/-- `RbTree::modify` with a closure that can fail (`Option`); a missing key leaves the tree alone -/
def modify (t : RbTree K V) (key : K) (f : V → Option V) : Option (RbTree K V) :=
  match t with
  | nil => some nil
  | node c l k v r =>
    match compare key k with
    | .eq => do some (node c l k (← f v) r)
    | .lt => do some (node c (← l.modify key f) k v r)
    | .gt => do some (node c l k v (← r.modify key f))

omit [Ord K] in
/-- `move_red_left` -/
def moveRedLeft (h : RbTree K V) : Option (RbTree K V) := do
  match ← flipColors h with
  | node c l k v r =>
    let rl ← r.left?
    if rl.isRed then flipColors (rotateLeft (node c l k v (rotateRight r)))
    else some (node c l k v r)
  | nil => none

/-- `move_red_right` -/
def moveRedRight (h : RbTree K V) : Option (RbTree K V) := do
  match ← flipColors h with
  | node c l k v r =>
    let ll ← l.left?
    if ll.isRed then flipColors (rotateRight (node c l k v r))
    else some (node c l k v r)
  | nil => none

/-- the guard `!is_red((*h).left) && !is_red((*(*h).left).left)` and the conditional `move_red_left` -/
def fixLeft (h : RbTree K V) : Option (RbTree K V) := do
  let l ← h.left?
  if l.isRed then some h
  else
    let ll ← l.left?
    if ll.isRed then some h else moveRedLeft h

/-- the guard `!is_red((*h).right) && !is_red((*(*h).right).left)` and the conditional `move_red_right` -/
def fixRight (h : RbTree K V) : Option (RbTree K V) := do
  match h with
  | nil => none
  | node _ _ _ _ r =>
    if r.isRed then some h
    else
      let rl ← r.left?
      if rl.isRed then some h else moveRedRight h

/-- `min`: the leftmost node's key and value -/
def minEntry : RbTree K V → Option (K × V)
  | nil => none
  | node _ nil k v _ => some (k, v)
  | node _ l _ _ _ => l.minEntry

/-- `delete_min`; the first argument bounds the recursion depth -/
def deleteMin : Nat → RbTree K V → Option (RbTree K V)
  | 0, _ => none
  | _ + 1, nil => none
  | n + 1, node c l k v r =>
    if l.isEmpty then some nil
    else do
      match ← fixLeft (node c l k v r) with
      | nil => none
      | node c l k v r => some (balance (node c (← deleteMin n l) k v r))

/-- `delete`'s inner `go`; the first argument bounds the recursion depth -/
def deleteGo : Nat → RbTree K V → K → Option (RbTree K V)
  | 0, _, _ => none
  | _ + 1, nil, _ => none
  | n + 1, node c l k v r, key =>
    if compare key k = .lt then do
      match ← fixLeft (node c l k v r) with
      | nil => none
      | node c l k v r => some (balance (node c (← deleteGo n l key) k v r))
    else
      match (if l.isRed then rotateRight (node c l k v r) else node c l k v r) with
      | nil => none
      | node c l k v r =>
        if compare key k = .eq ∧ r.isEmpty then some nil
        else do
          match ← fixRight (node c l k v r) with
          | nil => none
          | node c l k v r =>
            if compare key k = .eq then do
              let (mk, mv) ← r.minEntry
              some (balance (node c l mk mv (← deleteMin n r)))
            else some (balance (node c l k v (← deleteGo n r key)))

/-- `RbTree::delete` -/
def delete (t : RbTree K V) (key : K) : Option (RbTree K V) :=
  match t.get key with
  | none => some t
  | some _ =>
    match t with
    | nil => none
    | node c l k v r =>
      let root := if !l.isRed && !r.isRed then node .red l k v r else node c l k v r
      do some (setColor .black (← deleteGo root.size root key))

end RbTree

/-- Lexicographic order of the key bytes (`key.as_ref().cmp(..)`). -/
instance : Ord Hash := ⟨fun a b => compare a.bytes b.bytes⟩

namespace RbTree
variable {V : Type}

/-- `Node::subtree_hash`; `dataHash` is `V::root_hash` -/
def subtreeHash (E : Env) (dataHash : V → Hash) : RbTree Hash V → Hash
  | nil => emptyHash E
  | node _ l k v r =>
    let h := labeledHash E k.bytes (dataHash v)
    match l, r with
    | nil, nil => h
    | node c ll lk lv lr, nil => forkHash E (subtreeHash E dataHash (node c ll lk lv lr)) h
    | nil, node c rl rk rv rr => forkHash E h (subtreeHash E dataHash (node c rl rk rv rr))
    | node c ll lk lv lr, node c' rl rk rv rr =>
      forkHash E (subtreeHash E dataHash (node c ll lk lv lr))
        (forkHash E h (subtreeHash E dataHash (node c' rl rk rv rr)))

/-- `RbTree::root_hash` -/
def rootHash (E : Env) (dataHash : V → Hash) (t : RbTree Hash V) : Hash := t.subtreeHash E dataHash

/-- `Node::left_hash_tree` / `right_hash_tree` -/
def prunedTree (E : Env) (dataHash : V → Hash) : RbTree Hash V → HashTree
  | nil => .empty
  | t => .pruned (t.subtreeHash E dataHash)

/-- `lookup_and_build`; `none` when the key is absent.  (`nested_witness` then builds a proof of absence,
which no modelled caller can reach: signature_map.rs:117-119 checks presence first.) -/
def lookupAndBuild (E : Env) (dataHash : V → Hash) (t : RbTree Hash V) (key : Hash)
    (f : V → Option HashTree) : Option HashTree :=
  match t with
  | nil => none
  | node _ l k v r =>
    match compare key k with
    | .eq => do
      some (threeWayFork (l.prunedTree E dataHash) (.labeled k.bytes (← f v)) (r.prunedTree E dataHash))
    | .lt => do
      some (threeWayFork (← l.lookupAndBuild E dataHash key f)
        (.pruned (labeledHash E k.bytes (dataHash v))) (r.prunedTree E dataHash))
    | .gt => do
      some (threeWayFork (l.prunedTree E dataHash)
        (.pruned (labeledHash E k.bytes (dataHash v))) (← r.lookupAndBuild E dataHash key f))

end RbTree
end Siwe
