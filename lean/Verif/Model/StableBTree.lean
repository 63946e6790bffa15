import Verif.Model.Basic
/-
`StableBTreeMap` of ic-stable-structures 0.6.5, in which the provider keeps its two mappings (ic_siwe_provider/src/lib.rs:92-102):
a B-tree whose nodes lie in stable memory.  Dependency modelled from its published source (`btreemap.rs`, `btreemap/node.rs`); only
`init`, `get` and `insert` are used.

Simplifications.  A node is a value at an address (a number), not bytes; the allocator hands out the next unused address, and nothing is ever
freed (only `remove` frees).  A node without children is a leaf (the code stores which it is).  The binary search in a node is given by
what it returns on ascending keys.  `fuel` bounds the depth of the recursion; the code has no such bound.  `none` is a panic.
-/
namespace Siwe.StableBTree

/-- `Ord for Blob<N>` and for `[u8; N]`: byte by byte, a prefix first. -/
def compareBytes : Bytes → Bytes → Ordering
  | [], [] => .eq
  | [], _ :: _ => .lt
  | _ :: _, [] => .gt
  | a :: as, b :: bs => if a < b then .lt else if b < a then .gt else compareBytes as bs

/-- node.rs `Node`: entries in ascending order and, unless it is a leaf, one child more than entries. -/
structure Node where
  entries : List (Bytes × Bytes)
  children : List Nat
  deriving DecidableEq

/-- node.rs `B` and `CAPACITY` -/
def minDegree : Nat := 6
/-- node.rs `CAPACITY` -/
def capacity : Nat := 2 * minDegree - 1

/-- `Node::is_full` -/
def Node.isFull (n : Node) : Bool := n.entries.length ≥ capacity

/-- `Result<usize, usize>` of a search: where the key is, or where it belongs. -/
inductive Search where
  | found (i : Nat)
  | absent (i : Nat)
  deriving DecidableEq

/-- `Node::search` -/
def search (k : Bytes) : List (Bytes × Bytes) → Nat → Search
  | [], i => .absent i
  | (k', _) :: es, i =>
    match compareBytes k k' with
    | .eq => .found i
    | .lt => .absent i
    | .gt => search k es (i + 1)

/-- The virtual memory of a map: the saved header (root and number of entries; `none` if nothing was ever written), the nodes, and the
allocator's state. -/
structure Memory where
  header : Option (Option Nat × Nat)
  nodes : Nat → Option Node
  next : Nat

/-- An unused memory. -/
def Memory.unused : Memory := ⟨none, fun _ => none, 0⟩

/-- `Node::save` -/
def Memory.save (m : Memory) (a : Nat) (n : Node) : Memory := { m with nodes := fun b => if b = a then some n else m.nodes b }

/-- `allocate_node` -/
def Memory.allocate (m : Memory) : Memory × Nat := ({ m with next := m.next + 1 }, m.next)

/-- `update_value`: the old value of an entry, which is replaced. -/
def updateValue (m : Memory) (a : Nat) (n : Node) (i : Nat) (v : Bytes) : Option (Memory × Option Bytes) :=
  match n.entries[i]? with
  | none => none
  | some (k, old) => some (m.save a { n with entries := n.entries.set i (k, v) }, some old)

/-- `split_child` with `Node::split`: a full child is cut in two, its median entry moves up. -/
def splitChild (m : Memory) (a : Nat) (n : Node) (i : Nat) : Option (Memory × Node) :=
  if n.isFull then none
  else match n.children[i]? with
    | none => none
    | some c =>
      match m.nodes c with
      | none => none
      | some full =>
        if !full.isFull then none
        else match full.entries[minDegree - 1]? with
          | none => none
          | some median =>
            let (m, s) := m.allocate
            let sibling : Node := ⟨full.entries.drop minDegree, full.children.drop minDegree⟩
            let n : Node := ⟨n.entries.insertIdx i median, n.children.insertIdx (i + 1) s⟩
            let full : Node := ⟨full.entries.take (minDegree - 1), full.children.take minDegree⟩
            some (((m.save c full).save s sibling).save a n, n)

/-- `insert_nonfull`: the memory afterwards and the old value. -/
def insertNonfull (k v : Bytes) : Nat → Memory → Nat → Option (Memory × Option Bytes)
  | 0, _, _ => none
  | fuel + 1, m, a =>
    match m.nodes a with
    | none => none
    | some n =>
      if n.isFull then none
      else match search k n.entries 0 with
        | .found i => updateValue m a n i v
        | .absent i =>
          if n.children.isEmpty then some (m.save a { n with entries := n.entries.insertIdx i (k, v) }, none)
          else match n.children[i]? with
            | none => none
            | some c =>
              match m.nodes c with
              | none => none
              | some child =>
                if child.isFull then
                  match search k child.entries 0 with
                  | .found j => updateValue m c child j v
                  | .absent _ =>
                    match splitChild m a n i with
                    | none => none
                    | some (m, n) =>
                      let i := match search k n.entries 0 with
                        | .found i => i
                        | .absent i => i
                      match n.children[i]? with
                      | none => none
                      | some c => insertNonfull k v fuel m c
                else insertNonfull k v fuel m c

/-- `StableBTreeMap`: what the heap holds of a map, and its memory. -/
structure BTreeMap where
  root : Option Nat
  length : Nat
  memory : Memory

/-- `save_header` -/
def BTreeMap.saveHeader (t : BTreeMap) : BTreeMap := { t with memory := { t.memory with header := some (t.root, t.length) } }

/-- `StableBTreeMap::init`: an unused memory gets a new map, otherwise the map that lies there is loaded. -/
def init (m : Memory) : BTreeMap :=
  match m.header with
  | none => BTreeMap.saveHeader ⟨none, 0, m⟩
  | some (root, length) => ⟨root, length, m⟩

/-- The root to insert below: a new leaf, the root, or a new root above a full one; `.inr` if the key was in the root. -/
def insertionRoot (t : BTreeMap) (k v : Bytes) : Option (BTreeMap × (Nat ⊕ Option Bytes)) :=
  match t.root with
  | none =>
    let (m, a) := t.memory.allocate
    let t := BTreeMap.saveHeader { t with root := some a, memory := m.save a ⟨[], []⟩ }
    some (t, .inl a)
  | some a =>
    match t.memory.nodes a with
    | none => none
    | some n =>
      match search k n.entries 0 with
      | .found i =>
        match updateValue t.memory a n i v with
        | none => none
        | some (m, old) => some ({ t with memory := m }, .inr old)
      | .absent _ =>
        if n.isFull then
          let (m, r) := t.memory.allocate
          let t := BTreeMap.saveHeader { t with root := some r, memory := m }
          match splitChild t.memory r ⟨[], [a]⟩ 0 with
          | none => none
          | some (m, _) => some ({ t with memory := m }, .inl r)
        else some (t, .inl a)

/-- `insert`: the map afterwards and the old value.  The number of entries, which the code counts in `insert_nonfull` where it adds one
to a leaf, is counted here. -/
def insert (t : BTreeMap) (k v : Bytes) : Option (BTreeMap × Option Bytes) :=
  match insertionRoot t k v with
  | none => none
  | some (t, .inr old) => some (t, old)
  | some (t, .inl a) =>
    match insertNonfull k v (t.length + 2) t.memory a with
    | none => none
    | some (m, some old) => some ({ t with memory := m }, some old)
    | some (m, none) => some (BTreeMap.saveHeader { t with memory := m, length := t.length + 1 }, none)

/-- `get_helper` -/
def getHelper (k : Bytes) : Nat → Memory → Nat → Option (Option Bytes)
  | 0, _, _ => none
  | fuel + 1, m, a =>
    match m.nodes a with
    | none => none
    | some n =>
      match search k n.entries 0 with
      | .found i =>
        match n.entries[i]? with
        | none => none
        | some (_, v) => some (some v)
      | .absent i =>
        if n.children.isEmpty then some none
        else match n.children[i]? with
          | none => none
          | some c => getHelper k fuel m c

/-- `get` -/
def get (t : BTreeMap) (k : Bytes) : Option (Option Bytes) :=
  match t.root with
  | none => some none
  | some a => getHelper k (t.length + 1) t.memory a

end Siwe.StableBTree
