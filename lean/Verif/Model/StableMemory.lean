import Verif.Model.Basic
/-
`MemoryManager` of ic-stable-structures 0.6.5, which divides the canister's stable memory into the memories of the two mappings
(ic_siwe_provider/src/lib.rs:83-102).  Dependency modelled from its published source (`memory_manager.rs`, `lib.rs`); `get` only names a
memory.

Stable memory is divided into a first page with a header and a table, and buckets of 128 pages.  The table says which memory a bucket
belongs to.  Simplifications: lengths are numbers without a bound (the sums of the code wrap at `2 ^ 64` bytes or pages, far above what stable
memory can have); the iterator over the parts of a read or write is a list.  Two parameters: `limit`, the pages of stable memory the
system grants, and `maxBuckets`, the size of the table (32768 in the code).  `none` is a panic.
-/
namespace Siwe.StableMemory

/-- lib.rs `WASM_PAGE_SIZE` -/
def pageSize : Nat := 65536

/-- The `Memory` trait as implemented by stable memory: pages allocated so far, and their bytes. -/
structure Raw where
  pages : Nat
  bytes : Nat → UInt8

/-- A new canister's stable memory. -/
def Raw.empty : Raw := ⟨0, fun _ => 0⟩

/-- `Memory::grow`: the new pages are zero; `none` is `-1`. -/
def Raw.grow (limit : Nat) (m : Raw) (pages : Nat) : Option Raw :=
  if m.pages + pages ≤ limit then some { m with pages := m.pages + pages } else none

/-- `Memory::read`, which traps outside the memory. -/
def Raw.read (m : Raw) (a n : Nat) : Option Bytes :=
  if a + n ≤ m.pages * pageSize then some ((List.range n).map fun i => m.bytes (a + i)) else none

/-- `Memory::write`, which traps outside the memory. -/
def Raw.write (m : Raw) (a : Nat) (bs : Bytes) : Option Raw :=
  if a + bs.length ≤ m.pages * pageSize then
    some { m with bytes := fun x => if x < a then m.bytes x else match bs[x - a]? with
      | some b => b
      | none => m.bytes x }
  else none

/-- lib.rs `write` and `safe_write`: a write that makes the memory larger first where needed. -/
def Raw.writeGrowing (limit : Nat) (m : Raw) (a : Nat) (bs : Bytes) : Option Raw :=
  if m.pages * pageSize < a + bs.length then
    match m.grow limit ((a + bs.length - m.pages * pageSize + pageSize - 1) / pageSize) with
    | none => none
    | some m => m.write a bs
  else m.write a bs

/-- `u16` and `u64` in the header: little-endian, `n` bytes. -/
def leBytes : Nat → Nat → Bytes
  | 0, _ => []
  | n + 1, x => UInt8.ofNat x :: leBytes n (x / 256)

/-- ... and read back. -/
def leValue : Bytes → Nat
  | [] => 0
  | b :: bs => b.toNat + 256 * leValue bs

/-- memory_manager.rs `MemoryManagerInner`: `sizes` are `memory_sizes_in_pages`, `buckets` the `memory_buckets`; a `MemoryId` is a byte. -/
structure Manager where
  memory : Raw
  allocated : Nat
  bucketPages : Nat
  sizes : UInt8 → Nat
  buckets : UInt8 → List Nat

/-- memory_manager.rs `UNALLOCATED_BUCKET_MARKER` -/
def unallocated : UInt8 := 255
/-- memory_manager.rs `DEFAULT_BUCKET_SIZE_IN_PAGES` -/
def defaultBucketPages : Nat := 128
/-- memory_manager.rs `Header::size()`, where the table starts (`bucket_allocations_address`) -/
def headerSize : Nat := 2080

/-- memory_manager.rs `Header`: `MGR`, the version, allocated buckets, pages of a bucket, 32 reserved bytes, the sizes of 255 memories. -/
def Manager.header (m : Manager) : Bytes :=
  [77, 71, 82, 1] ++ (leBytes 2 m.allocated ++ (leBytes 2 m.bucketPages ++ (List.replicate 32 0 ++
    (List.range 255).flatMap fun i => leBytes 8 (m.sizes (UInt8.ofNat i)))))

/-- `save_header` -/
def Manager.saveHeader (limit : Nat) (m : Manager) : Option Manager :=
  match m.memory.writeGrowing limit 0 m.header with
  | none => none
  | some r => some { m with memory := r }

/-- `MemoryManagerInner::new` -/
def Manager.new (limit maxBuckets : Nat) (r : Raw) : Option Manager :=
  match Manager.saveHeader limit ⟨r, 0, defaultBucketPages, fun _ => 0, fun _ => []⟩ with
  | none => none
  | some m =>
    match m.memory.writeGrowing limit headerSize (List.replicate maxBuckets unallocated) with
    | none => none
    | some r => some { m with memory := r }

/-- `MemoryManagerInner::load` -/
def Manager.load (maxBuckets : Nat) (r : Raw) : Option Manager :=
  match r.read 0 headerSize, r.read headerSize maxBuckets with
  | some h, some table =>
    if h.take 4 = [77, 71, 82, 1] then
      some {
        memory := r
        allocated := leValue ((h.drop 4).take 2)
        bucketPages := leValue ((h.drop 6).take 2)
        sizes := fun id => if id = unallocated then 0 else leValue ((h.drop (40 + 8 * id.toNat)).take 8)
        buckets := fun id => if id = unallocated then [] else (List.range maxBuckets).filter fun b => table[b]? = some id }
    else none
  | _, _ => none

/-- `MemoryManager::init` (lib.rs:83-84 of the provider): a memory without a manager gets a new one. -/
def Manager.init (limit maxBuckets : Nat) (r : Raw) : Option Manager :=
  if r.pages = 0 then Manager.new limit maxBuckets r
  else match r.read 0 3 with
    | none => none
    | some magic => if magic = [77, 71, 82] then Manager.load maxBuckets r else Manager.new limit maxBuckets r

/-- `num_buckets_needed` -/
def Manager.bucketsFor (m : Manager) (pages : Nat) : Nat := (pages + m.bucketPages - 1) / m.bucketPages

/-- The loop of `grow`: the next buckets become the memory's. -/
def Manager.allocate (limit : Nat) (id : UInt8) : Nat → Manager → Option Manager
  | 0, m => some m
  | n + 1, m =>
    match m.memory.writeGrowing limit (headerSize + m.allocated) [id] with
    | none => none
    | some r => Manager.allocate limit id n { m with
        memory := r
        buckets := fun j => if j = id then m.buckets j ++ [m.allocated] else m.buckets j
        allocated := m.allocated + 1 }

/-- `grow`: the old size, or `none` for `-1`. -/
def Manager.grow (limit maxBuckets : Nat) (m : Manager) (id : UInt8) (pages : Nat) : Option (Manager × Option Nat) :=
  let old := m.sizes id
  let more := m.bucketsFor (old + pages) - m.bucketsFor old
  if more + m.allocated > maxBuckets then some (m, none)
  else
    match m.allocate limit id more with
    | none => none
    | some m =>
      let needed := 1 + m.bucketPages * m.allocated
      match (if needed > m.memory.pages then m.memory.grow limit (needed - m.memory.pages) else some m.memory) with
      | none => none
      | some r =>
        match Manager.saveHeader limit { m with memory := r, sizes := fun j => if j = id then old + pages else m.sizes j } with
        | none => none
        | some m => some (m, some old)

/-- `bucket_size_in_bytes` -/
def Manager.bucketSize (m : Manager) : Nat := m.bucketPages * pageSize

/-- `bucket_address` -/
def Manager.bucketAddress (m : Manager) (b : Nat) : Nat := pageSize + m.bucketSize * b

/-- `BucketIterator`: the parts of stable memory, with their lengths, where a part of a memory lies. -/
def Manager.segments (m : Manager) (buckets : List Nat) : Nat → Nat → Nat → Option (List (Nat × Nat))
  | _, _, 0 => some []
  | 0, _, _ + 1 => none
  | fuel + 1, offset, length + 1 =>
    match buckets[offset / m.bucketSize]? with
    | none => none
    | some b =>
      let real := m.bucketAddress b + offset % m.bucketSize
      let n := min (m.bucketAddress b + m.bucketSize - real) (length + 1)
      match m.segments buckets fuel (offset + n) (length + 1 - n) with
      | none => none
      | some rest => some ((real, n) :: rest)

/-- The loop of `write`. -/
def writeAll : Raw → List (Nat × Nat) → Bytes → Option Raw
  | r, [], _ => some r
  | r, (a, n) :: rest, src =>
    match r.write a (src.take n) with
    | none => none
    | some r => writeAll r rest (src.drop n)

/-- The loop of `read`. -/
def readAll (r : Raw) : List (Nat × Nat) → Option Bytes
  | [] => some []
  | (a, n) :: rest =>
    match r.read a n, readAll r rest with
    | some x, some y => some (x ++ y)
    | _, _ => none

/-- `write` -/
def Manager.write (m : Manager) (id : UInt8) (offset : Nat) (src : Bytes) : Option Manager :=
  if offset + src.length > m.sizes id * pageSize then none
  else match m.segments (m.buckets id) src.length offset src.length with
    | none => none
    | some parts =>
      match writeAll m.memory parts src with
      | none => none
      | some r => some { m with memory := r }

/-- `read` -/
def Manager.read (m : Manager) (id : UInt8) (offset length : Nat) : Option Bytes :=
  if offset + length > m.sizes id * pageSize then none
  else match m.segments (m.buckets id) length offset length with
    | none => none
    | some parts => readAll m.memory parts

/-! ### histories -/

/-- What is done with the memories; an upgrade makes a new manager of the stable memory. -/
inductive Use where
  | grow (id : UInt8) (pages : Nat)
  | write (id : UInt8) (offset : Nat) (bytes : Bytes)
  | upgrade

/-- ic_siwe_provider/src/lib.rs:94 -/
def principalAddressMemory : UInt8 := 0
/-- ic_siwe_provider/src/lib.rs:100 -/
def addressPrincipalMemory : UInt8 := 1

/-- How it ended: done, refused (`-1`), or with a trap, which leaves everything as it was. -/
inductive Outcome where
  | done
  | refused
  | trapped
  deriving DecidableEq

/-- One use; `MemoryId::new` panics on 255. -/
def Manager.use (limit maxBuckets : Nat) (m : Manager) : Use → Manager × Outcome
  | .grow id pages =>
    if id = unallocated then (m, .trapped)
    else match m.grow limit maxBuckets id pages with
      | none => (m, .trapped)
      | some (m, none) => (m, .refused)
      | some (m, some _) => (m, .done)
  | .write id offset bytes =>
    if id = unallocated then (m, .trapped)
    else match m.write id offset bytes with
      | none => (m, .trapped)
      | some m => (m, .done)
  | .upgrade =>
    match Manager.init limit maxBuckets m.memory with
    | none => (m, .trapped)
    | some m => (m, .done)

/-- All of them, with their outcomes. -/
def Manager.uses (limit maxBuckets : Nat) (m : Manager) : List Use → Manager × List (Use × Outcome)
  | [] => (m, [])
  | u :: us =>
    let (m, o) := m.use limit maxBuckets u
    let (m, es) := m.uses limit maxBuckets us
    (m, (u, o) :: es)

end Siwe.StableMemory
