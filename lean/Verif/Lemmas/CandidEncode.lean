import Verif.Lemmas.CandidWire
/- Helper lemmas for C107: everything that fits has a message. -/
namespace Siwe.Candid.Wire
open Spec

/-! ### numbers -/

/-- An unsigned LEB128 encoding, of at most `k + 1` bytes. -/
def uleb : Nat → Nat → Bytes
  | 0, n => [UInt8.ofNat n]
  | k + 1, n => if n < 128 then [UInt8.ofNat n] else UInt8.ofNat (n % 128 + 128) :: uleb k (n / 128)

theorem toNat_small {n : Nat} (h : n < 256) : (UInt8.ofNat n).toNat = n := by
  rw [UInt8.toNat_ofNat', Nat.mod_eq_of_lt h]

theorem uleb_ok : ∀ (k n : Nat), n < 128 ^ (k + 1) → LebShape (uleb k n) ∧ lebValue (uleb k n) = n ∧ (uleb k n).length ≤ k + 1 := by
  have one : ∀ n, n < 128 → LebShape [UInt8.ofNat n] ∧ lebValue [UInt8.ofNat n] = n := by
    intro n h
    have := toNat_small (n := n) (by omega)
    exact ⟨(lebShape_cons _ _).2 (.inl ⟨by omega, rfl⟩), by simp only [lebValue]; omega⟩
  intro k
  induction k with
  | zero =>
    intro n h
    obtain ⟨h1, h2⟩ := one n (by omega)
    exact ⟨h1, h2, by simp [uleb]⟩
  | succ k ih =>
    intro n h
    rw [uleb]
    split
    · rename_i h'
      obtain ⟨h1, h2⟩ := one n h'
      exact ⟨h1, h2, by simp⟩
    · have hlt : n / 128 < 128 ^ (k + 1) := by
        rw [Nat.pow_succ] at h
        exact Nat.div_lt_of_lt_mul (by omega)
      obtain ⟨h1, h2, h3⟩ := ih _ hlt
      have := toNat_small (n := n % 128 + 128) (by omega)
      refine ⟨(lebShape_cons _ _).2 (.inr ⟨by omega, h1⟩), ?_, by simp; omega⟩
      rw [lebValue, h2, this]
      omega

theorem leb_exists {n : Nat} (h : n < 2 ^ 64) : ∃ l, Leb64 n l := by
  obtain ⟨h1, h2, h3⟩ := uleb_ok 9 n (by omega)
  exact ⟨uleb 9 n, (isLeb_iff _ _).2 ⟨h1, by rw [lebNumber_eq, h2]⟩, h3, h⟩

theorem nat_exists (n : Nat) : ∃ l, IsLeb128 n l := by
  obtain ⟨h1, h2, _⟩ := uleb_ok n n (by
    have : n < 2 ^ n := Nat.lt_two_pow_self
    have : 2 ^ n ≤ 128 ^ n := Nat.pow_le_pow_left (by omega) n
    rw [Nat.pow_succ]
    omega)
  exact ⟨uleb n n, (isLeb_iff _ _).2 ⟨h1, by rw [lebNumber_eq, h2]⟩⟩

/-- A signed LEB128 encoding of a natural number, of at most `k + 1` bytes. -/
def sleb : Nat → Nat → Bytes
  | 0, n => [UInt8.ofNat n]
  | k + 1, n => if n < 64 then [UInt8.ofNat n] else UInt8.ofNat (n % 128 + 128) :: sleb k (n / 128)

theorem sleb_ok : ∀ (k n : Nat), n < 64 * 128 ^ k → (∃ init last, sleb k n = init ++ [last] ∧ (∀ b ∈ init, 128 ≤ UInt8.toNat b) ∧
    UInt8.toNat last < 64) ∧ lebValue (sleb k n) = n ∧ (sleb k n).length ≤ k + 1 := by
  have one : ∀ n, n < 64 → (∃ init last, [UInt8.ofNat n] = init ++ [last] ∧ (∀ b ∈ init, 128 ≤ UInt8.toNat b) ∧
      UInt8.toNat last < 64) ∧ lebValue [UInt8.ofNat n] = n := by
    intro n h
    have := toNat_small (n := n) (by omega)
    exact ⟨⟨[], _, rfl, (fun _ h => nomatch h), by omega⟩, by simp only [lebValue]; omega⟩
  intro k
  induction k with
  | zero =>
    intro n h
    obtain ⟨h1, h2⟩ := one n (by omega)
    exact ⟨h1, h2, by simp [sleb]⟩
  | succ k ih =>
    intro n h
    rw [sleb]
    split
    · rename_i h'
      obtain ⟨h1, h2⟩ := one n h'
      exact ⟨h1, h2, by simp⟩
    · have hlt : n / 128 < 64 * 128 ^ k := by
        rw [Nat.pow_succ] at h
        exact Nat.div_lt_of_lt_mul (by omega)
      obtain ⟨⟨i, x, h1, h1', h1''⟩, h2, h3⟩ := ih _ hlt
      have := toNat_small (n := n % 128 + 128) (by omega)
      refine ⟨⟨UInt8.ofNat (n % 128 + 128) :: i, x, by rw [h1]; rfl, ?_, h1''⟩, ?_, by simp; omega⟩
      · intro b hb
        rcases List.mem_cons.1 hb with rfl | hb
        · omega
        · exact h1' b hb
      · rw [lebValue, h2, this]
        omega

theorem sleb_exists {n : Nat} (h : n < 2 ^ 63) : ∃ l, Sleb64 n l := by
  obtain ⟨⟨i, x, h1, h1', h1''⟩, h2, h3⟩ := sleb_ok 9 n (by omega)
  refine ⟨sleb 9 n, ⟨i, x, h1, h1', by omega, ?_⟩, h3, by omega, by omega⟩
  rw [if_neg (by omega), h2]
  omega

theorem code_exists {p : Prim} {i : Int} (h : PrimCode p i) : ∃ b, RefBytes (.prim p) b := by
  have one : ∀ (n : Nat), 0 < n → n ≤ 64 → Sleb64 (-(n : Int)) [UInt8.ofNat (128 - n)] := by
    intro n h0 h
    have := toNat_small (n := 128 - n) (by omega)
    refine ⟨⟨[], _, rfl, (fun _ h => nomatch h), by omega, ?_⟩, by simp, by omega, by omega⟩
    rw [if_pos (by omega)]
    simp only [lebValue, this, List.length_cons, List.length_nil]
    omega
  have hi : ∃ n : Nat, 0 < n ∧ n ≤ 64 ∧ i = -(n : Int) := by
    cases h with
    | other c hc =>
      simp at hc
      exact ⟨c, by omega, by omega, rfl⟩
    | null => exact ⟨1, by omega, by omega, rfl⟩
    | nat => exact ⟨3, by omega, by omega, rfl⟩
    | nat8 => exact ⟨5, by omega, by omega, rfl⟩
    | nat32 => exact ⟨7, by omega, by omega, rfl⟩
    | nat64 => exact ⟨8, by omega, by omega, rfl⟩
    | text => exact ⟨15, by omega, by omega, rfl⟩
    | principal => exact ⟨24, by omega, by omega, rfl⟩
  obtain ⟨n, h1, h2, rfl⟩ := hi
  exact ⟨_, .prim p _ _ h (one n h1 h2)⟩

theorem each_exists {α : Type} {R : α → Bytes → Prop} : ∀ (as : List α), (∀ a ∈ as, ∃ b, R a b) → ∃ b, Each R as b
  | [], _ => ⟨[], .nil⟩
  | a :: as, h => by
    obtain ⟨b, hb⟩ := h a (by simp)
    obtain ⟨b', hb'⟩ := each_exists as fun x hx => h x (by simp [hx])
    exact ⟨_, .cons hb hb'⟩

/-! ### types -/

mutual
/-- The entries of a type in a table that has `base` entries already, and the reference to it. -/
def emit (base : Nat) : Ty → List Entry × Ref
  | .prim p => ([], .prim p)
  | .opt t => ((emit base t).1 ++ [.opt (emit base t).2], .entry (base + (emit base t).1.length))
  | .vec t => ((emit base t).1 ++ [.vec (emit base t).2], .entry (base + (emit base t).1.length))
  | .record fs => ((emitFields base fs).1 ++ [.record (emitFields base fs).2], .entry (base + (emitFields base fs).1.length))
  | .variant fs => ((emitFields base fs).1 ++ [.variant (emitFields base fs).2], .entry (base + (emitFields base fs).1.length))
/-- ... of the fields. -/
def emitFields (base : Nat) : Fields → List Entry × List (UInt32 × Ref)
  | .nil => ([], [])
  | .cons l t fs =>
    ((emit base t).1 ++ (emitFields (base + (emit base t).1.length) fs).1,
      (l, (emit base t).2) :: (emitFields (base + (emit base t).1.length) fs).2)
end

/-- What holds of the entries and the reference. -/
def Emitted (t : Ty) : Prop := ∀ base size, Tidy t → base + composites t ≤ size → size < 2 ^ 63 →
  (emit base t).1.length = composites t ∧ (∀ e ∈ (emit base t).1, EntryOk size e ∧ ∃ b, EntryBytes e b) ∧
    RefOk size (emit base t).2 ∧ (∃ b, RefBytes (emit base t).2 b) ∧
    ∀ pre post, pre.length = base → Denotes (pre ++ (emit base t).1 ++ post) (emit base t).2 t

/-- ... of the fields. -/
def EmittedFields (fs : Fields) : Prop := ∀ base size, TidyFields fs → base + compositesIn fs ≤ size → size < 2 ^ 63 →
  (emitFields base fs).1.length = compositesIn fs ∧ (∀ e ∈ (emitFields base fs).1, EntryOk size e ∧ ∃ b, EntryBytes e b) ∧
    (emitFields base fs).2.map (·.1) = fs.labels ∧
    (∀ f ∈ (emitFields base fs).2, RefOk size f.2 ∧ ∃ b, RefBytes f.2 b) ∧
    ∀ pre post, pre.length = base → DenoteFields (pre ++ (emitFields base fs).1 ++ post) (emitFields base fs).2 fs

theorem entry_ref {i size : Nat} (h : i < size) (hs : size < 2 ^ 63) : RefOk size (.entry i) ∧ ∃ b, RefBytes (.entry i) b := by
  obtain ⟨b, hb⟩ := sleb_exists (n := i) (by omega)
  exact ⟨fun j hj => by cases hj; exact h, b, .entry i b hb⟩

theorem at_end {pre es post : List Entry} {e : Entry} {base : Nat} (h : pre.length = base) :
    (pre ++ (es ++ [e]) ++ post)[base + es.length]? = some e := by
  subst h
  rw [List.append_assoc, List.getElem?_append_right (by omega), List.append_assoc, List.getElem?_append_right (by omega)]
  simp

theorem append_last {pre es post : List Entry} {e : Entry} : pre ++ (es ++ [e]) ++ post = pre ++ es ++ (e :: post) := by simp

theorem fieldList_exists {fs : List (UInt32 × Ref)} (h : ∀ f ∈ fs, ∃ b, RefBytes f.2 b) (hl : fs.length < 2 ^ 32) :
    ∃ l b, Leb64 fs.length l ∧ Each FieldBytes fs b := by
  obtain ⟨l, hl⟩ := leb_exists (n := fs.length) (by omega)
  obtain ⟨b, hb⟩ := each_exists (R := FieldBytes) fs (by
    intro f hf
    obtain ⟨b, hb⟩ := h f hf
    obtain ⟨l, hl⟩ := leb_exists (n := f.1.toNat) (by have := f.1.toNat_lt; omega)
    exact ⟨l ++ b, l, b, rfl, hl, hb⟩)
  exact ⟨l, b, hl, hb⟩

theorem emitted : ∀ t, Emitted t := by
  intro t
  induction t using Ty.rec (motive_2 := EmittedFields) with
  | prim p =>
    intro base size ht _ _
    rw [Tidy] at ht
    obtain ⟨i, hi⟩ := ht
    simp only [emit, composites]
    refine ⟨rfl, (fun _ h => nomatch h), fun j hj => (nomatch hj), code_exists hi, fun _ _ _ => ?_⟩
    rw [Denotes]
  | opt t ih =>
    intro base size ht hs hz
    rw [Tidy] at ht
    rw [composites] at hs
    obtain ⟨h1, h2, h3, ⟨b, h4⟩, h5⟩ := ih base size ht (by omega) hz
    simp only [emit, composites]
    obtain ⟨g1, g2⟩ := entry_ref (i := base + (emit base t).1.length) (size := size) (by omega) hz
    refine ⟨by simp [h1], ?_, g1, g2, fun pre post hp => ?_⟩
    · intro e he
      rcases List.mem_append.1 he with he | he
      · exact h2 e he
      · rw [List.mem_singleton] at he
        subst he
        exact ⟨h3, _, .opt _ b h4⟩
    · rw [Denotes]
      refine ⟨_, _, rfl, at_end hp, ?_⟩
      rw [append_last]
      exact h5 pre _ hp
  | vec t ih =>
    intro base size ht hs hz
    rw [Tidy] at ht
    rw [composites] at hs
    obtain ⟨h1, h2, h3, ⟨b, h4⟩, h5⟩ := ih base size ht (by omega) hz
    simp only [emit, composites]
    obtain ⟨g1, g2⟩ := entry_ref (i := base + (emit base t).1.length) (size := size) (by omega) hz
    refine ⟨by simp [h1], ?_, g1, g2, fun pre post hp => ?_⟩
    · intro e he
      rcases List.mem_append.1 he with he | he
      · exact h2 e he
      · rw [List.mem_singleton] at he
        subst he
        exact ⟨h3, _, .vec _ b h4⟩
    · rw [Denotes]
      refine ⟨_, _, rfl, at_end hp, ?_⟩
      rw [append_last]
      exact h5 pre _ hp
  | record fs ih =>
    intro base size ht hs hz
    rw [Tidy] at ht
    rw [composites] at hs
    obtain ⟨ha, hb, ht⟩ := ht
    obtain ⟨h1, h2, h3, h4, h5⟩ := ih base size ht (by omega) hz
    simp only [emit, composites]
    obtain ⟨g1, g2⟩ := entry_ref (i := base + (emitFields base fs).1.length) (size := size) (by omega) hz
    refine ⟨by simp [h1], ?_, g1, g2, fun pre post hp => ?_⟩
    · intro e he
      rcases List.mem_append.1 he with he | he
      · exact h2 e he
      · rw [List.mem_singleton] at he
        subst he
        have hlen : (emitFields base fs).2.length < 2 ^ 32 := by rw [← h3, List.length_map] at hb; exact hb
        obtain ⟨l, b, q1, q2⟩ := fieldList_exists (fun f hf => (h4 f hf).2) hlen
        exact ⟨⟨by rw [h3]; exact ha, fun f hf => (h4 f hf).1⟩, _, .record _ l b hlen q1 q2⟩
    · rw [Denotes]
      refine ⟨_, _, rfl, at_end hp, ?_⟩
      rw [append_last]
      exact h5 pre _ hp
  | variant fs ih =>
    intro base size ht hs hz
    rw [Tidy] at ht
    rw [composites] at hs
    obtain ⟨ha, hb, ht⟩ := ht
    obtain ⟨h1, h2, h3, h4, h5⟩ := ih base size ht (by omega) hz
    simp only [emit, composites]
    obtain ⟨g1, g2⟩ := entry_ref (i := base + (emitFields base fs).1.length) (size := size) (by omega) hz
    refine ⟨by simp [h1], ?_, g1, g2, fun pre post hp => ?_⟩
    · intro e he
      rcases List.mem_append.1 he with he | he
      · exact h2 e he
      · rw [List.mem_singleton] at he
        subst he
        have hlen : (emitFields base fs).2.length < 2 ^ 32 := by rw [← h3, List.length_map] at hb; exact hb
        obtain ⟨l, b, q1, q2⟩ := fieldList_exists (fun f hf => (h4 f hf).2) hlen
        exact ⟨⟨by rw [h3]; exact ha, fun f hf => (h4 f hf).1⟩, _, .variant _ l b hlen q1 q2⟩
    · rw [Denotes]
      refine ⟨_, _, rfl, at_end hp, ?_⟩
      rw [append_last]
      exact h5 pre _ hp
  | nil =>
    intro base size _ _ _
    simp only [emitFields, compositesIn]
    refine ⟨rfl, (fun _ h => nomatch h), rfl, (fun _ h => nomatch h), fun _ _ _ => ?_⟩
    rw [DenoteFields]
  | cons l t fs ih1 ih2 =>
    intro base size ht hs hz
    rw [TidyFields] at ht
    rw [compositesIn] at hs
    obtain ⟨h1, h2, h3, h4, h5⟩ := ih1 base size ht.1 (by omega) hz
    obtain ⟨g1, g2, g3, g4, g5⟩ := ih2 (base + (emit base t).1.length) size ht.2 (by omega) hz
    simp only [emitFields, compositesIn]
    refine ⟨by rw [List.length_append, g1, h1], ?_, by rw [List.map_cons, g3]; rfl, ?_, fun pre post hp => ?_⟩
    · intro e he
      rcases List.mem_append.1 he with he | he
      · exact h2 e he
      · exact g2 e he
    · intro f hf
      rcases List.mem_cons.1 hf with rfl | hf
      · exact ⟨h3, h4⟩
      · exact g4 f hf
    · rw [DenoteFields]
      refine ⟨_, _, rfl, ?_, ?_⟩
      · rw [show ∀ x y : List Entry, pre ++ (x ++ y) ++ post = pre ++ x ++ (y ++ post) by simp]
        exact h5 pre _ hp
      · rw [show ∀ x y : List Entry, pre ++ (x ++ y) ++ post = (pre ++ x) ++ y ++ post by simp]
        exact g5 _ _ (by rw [List.length_append, hp])

/-- The entries of the arguments' types, and the references to them. -/
def emitAll (base : Nat) : List Ty → List Entry × List Ref
  | [] => ([], [])
  | t :: ts =>
    ((emit base t).1 ++ (emitAll (base + (emit base t).1.length) ts).1,
      (emit base t).2 :: (emitAll (base + (emit base t).1.length) ts).2)

theorem emittedAll : ∀ (ts : List Ty) (base size : Nat), (∀ t ∈ ts, Tidy t) → base + (ts.map composites).sum ≤ size → size < 2 ^ 63 →
    (emitAll base ts).1.length = (ts.map composites).sum ∧ (∀ e ∈ (emitAll base ts).1, EntryOk size e ∧ ∃ b, EntryBytes e b) ∧
      (∀ r ∈ (emitAll base ts).2, ∃ b, RefBytes r b) ∧
      ∀ pre post, pre.length = base → List.Forall₂ (Denotes (pre ++ (emitAll base ts).1 ++ post)) (emitAll base ts).2 ts
  | [], base, size, _, _, _ => by
    simp only [emitAll]
    exact ⟨rfl, (fun _ h => nomatch h), (fun _ h => nomatch h), fun _ _ _ => .nil⟩
  | t :: ts, base, size, ht, hs, hz => by
    rw [List.map_cons, List.sum_cons] at hs
    obtain ⟨h1, h2, h3, h4, h5⟩ := emitted t base size (ht t (by simp)) (by omega) hz
    obtain ⟨g1, g2, g3, g4⟩ := emittedAll ts (base + (emit base t).1.length) size (fun x hx => ht x (by simp [hx])) (by omega) hz
    simp only [emitAll, List.map_cons, List.sum_cons]
    refine ⟨by rw [List.length_append, g1, h1], ?_, ?_, fun pre post hp => .cons ?_ ?_⟩
    · intro e he
      rcases List.mem_append.1 he with he | he
      · exact h2 e he
      · exact g2 e he
    · intro r hr
      rcases List.mem_cons.1 hr with rfl | hr
      · exact h4
      · exact g3 r hr
    · rw [show ∀ x y : List Entry, pre ++ (x ++ y) ++ post = pre ++ x ++ (y ++ post) by simp]
      exact h5 pre _ hp
    · rw [show ∀ x y : List Entry, pre ++ (x ++ y) ++ post = (pre ++ x) ++ y ++ post by simp]
      exact g4 _ _ (by rw [List.length_append, hp])

/-! ### values -/

/-- Little-endian bytes. -/
def leBytes : Nat → Nat → Bytes
  | 0, _ => []
  | k + 1, n => UInt8.ofNat (n % 256) :: leBytes k (n / 256)

theorem leBytes_ok : ∀ (k n : Nat), n < 256 ^ k → (leBytes k n).length = k ∧ leValue (leBytes k n) = n
  | 0, n, h => ⟨rfl, by simp only [leBytes, leValue]; omega⟩
  | k + 1, n, h => by
    have hlt : n / 256 < 256 ^ k := by
      rw [Nat.pow_succ] at h
      exact Nat.div_lt_of_lt_mul (by omega)
    obtain ⟨h1, h2⟩ := leBytes_ok k _ hlt
    refine ⟨by simp [leBytes, h1], ?_⟩
    rw [leBytes, leValue, h2, toNat_small (Nat.mod_lt _ (by omega))]
    omega

theorem prim_exists {p : Prim} {v : Val} (ht : v.prim? = some p) (hf : Fits v) : ∃ b, PrimBytes p v b := by
  cases hf with
  | null => cases ht; exact ⟨_, .null⟩
  | nat n => cases ht; obtain ⟨l, h⟩ := nat_exists n; exact ⟨_, .nat _ _ h⟩
  | nat8 n => cases ht; exact ⟨_, .nat8 _⟩
  | nat32 n =>
    cases ht
    obtain ⟨h1, h2⟩ := leBytes_ok 4 n.toNat (by have := n.toNat_lt; omega)
    exact ⟨_, .nat32 _ _ h1 h2⟩
  | nat64 n =>
    cases ht
    obtain ⟨h1, h2⟩ := leBytes_ok 8 n.toNat (by have := n.toNat_lt; omega)
    exact ⟨_, .nat64 _ _ h1 h2⟩
  | text s hu h => cases ht; obtain ⟨l, h⟩ := leb_exists h; exact ⟨_, .text _ _ hu h⟩
  | principal p h =>
    cases ht
    obtain ⟨l, h'⟩ := leb_exists (n := p.length) (by omega)
    exact ⟨_, .principal _ _ h h'⟩
  | other c b h => cases ht; exact ⟨_, .other _ _ h⟩
  | _ => cases ht

/-- What holds of the values of a record or a variant. -/
def FieldsExist (fs : Fields) : Prop :=
  (∀ vs, HasFields fs vs → (∀ f ∈ vs, Fits f.2) → ∃ b, ValsBytes fs vs b) ∧
    ∀ l v, HasCase fs l v → Fits v → ∃ n b, n < fs.labels.length ∧ CaseBytes fs n (.variant l v) b

theorem val_exists : ∀ (t : Ty), Tidy t → ∀ v, HasType t v → Fits v → ∃ b, ValBytes t v b := by
  intro t
  induction t using Ty.rec (motive_2 := fun fs => TidyFields fs → FieldsExist fs) with
  | prim p =>
    intro _ v ht hf
    rw [HasType.eq_def] at ht
    simp only [ValBytes]
    exact prim_exists ht hf
  | opt t ih =>
    intro hty v ht hf
    rw [Tidy] at hty
    rw [HasType.eq_def] at ht
    simp only [ValBytes]
    cases v with
    | none => exact ⟨_, .inl ⟨rfl, rfl⟩⟩
    | some w =>
      cases hf with
      | some _ hf =>
        obtain ⟨b, hb⟩ := ih hty w ht hf
        exact ⟨_, .inr ⟨w, b, rfl, rfl, hb⟩⟩
    | _ => exact ht.elim
  | vec t ih =>
    intro hty v ht hf
    rw [Tidy] at hty
    rw [HasType.eq_def] at ht
    simp only [ValBytes]
    cases v with
    | vec vs =>
      cases hf with
      | vec _ hl hf =>
        obtain ⟨b, hb⟩ := each_exists (R := ValBytes t) vs fun w hw => ih hty w (ht w hw) (hf w hw)
        obtain ⟨l, hl⟩ := leb_exists hl
        exact ⟨_, vs, l, b, rfl, rfl, hl, hb⟩
    | _ => exact ht.elim
  | record fs ih =>
    intro hty v ht hf
    rw [Tidy] at hty
    rw [HasType.eq_def] at ht
    simp only [ValBytes]
    cases v with
    | record vs =>
      cases hf with
      | record _ hf =>
        obtain ⟨b, hb⟩ := (ih hty.2.2).1 vs ht hf
        exact ⟨_, vs, rfl, hb⟩
    | _ => exact ht.elim
  | variant fs ih =>
    intro hty v ht hf
    rw [Tidy] at hty
    rw [HasType.eq_def] at ht
    simp only [ValBytes]
    cases v with
    | variant l w =>
      cases hf with
      | variant _ _ hf =>
        obtain ⟨n, b, hn, hb⟩ := (ih hty.2.2).2 l w ht hf
        obtain ⟨l, hl⟩ := leb_exists (n := n) (by have := hty.2.1; omega)
        exact ⟨_, n, l, b, rfl, hl, hb⟩
    | _ => exact ht.elim
  | nil =>
    refine ⟨fun vs h _ => ?_, fun l v h _ => ?_⟩
    · rw [HasFields.eq_def] at h
      simp only at h
      subst h
      exact ⟨[], by simp only [ValsBytes]; exact ⟨trivial, trivial⟩⟩
    · rw [HasCase] at h
      exact h.elim
  | cons l t fs ih1 ih2 =>
    rename_i hty
    rw [TidyFields] at hty
    refine ⟨fun vs h hf => ?_, fun l' v h hf => ?_⟩
    · rw [HasFields.eq_def] at h
      simp only at h
      cases vs with
      | nil => exact h.elim
      | cons f vs =>
        obtain ⟨k, v⟩ := f
        obtain ⟨rfl, h1, h2⟩ := h
        obtain ⟨b, hb⟩ := ih1 hty.1 v h1 (hf (k, v) (by simp))
        obtain ⟨b', hb'⟩ := (ih2 hty.2).1 vs h2 fun f hx => hf f (by simp [hx])
        simp only [ValsBytes]
        exact ⟨_, v, vs, b, b', rfl, rfl, hb, hb'⟩
    · rw [HasCase] at h
      split at h
      · rename_i hk
        subst hk
        obtain ⟨b, hb⟩ := ih1 hty.1 v h hf
        refine ⟨0, b, by simp [Fields.labels], ?_⟩
        rw [CaseBytes]
        exact ⟨v, rfl, hb⟩
      · obtain ⟨n, b, hn, hb⟩ := (ih2 hty.2).2 l' v h hf
        refine ⟨n + 1, b, by simp [Fields.labels]; exact hn, ?_⟩
        rw [CaseBytes]
        exact hb

theorem message_exists {args : Args} (h : CanBeSent args) : ∃ bs, IsMessage bs args := by
  obtain ⟨hn, hs, ha⟩ := h
  have hsum : (args.map (·.1)).map composites = args.map fun a => composites a.1 := by simp
  obtain ⟨h1, h2, h3, h4⟩ := emittedAll (args.map (·.1)) 0 _ (by
    intro t ht
    obtain ⟨a, ha', rfl⟩ := List.mem_map.1 ht
    exact (ha a ha').1) (by rw [hsum, Nat.zero_add]; exact Nat.le_refl _) hs
  have h5 := h4 [] [] rfl
  rw [List.nil_append, List.append_nil] at h5
  rw [hsum] at h1
  rw [← h1] at h2 hs
  obtain ⟨tl, g1⟩ := leb_exists (n := (emitAll 0 (args.map (·.1))).1.length) (by omega)
  obtain ⟨tb, g2⟩ := each_exists (R := EntryBytes) _ fun e he => (h2 e he).2
  obtain ⟨rl, g3⟩ := leb_exists (n := (emitAll 0 (args.map (·.1))).2.length) (by
    rw [h5.length_eq, List.length_map]; exact hn)
  obtain ⟨rb, g4⟩ := each_exists (R := RefBytes) _ h3
  obtain ⟨vb, g5⟩ := each_exists (R := fun a : Ty × Val => ValBytes a.1 a.2) args fun a h => val_exists a.1 (ha a h).1 a.2 (ha a h).2.1 (ha a h).2.2
  exact ⟨_, _, _, tl, tb, rl, rb, vb, rfl, g1, g2, fun e he => (h2 e he).1, g3, g4, h5, g5⟩

end Siwe.Candid.Wire
