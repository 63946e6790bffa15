import Verif.Spec.StableMemory
import Verif.Lemmas.Hex
import Mathlib.Algebra.BigOperators.Group.List.Basic
import Mathlib.Data.List.Nodup
/- The memory manager keeps its memories apart. -/
namespace Siwe.StableMemory
open Spec

/-! ### stable memory -/

theorem raw_write_ok {m : Raw} {a : Nat} {bs : Bytes} (h : a + bs.length ≤ m.pages * pageSize) : ∃ m', m.write a bs = some m' ∧ m'.pages = m.pages ∧
    (∀ k (hk : k < bs.length), m'.bytes (a + k) = bs[k]) ∧ ∀ x, (x < a ∨ a + bs.length ≤ x) → m'.bytes x = m.bytes x := by
  refine ⟨_, if_pos h, rfl, fun k hk => ?_, fun x hx => ?_⟩
  · simp only [Nat.not_lt.2 (Nat.le_add_right a k), if_false, Nat.add_sub_cancel_left, List.getElem?_eq_getElem hk]
  · simp only
    split
    · rfl
    · rename_i hl
      have : bs.length ≤ x - a := by omega
      rw [List.getElem?_eq_none this]

theorem raw_writeGrowing_ok {limit : Nat} {m : Raw} {a : Nat} {bs : Bytes} (h : a + bs.length ≤ m.pages * pageSize) :
    m.writeGrowing limit a bs = m.write a bs := by
  rw [Raw.writeGrowing, if_neg (by omega)]

theorem raw_read_ok {m : Raw} {a n : Nat} (h : a + n ≤ m.pages * pageSize) : m.read a n = some ((List.range n).map fun i => m.bytes (a + i)) := if_pos h

/-! ### where the bytes of a memory lie -/

/-- The place in stable memory of a byte of the memory with these buckets. -/
def Lies (l : List Nat) (off x : Nat) : Prop := ∃ b, l[off / 8388608]? = some b ∧ x = 65536 + 8388608 * b + off % 8388608

theorem lies_unique {l : List Nat} {off x y : Nat} (h1 : Lies l off x) (h2 : Lies l off y) : x = y := by
  obtain ⟨b, e1, rfl⟩ := h1
  obtain ⟨c, e2, rfl⟩ := h2
  rw [e1] at e2
  rw [Option.some.inj e2]

theorem lies_bucket {l : List Nat} {off x : Nat} (h : Lies l off x) : l[off / 8388608]? = some ((x - 65536) / 8388608) ∧ 65536 ≤ x := by
  obtain ⟨b, e1, rfl⟩ := h
  rw [e1]
  exact ⟨by congr 1; omega, by omega⟩

theorem lies_inj {l : List Nat} (hn : l.Nodup) {off off' x : Nat} (h1 : Lies l off x) (h2 : Lies l off' x) : off = off' := by
  obtain ⟨g1, _⟩ := lies_bucket h1
  obtain ⟨g2, _⟩ := lies_bucket h2
  have hi : off / 8388608 = off' / 8388608 := by
    obtain ⟨p1, p2⟩ := List.getElem?_eq_some_iff.1 g1
    obtain ⟨q1, q2⟩ := List.getElem?_eq_some_iff.1 g2
    exact (List.Nodup.getElem_inj_iff hn).1 (p2.trans q2.symm)
  obtain ⟨b, e1, e2⟩ := h1
  obtain ⟨c, e3, e4⟩ := h2
  rw [hi, e3] at e1
  cases e1
  omega

theorem lies_exists {l : List Nat} {off : Nat} (h : off < l.length * 8388608) : ∃ x, Lies l off x := by
  have : off / 8388608 < l.length := by omega
  exact ⟨_, l[off / 8388608], List.getElem?_eq_getElem this, rfl⟩

theorem lies_mem {l : List Nat} {off x : Nat} (h : Lies l off x) : ∃ b ∈ l, 65536 + 8388608 * b ≤ x ∧ x < 65536 + 8388608 * (b + 1) := by
  obtain ⟨b, e1, rfl⟩ := h
  exact ⟨b, List.mem_of_getElem? e1, by omega, by omega⟩

theorem bucketSize_eq {m : Manager} (hb : m.bucketPages = 128) : m.bucketSize = 8388608 := by rw [Manager.bucketSize, hb]; rfl

/-- A step of the iterator: how far the bucket reaches. -/
theorem segments_step {m : Manager} (hb : m.bucketPages = 128) {l : List Nat} {fuel off n : Nat} (hn : n + 1 ≤ fuel + 1) (h : off + (n + 1) ≤ l.length * 8388608) :
    ∃ b, l[off / 8388608]? = some b ∧ ∃ k, 1 ≤ k ∧ k ≤ n + 1 ∧ k = min (8388608 - off % 8388608) (n + 1) ∧
      m.segments l (fuel + 1) off (n + 1) = (m.segments l fuel (off + k) (n + 1 - k)).map fun rest =>
        (65536 + 8388608 * b + off % 8388608, k) :: rest := by
  have hlt : off / 8388608 < l.length := by omega
  refine ⟨l[off / 8388608], List.getElem?_eq_getElem hlt, min (8388608 - off % 8388608) (n + 1), by omega, by omega, rfl, ?_⟩
  rw [Manager.segments, bucketSize_eq hb, List.getElem?_eq_getElem hlt]
  simp only [Manager.bucketAddress, bucketSize_eq hb, pageSize]
  rw [show 65536 + 8388608 * l[off / 8388608] + 8388608 - (65536 + 8388608 * l[off / 8388608] + off % 8388608) = 8388608 - off % 8388608 by omega]
  cases m.segments l fuel _ _ <;> rfl

theorem writeAll_spec {m : Manager} (hb : m.bucketPages = 128) {l : List Nat} (hn : l.Nodup) : ∀ (fuel off : Nat) (src : Bytes) (r : Raw), src.length ≤ fuel →
    off + src.length ≤ l.length * 8388608 → (∀ b ∈ l, 65536 + 8388608 * (b + 1) ≤ r.pages * 65536) →
    ∃ parts r', m.segments l fuel off src.length = some parts ∧ writeAll r parts src = some r' ∧ r'.pages = r.pages ∧
      (∀ k (hk : k < src.length) x, Lies l (off + k) x → r'.bytes x = src[k]) ∧
      ∀ x, (∀ k, k < src.length → ¬Lies l (off + k) x) → r'.bytes x = r.bytes x := by
  intro fuel
  induction fuel with
  | zero =>
    intro off src r hf _ _
    obtain rfl : src = [] := List.length_eq_zero_iff.1 (by omega)
    exact ⟨[], r, rfl, rfl, rfl, fun k hk => absurd hk (Nat.not_lt_zero k), fun _ _ => rfl⟩
  | succ fuel ih =>
    intro off src r hf ho hp
    cases src with
    | nil => exact ⟨[], r, rfl, rfl, rfl, fun k hk => absurd hk (Nat.not_lt_zero k), fun _ _ => rfl⟩
    | cons c src =>
    obtain ⟨b, hlb, k, k1, k2, k3, hs⟩ := segments_step (m := m) hb (l := l) (fuel := fuel) (off := off) (n := src.length) hf ho
    have hlen : ((c :: src).take k).length = k := by simp only [List.length_take, List.length_cons]; omega
    have hlen' : ((c :: src).drop k).length = src.length + 1 - k := by simp
    have hroom := hp b (List.mem_of_getElem? hlb)
    obtain ⟨r1, w1, w2, w3, w4⟩ := raw_write_ok (m := r) (a := 65536 + 8388608 * b + off % 8388608) (bs := (c :: src).take k) (by
      rw [hlen, pageSize]; omega)
    obtain ⟨parts, r2, i1, i2, i3, i4, i5⟩ := ih (off + k) ((c :: src).drop k) r1 (by rw [hlen']; simp only [List.length_cons] at hf; omega)
      (by rw [hlen']; simp only [List.length_cons] at ho; omega) (by rw [w2]; exact hp)
    rw [hlen'] at i1
    refine ⟨_, r2, by rw [List.length_cons, hs, i1]; rfl, by rw [writeAll, w1]; exact i2, i3.trans w2, fun j hj x hx => ?_, fun x hx => ?_⟩
    · by_cases hjk : j < k
      · have : x = 65536 + 8388608 * b + off % 8388608 + j := by
          refine lies_unique hx ⟨b, ?_, by omega⟩
          rw [show (off + j) / 8388608 = off / 8388608 by omega, hlb]
        rw [i5, this, w3 j (by omega), List.getElem_take]
        intro q hq hl
        have := lies_inj hn hx hl
        omega
      · have h1 := i4 (j - k) (by rw [hlen']; simp only [List.length_cons] at hj; omega) x (by rw [show off + k + (j - k) = off + j by omega]; exact hx)
        rw [h1, List.getElem_drop]
        congr 1
        omega
    · have h1 : r2.bytes x = r1.bytes x := i5 x fun q hq hl => hx (k + q) (by rw [hlen'] at hq; simp only [List.length_cons]; omega) (by rw [← Nat.add_assoc]; exact hl)
      rw [h1]
      apply w4
      rw [hlen]
      by_contra hc
      refine hx (x - (65536 + 8388608 * b + off % 8388608)) (by simp only [List.length_cons]; omega) ⟨b, ?_, by omega⟩
      rw [← hlb]
      congr 1
      omega

theorem readAll_spec {m : Manager} (hb : m.bucketPages = 128) {l : List Nat} (r : Raw) (hp : ∀ b ∈ l, 65536 + 8388608 * (b + 1) ≤ r.pages * 65536)
    (c : Nat → UInt8) (hc : ∀ off x, Lies l off x → r.bytes x = c off) : ∀ (fuel off n : Nat), n ≤ fuel → off + n ≤ l.length * 8388608 →
    ∃ parts, m.segments l fuel off n = some parts ∧ readAll r parts = some ((List.range n).map fun i => c (off + i)) := by
  intro fuel
  induction fuel with
  | zero =>
    intro off n hf _
    obtain rfl : n = 0 := by omega
    exact ⟨[], rfl, rfl⟩
  | succ fuel ih =>
    intro off n hf ho
    cases n with
    | zero => exact ⟨[], rfl, rfl⟩
    | succ n =>
    obtain ⟨b, hlb, k, k1, k2, k3, hs⟩ := segments_step (m := m) hb (l := l) (fuel := fuel) (off := off) (n := n) hf ho
    obtain ⟨parts, i1, i2⟩ := ih (off + k) (n + 1 - k) (by omega) (by omega)
    have hroom := hp b (List.mem_of_getElem? hlb)
    refine ⟨_, by rw [hs, i1]; rfl, ?_⟩
    rw [readAll, raw_read_ok (by rw [pageSize]; omega), i2]
    have : n + 1 = k + (n + 1 - k) := by omega
    conv => rhs; rw [this, List.range_add, List.map_append, List.map_map]
    simp only [Option.some.injEq]
    congr 1
    · apply List.map_congr_left
      intro i hi
      have hi := List.mem_range.1 hi
      refine hc _ _ ⟨b, ?_, by omega⟩
      rw [← hlb]
      congr 1
      omega
    · apply List.map_congr_left
      intro i hi
      simp only [Function.comp, Nat.add_assoc]

/-! ### the header -/

theorem leBytes_length : ∀ (n x : Nat), (leBytes n x).length = n
  | 0, _ => rfl
  | n + 1, x => by rw [leBytes, List.length_cons, leBytes_length n]

theorem leValue_leBytes : ∀ (n x : Nat), x < 256 ^ n → leValue (leBytes n x) = x
  | 0, x, h => by simp only [Nat.pow_zero] at h; simp only [leBytes, leValue]; omega
  | n + 1, x, h => by
    rw [leBytes, leValue, leValue_leBytes n (x / 256) (by rw [Nat.pow_succ] at h; omega), UInt8.toNat_ofNat']
    omega

theorem flatMap_eight {α : Type} (f : α → Bytes) (hf : ∀ a, (f a).length = 8) : ∀ (l : List α), (l.flatMap f).length = 8 * l.length ∧
    ∀ i (hi : i < l.length), ((l.flatMap f).drop (8 * i)).take 8 = f l[i]
  | [] => ⟨rfl, fun i hi => absurd hi (Nat.not_lt_zero i)⟩
  | a :: l => by
    obtain ⟨h1, h2⟩ := flatMap_eight f hf l
    refine ⟨by rw [List.flatMap_cons, List.length_append, hf, h1, List.length_cons]; omega, fun i hi => ?_⟩
    rw [List.flatMap_cons]
    cases i with
    | zero => rw [Nat.mul_zero, List.drop_zero, List.take_append_of_le_length (Nat.le_of_eq (by rw [hf])), List.take_of_length_le (Nat.le_of_eq (by rw [hf]))]; rfl
    | succ i =>
      have h3 : 8 * (i + 1) = (f a).length + 8 * i := by rw [hf]; omega
      rw [h3, List.drop_length_add_append, h2 i (by simpa using hi)]
      rfl

theorem header_length (m : Manager) : m.header.length = 2080 := by
  have := (flatMap_eight (fun i => leBytes 8 (m.sizes (UInt8.ofNat i))) (fun _ => leBytes_length 8 _) (List.range 255)).1
  simp only [Manager.header, List.length_append, leBytes_length, List.length_replicate, this, List.length_range, List.length_cons, List.length_nil]

theorem header_alloc (m : Manager) : (m.header.drop 4).take 2 = leBytes 2 m.allocated := by
  rw [Manager.header, List.drop_append_of_le_length (by simp), show ([77, 71, 82, 1] : Bytes).drop 4 = [] from rfl, List.nil_append,
    List.take_append_of_le_length (Nat.le_of_eq (by rw [leBytes_length])), List.take_of_length_le (Nat.le_of_eq (by rw [leBytes_length]))]

theorem header_pages (m : Manager) : (m.header.drop 6).take 2 = leBytes 2 m.bucketPages := by
  have h : 6 = ([77, 71, 82, 1] : Bytes).length + ((leBytes 2 m.allocated).length + 0) := by rw [leBytes_length]; rfl
  rw [Manager.header, h, List.drop_length_add_append, List.drop_length_add_append, List.drop_zero,
    List.take_append_of_le_length (Nat.le_of_eq (by rw [leBytes_length])), List.take_of_length_le (Nat.le_of_eq (by rw [leBytes_length]))]

theorem header_sizes (m : Manager) (i : Nat) (hi : i < 255) : (m.header.drop (40 + 8 * i)).take 8 = leBytes 8 (m.sizes (UInt8.ofNat i)) := by
  have h : 40 + 8 * i = ([77, 71, 82, 1] : Bytes).length + ((leBytes 2 m.allocated).length + ((leBytes 2 m.bucketPages).length +
      ((List.replicate 32 (0 : UInt8)).length + 8 * i))) := by
    rw [leBytes_length, leBytes_length, List.length_replicate]; simp only [List.length_cons, List.length_nil]; omega
  rw [Manager.header, h, List.drop_length_add_append, List.drop_length_add_append, List.drop_length_add_append, List.drop_length_add_append,
    (flatMap_eight (fun i => leBytes 8 (m.sizes (UInt8.ofNat i))) (fun _ => leBytes_length 8 _) (List.range 255)).2 i (by simpa using hi),
    List.getElem_range]

theorem header_memory (m : Manager) (r : Raw) : (Manager.mk r m.allocated m.bucketPages m.sizes m.buckets).header = m.header := by
  rw [Manager.header, Manager.header]

/-! ### the invariant -/

/-- The manager and stable memory agree, and the memories' bytes are `c`. -/
structure Inv (mb : Nat) (m : Manager) (c : UInt8 → Nat → UInt8) : Prop where
  fits : 2080 + mb ≤ 65536
  bp : m.bucketPages = 128
  alloc : m.allocated ≤ mb
  pages : m.memory.pages = 1 + 128 * m.allocated
  head : ∀ i (h : i < m.header.length), m.memory.bytes i = m.header[i]
  owned : ∀ b, b < m.allocated → m.memory.bytes (2080 + b) ≠ 255
  free : ∀ b, m.allocated ≤ b → b < mb → m.memory.bytes (2080 + b) = 255
  bucket : ∀ id, m.buckets id = (List.range m.allocated).filter fun b => m.memory.bytes (2080 + b) = id
  enough : ∀ id, (m.buckets id).length = (m.sizes id + 127) / 128
  data : ∀ id off x, Lies (m.buckets id) off x → m.memory.bytes x = c id off
  rest : ∀ x, 65536 * (1 + 128 * m.allocated) ≤ x → m.memory.bytes x = 0
  beyond : ∀ id off, m.sizes id * 65536 ≤ off → c id off = 0

variable {mb : Nat} {m : Manager} {c : UInt8 → Nat → UInt8}

theorem Inv.nodup (h : Inv mb m c) (id : UInt8) : (m.buckets id).Nodup := by
  rw [h.bucket]
  exact List.nodup_range.filter _

theorem Inv.mem (h : Inv mb m c) {id : UInt8} {b : Nat} : b ∈ m.buckets id ↔ b < m.allocated ∧ m.memory.bytes (2080 + b) = id := by
  rw [h.bucket, List.mem_filter, List.mem_range, decide_eq_true_iff]

theorem Inv.room (h : Inv mb m c) {id : UInt8} {b : Nat} (hb : b ∈ m.buckets id) : 65536 + 8388608 * (b + 1) ≤ m.memory.pages * 65536 := by
  have := (h.mem.1 hb).1
  have := h.pages
  omega

theorem Inv.none (h : Inv mb m c) : m.buckets 255 = [] ∧ m.sizes 255 = 0 := by
  have h1 : m.buckets 255 = [] := by
    rw [List.eq_nil_iff_forall_not_mem]
    intro b hb
    obtain ⟨g1, g2⟩ := h.mem.1 hb
    exact h.owned b g1 g2
  have h2 := h.enough 255
  rw [h1, List.length_nil] at h2
  exact ⟨h1, by omega⟩

theorem Inv.small (h : Inv mb m c) (id : UInt8) : m.sizes id ≤ 128 * m.allocated := by
  have h1 := h.enough id
  have h2 : (m.buckets id).length ≤ m.allocated := by
    rw [h.bucket]
    exact Nat.le_trans (List.length_filter_le _ _) (by simp)
  omega

theorem Inv.within (h : Inv mb m c) (id : UInt8) : m.sizes id * 65536 ≤ (m.buckets id).length * 8388608 := by
  have := h.enough id
  omega

/-- Bytes of different memories lie at different places, and none in the first page. -/
theorem Inv.apart (h : Inv mb m c) {id id' : UInt8} {off off' x : Nat} (h1 : Lies (m.buckets id) off x) (h2 : Lies (m.buckets id') off' x) :
    id = id' ∧ off = off' := by
  have e : id = id' := by
    have g1 := h.mem.1 (List.mem_of_getElem? (lies_bucket h1).1)
    have g2 := h.mem.1 (List.mem_of_getElem? (lies_bucket h2).1)
    exact g1.2.symm.trans g2.2
  subst e
  exact ⟨rfl, lies_inj (h.nodup id) h1 h2⟩

theorem Inv.low (h : Inv mb m c) {id : UInt8} {off x : Nat} (h1 : Lies (m.buckets id) off x) : 65536 ≤ x ∧ x < 65536 * (1 + 128 * m.allocated) := by
  obtain ⟨b, hb, g1, g2⟩ := lies_mem h1
  have := (h.mem.1 hb).1
  omega

theorem read_inv (h : Inv mb m c) (id : UInt8) (off n : Nat) : m.read id off n =
    if off + n ≤ m.sizes id * 65536 then some ((List.range n).map fun i => c id (off + i)) else none := by
  rw [Manager.read, pageSize]
  by_cases hle : off + n ≤ m.sizes id * 65536
  · rw [if_neg (by omega), if_pos hle]
    obtain ⟨parts, h1, h2⟩ := readAll_spec (m := m) h.bp (l := m.buckets id) m.memory (fun b hb => h.room hb) (c id) (fun off x hl => h.data id off x hl) n off n
      (Nat.le_refl n) (Nat.le_trans hle (h.within id))
    rw [h1]
    exact h2
  · rw [if_pos (by omega), if_neg hle]

theorem write_inv (h : Inv mb m c) (id : UInt8) (off : Nat) (src : Bytes) :
    if off + src.length ≤ m.sizes id * 65536 then ∃ m', m.write id off src = some m' ∧ m'.sizes = m.sizes ∧
      Inv mb m' (fun j x => if j = id ∧ off ≤ x then match src[x - off]? with
        | some b => b
        | none => c j x
        else c j x)
    else m.write id off src = none := by
  by_cases hle : off + src.length ≤ m.sizes id * 65536
  · rw [if_pos hle, Manager.write, pageSize, if_neg (by omega)]
    obtain ⟨parts, r, h1, h2, h3, h4, h5⟩ := writeAll_spec (m := m) h.bp (h.nodup id) src.length off src m.memory (Nat.le_refl _)
      (Nat.le_trans hle (h.within id)) (fun b hb => h.room hb)
    rw [h1]
    simp only [h2]
    have hlow : ∀ x, x < 65536 → r.bytes x = m.memory.bytes x := fun x hx => h5 x fun k _ hl => by
      have := h.low hl
      omega
    have htab : ∀ b, b < mb → r.bytes (2080 + b) = m.memory.bytes (2080 + b) := fun b hb => hlow _ (by have := h.fits; omega)
    have hal := h.alloc
    refine ⟨_, rfl, rfl, ⟨h.fits, h.bp, h.alloc, by rw [h3]; exact h.pages, ?_, ?_, ?_, ?_, h.enough, ?_, ?_, ?_⟩⟩
    · intro i hi
      rw [header_length] at hi
      simp only
      rw [hlow i (by omega)]
      exact h.head i (by rw [header_length]; exact hi)
    · intro b hb
      simp only at hb ⊢
      rw [htab b (by omega)]
      exact h.owned b hb
    · intro b hb hb'
      simp only
      rw [htab b hb']
      exact h.free b hb hb'
    · intro j
      simp only
      rw [h.bucket]
      apply List.filter_congr
      intro b hb
      rw [htab b (by have := List.mem_range.1 hb; omega)]
    · intro j o x hl
      simp only at hl ⊢
      by_cases hj : j = id ∧ off ≤ o
      · rw [if_pos hj]
        obtain ⟨rfl, ho⟩ := hj
        cases hs : src[o - off]? with
        | some b =>
          obtain ⟨g1, g2⟩ := List.getElem?_eq_some_iff.1 hs
          rw [h4 (o - off) g1 x (by rw [Nat.add_sub_cancel' ho]; exact hl), g2]
        | none =>
          have := List.getElem?_eq_none_iff.1 hs
          simp only
          rw [h5 x (fun k hk hl' => by have := (h.apart hl hl').2; omega)]
          exact h.data j o x hl
      · rw [if_neg hj]
        rw [h5 x (fun k hk hl' => hj (by have := h.apart hl hl'; exact ⟨this.1, by omega⟩))]
        exact h.data j o x hl
    · intro x hx
      simp only at hx ⊢
      rw [h5 x (fun k hk hl => by have := h.low hl; omega)]
      exact h.rest x hx
    · intro j o ho
      simp only at ho ⊢
      by_cases hj : j = id ∧ off ≤ o
      · rw [if_pos hj]
        obtain ⟨rfl, ho'⟩ := hj
        rw [List.getElem?_eq_none (by omega)]
        exact h.beyond j o ho
      · rw [if_neg hj]
        exact h.beyond j o ho
  · rw [if_neg hle, Manager.write, pageSize, if_pos (by omega)]

/-! ### loading -/

theorem u8_ofNat_toNat (id : UInt8) : UInt8.ofNat id.toNat = id := by
  apply UInt8.toNat_inj.1
  rw [UInt8.toNat_ofNat']
  have := id.toNat_lt
  omega

theorem Inv.read_header (h : Inv mb m c) : m.memory.read 0 2080 = some m.header := by
  have hp := h.pages
  have e : ((List.range 2080).map fun i => m.memory.bytes (0 + i)) = m.header := by
    apply List.ext_getElem
    · rw [List.length_map, List.length_range, header_length]
    · intro i h1 h2
      rw [List.getElem_map, List.getElem_range, Nat.zero_add]
      exact h.head i h2
  rw [raw_read_ok (by rw [pageSize]; omega), e]

theorem Inv.load (h : Inv mb m c) : Manager.load mb m.memory = some m := by
  have hp := h.pages
  have hf := h.fits
  have ha := h.alloc
  rw [Manager.load, headerSize, h.read_header, raw_read_ok (m := m.memory) (a := 2080) (n := mb) (by rw [pageSize]; omega)]
  simp only
  rw [if_pos (by rfl)]
  obtain ⟨memory, allocated, bucketPages, sizes, buckets⟩ := m
  congr 1
  have hz := h.none
  simp only at hp ha hz
  simp only [Manager.mk.injEq]
  refine ⟨trivial, ?_, ?_, ?_, ?_⟩
  · rw [header_alloc, leValue_leBytes _ _ (by simp only; omega)]
  · have hb := h.bp
    simp only at hb
    rw [header_pages, leValue_leBytes _ _ (by simp only; omega)]
  · funext id
    split
    · rename_i hid
      rw [hid]
      exact hz.2.symm
    · rename_i hid
      have hlt : id.toNat < 255 := by
        have h1 := id.toNat_lt
        have h2 : id.toNat ≠ 255 := fun e => hid (UInt8.toNat_inj.1 e)
        omega
      rw [header_sizes _ _ hlt, u8_ofNat_toNat, leValue_leBytes]
      have := h.small id
      simp only at this ⊢
      omega
  · funext id
    have hbk := h.bucket id
    simp only at hbk
    split
    · rename_i hid
      rw [hid]
      exact hz.1.symm
    · rename_i hid
      rw [hbk]
      have e : mb = allocated + (mb - allocated) := by omega
      have hr : List.range mb = List.range allocated ++ (List.range (mb - allocated)).map (allocated + ·) := by
        conv => lhs; rw [e]
        exact List.range_add
      have hget : ∀ b, b < mb → ((List.range mb).map fun i => memory.bytes (2080 + i))[b]? = some (memory.bytes (2080 + b)) := by
        intro b hb
        rw [List.getElem?_map, List.getElem?_range hb]
        rfl
      revert hget
      generalize ((List.range mb).map fun i => memory.bytes (2080 + i)) = T
      intro hget
      rw [hr]
      rw [List.filter_append]
      have h1 : (List.range allocated).filter (fun b => decide (T[b]? = some id)) =
          (List.range allocated).filter (fun b => decide (memory.bytes (2080 + b) = id)) := by
        apply List.filter_congr
        intro b hb
        rw [hget b (by have := List.mem_range.1 hb; omega)]
        simp only [Option.some.injEq]
      have h2 : ((List.range (mb - allocated)).map (allocated + ·)).filter
          (fun b => decide (T[b]? = some id)) = [] := by
        rw [List.filter_eq_nil_iff]
        intro b hb
        obtain ⟨k, hk, rfl⟩ := List.mem_map.1 hb
        have hk := List.mem_range.1 hk
        have hfree := h.free (allocated + k) (by simp only; omega) (by omega)
        simp only at hfree
        rw [hget _ (by omega), hfree, decide_eq_true_iff]
        intro he
        exact hid (Option.some.inj he).symm
      rw [h1, h2, List.append_nil]

theorem init_inv (h : Inv mb m c) (limit : Nat) : Manager.init limit mb m.memory = some m := by
  have hp := h.pages
  have hr : m.memory.read 0 3 = some [77, 71, 82] := by
    rw [raw_read_ok (by rw [pageSize]; omega)]
    have e : ∀ i (hi : i < 2080), m.memory.bytes (0 + i) = m.header[i]'(by rw [header_length]; exact hi) := fun i hi => by
      rw [Nat.zero_add]
      exact h.head i (by rw [header_length]; exact hi)
    simp only [List.range, List.range.loop, List.map_cons, List.map_nil]
    rw [e 0 (by omega), e 1 (by omega), e 2 (by omega)]
    rfl
  rw [Manager.init, if_neg (by omega), hr]
  simp only [if_true]
  exact h.load

/-! ### a new manager -/

theorem fresh_inv (limit mb : Nat) (hl : 1 ≤ limit) (hf : 2080 + mb ≤ 65536) :
    ∃ m, Manager.init limit mb Raw.empty = some m ∧ (∀ id, m.sizes id = 0) ∧ Inv mb m (fun _ _ => 0) := by
  have hh : ∀ r : Raw, (Manager.mk r 0 128 (fun _ => 0) (fun _ => [])).header.length = 2080 := fun r => header_length _
  have hg : Raw.empty.writeGrowing limit 0 (Manager.mk Raw.empty 0 128 (fun _ => 0) (fun _ => [])).header =
      (Raw.mk 1 fun _ => 0).write 0 (Manager.mk Raw.empty 0 128 (fun _ => 0) (fun _ => [])).header := by
    rw [Raw.writeGrowing, if_pos (by rw [hh]; decide), hh, Raw.grow, if_pos (by show 0 + 1 ≤ limit; omega)]
    rfl
  obtain ⟨r1, a1, a2, a3, a4⟩ := raw_write_ok (m := ⟨1, fun _ => 0⟩) (a := 0) (bs := (Manager.mk Raw.empty 0 128 (fun _ => 0) (fun _ => [])).header)
    (by rw [hh]; decide)
  obtain ⟨r2, b1, b2, b3, b4⟩ := raw_write_ok (m := r1) (a := 2080) (bs := List.replicate mb unallocated)
    (by rw [List.length_replicate, a2, pageSize]; omega)
  refine ⟨⟨r2, 0, 128, fun _ => 0, fun _ => []⟩, ?_, fun _ => rfl, hf, rfl, Nat.zero_le _, ?_, ?_, ?_, ?_, ?_, ?_, ?_, ?_, ?_⟩
  · rw [Manager.init, if_pos (show Raw.empty.pages = 0 from rfl), Manager.new, Manager.saveHeader, defaultBucketPages, hg, a1]
    simp only [headerSize]
    rw [raw_writeGrowing_ok (by rw [List.length_replicate, a2, pageSize]; omega), b1]
  · simp only; rw [b2, a2]
  · intro i hi
    have hi' : i < 2080 := by rw [hh] at hi; exact hi
    simp only
    have := a3 i (by rw [hh]; exact hi')
    rw [Nat.zero_add] at this
    rw [b4 i (.inl hi'), this]
    rfl
  · intro b hb; exact absurd hb (Nat.not_lt_zero b)
  · intro b _ hb
    simp only
    rw [b3 b (by rw [List.length_replicate]; exact hb), List.getElem_replicate]
    rfl
  · intro id; rfl
  · intro id; show 0 = (0 + 127) / 128; decide
  · rintro id off x ⟨b, hb, _⟩
    simp at hb
  · intro x hx
    simp only at hx ⊢
    rw [b4 x (.inr (by rw [List.length_replicate]; omega)), a4 x (.inr (by rw [hh]; omega))]
  · intro _ _ _; rfl

/-! ### growing -/

theorem allocate_spec (limit : Nat) (id : UInt8) : ∀ (n : Nat) (m : Manager), 1 ≤ m.memory.pages → 2080 + m.allocated + n ≤ 65536 →
    ∃ m', m.allocate limit id n = some m' ∧ m'.allocated = m.allocated + n ∧ m'.bucketPages = m.bucketPages ∧ m'.sizes = m.sizes ∧
      m'.memory.pages = m.memory.pages ∧ (∀ b, m.allocated ≤ b → b < m.allocated + n → m'.memory.bytes (2080 + b) = id) ∧
      (∀ x, (x < 2080 + m.allocated ∨ 2080 + m.allocated + n ≤ x) → m'.memory.bytes x = m.memory.bytes x) ∧
      ∀ j, m'.buckets j = if j = id then m.buckets j ++ List.range' m.allocated n else m.buckets j := by
  intro n
  induction n with
  | zero =>
    intro m _ _
    exact ⟨m, rfl, rfl, rfl, rfl, rfl, fun b h1 h2 => by omega, fun _ _ => rfl, fun j => by simp⟩
  | succ n ih =>
    intro m hp hf
    obtain ⟨r, w1, w2, w3, w4⟩ := raw_write_ok (m := m.memory) (a := 2080 + m.allocated) (bs := [id]) (by
      simp only [List.length_cons, List.length_nil, pageSize]; omega)
    obtain ⟨m', i1, i2, i3, i4, i5, i6, i7, i8⟩ := ih ⟨r, m.allocated + 1, m.bucketPages, m.sizes,
      fun j => if j = id then m.buckets j ++ [m.allocated] else m.buckets j⟩ (by simp only; rw [w2]; exact hp) (by simp only; omega)
    simp only at i2 i3 i4 i5 i6 i7 i8
    refine ⟨m', ?_, by omega, i3, i4, i5.trans w2, fun b h1 h2 => ?_, fun x hx => ?_, fun j => ?_⟩
    · rw [Manager.allocate, headerSize, raw_writeGrowing_ok (by simp only [List.length_cons, List.length_nil, pageSize]; omega), w1]
      exact i1
    · by_cases hb : b = m.allocated
      · subst hb
        rw [i7 _ (.inl (by omega))]
        have := w3 0 (by simp)
        simpa using this
      · exact i6 b (by omega) (by omega)
    · rw [i7 x (by omega)]
      exact w4 x (by simp only [List.length_cons, List.length_nil]; omega)
    · rw [i8 j]
      split
      · rw [List.append_assoc, List.range'_succ]
        rfl
      · rfl

theorem grow_inv (h : Inv mb m c) (limit : Nat) (id : UInt8) (hid : id ≠ 255) (n : Nat) :
    let more := (m.sizes id + n + 127) / 128 - (m.sizes id + 127) / 128
    (m.allocated + more ≤ mb ∧ ¬(more = 0 ∨ 1 + 128 * (m.allocated + more) ≤ limit) ∧ m.grow limit mb id n = none) ∨
      (¬m.allocated + more ≤ mb ∧ m.grow limit mb id n = some (m, none)) ∨
      (m.allocated + more ≤ mb ∧ (more = 0 ∨ 1 + 128 * (m.allocated + more) ≤ limit) ∧
        ∃ m', m.grow limit mb id n = some (m', some (m.sizes id)) ∧ (∀ j, m'.sizes j = if j = id then m.sizes j + n else m.sizes j) ∧ Inv mb m' c) := by
  intro more
  have hfits := h.fits
  have halloc := h.alloc
  have hpages := h.pages
  simp only [Manager.grow, Manager.bucketsFor, h.bp]
  have hmore : (m.sizes id + n + 128 - 1) / 128 - (m.sizes id + 128 - 1) / 128 = more := rfl
  rw [hmore]
  have hk : (m.sizes id + n + 127) / 128 - (m.sizes id + 127) / 128 = more := rfl
  clear_value more
  generalize more = k at *
  split
  · exact .inr (.inl ⟨by omega, rfl⟩)
  rename_i hroom
  obtain ⟨m1, i1, i2, i3, i4, i5, i6, i7, i8⟩ := allocate_spec limit id k m (by omega) (by omega)
  rw [i1]
  simp only
  rw [i3, h.bp, i2, i4]
  have hgrow : ∀ r : Raw, (if 1 + 128 * (m.allocated + k) > m1.memory.pages then m1.memory.grow limit (1 + 128 * (m.allocated + k) - m1.memory.pages)
      else some m1.memory) = some r → r.bytes = m1.memory.bytes ∧ r.pages = 1 + 128 * (m.allocated + k) := by
    intro r hr
    split at hr
    · rw [Raw.grow] at hr
      split at hr
      · cases hr
        exact ⟨rfl, by simp only; omega⟩
      · cases hr
    · cases hr
      exact ⟨rfl, by omega⟩
  have hsome : (if 1 + 128 * (m.allocated + k) > m1.memory.pages then m1.memory.grow limit (1 + 128 * (m.allocated + k) - m1.memory.pages)
      else some m1.memory) = none ↔ ¬(k = 0 ∨ 1 + 128 * (m.allocated + k) ≤ limit) := by
    split
    · rw [Raw.grow]
      split
      · simp only [reduceCtorEq, false_iff]
        omega
      · simp only [true_iff]
        omega
    · simp only [reduceCtorEq, false_iff]
      omega
  revert hgrow hsome
  generalize (if 1 + 128 * (m.allocated + k) > m1.memory.pages then m1.memory.grow limit (1 + 128 * (m.allocated + k) - m1.memory.pages)
      else some m1.memory) = o
  intro hgrow hsome
  cases o with
  | none => exact .inl ⟨by omega, hsome.1 rfl, rfl⟩
  | some r =>
    have hsome : k = 0 ∨ 1 + 128 * (m.allocated + k) ≤ limit := by
      by_contra hc
      exact nomatch hsome.2 hc
    obtain ⟨g1, g2⟩ := hgrow r rfl
    simp only [Manager.saveHeader]
    have hh := header_memory ⟨r, m.allocated + k, 128, fun j => if j = id then m.sizes id + n else m.sizes j, m1.buckets⟩
    simp only at hh
    generalize hm2 : Manager.mk r (m.allocated + k) 128 (fun j => if j = id then m.sizes id + n else m.sizes j) m1.buckets = m2 at hh
    obtain ⟨r2, w1, w2, w3, w4⟩ := raw_write_ok (m := r) (a := 0) (bs := m2.header) (by rw [header_length, pageSize]; omega)
    rw [raw_writeGrowing_ok (by rw [header_length, pageSize]; omega), w1]
    refine .inr (.inr ⟨by omega, hsome, ⟨r2, m.allocated + k, 128, fun j => if j = id then m.sizes id + n else m.sizes j, m1.buckets⟩, rfl, fun j => ?_, ?_⟩)
    · simp only
      split
      · rename_i hj; rw [hj]
      · rfl
    have old : ∀ x, 2080 ≤ x → (x < 2080 + m.allocated ∨ 2080 + m.allocated + k ≤ x) → r2.bytes x = m.memory.bytes x := by
      intro x h1 h2
      rw [w4 x (.inr (by rw [header_length]; omega)), g1, i7 x h2]
    have new : ∀ b, m.allocated ≤ b → b < m.allocated + k → r2.bytes (2080 + b) = id := by
      intro b h1 h2
      rw [w4 _ (.inr (by rw [header_length]; omega)), g1, i6 b h1 h2]
    refine ⟨hfits, rfl, by simp only; omega, by simp only; rw [w2]; exact g2, ?_, ?_, ?_, ?_, ?_, ?_, ?_, ?_⟩
    · intro i hi
      have := w3 i (by rw [header_length]; rw [header_length] at hi; exact hi)
      rw [Nat.zero_add] at this
      simp only
      rw [this]
      exact List.getElem_of_eq (hh r2).symm _
    · intro b hb
      simp only at hb ⊢
      by_cases hb' : b < m.allocated
      · rw [old _ (by omega) (.inl (by omega))]
        exact h.owned b hb'
      · rw [new b (by omega) hb]
        exact hid
    · intro b hb hb'
      simp only at hb ⊢
      rw [old _ (by omega) (.inr (by omega))]
      exact h.free b (by omega) hb'
    · intro j
      simp only
      rw [i8, List.range_add, List.filter_append, h.bucket]
      have h1 : (List.range m.allocated).filter (fun b => decide (r2.bytes (2080 + b) = j)) =
          (List.range m.allocated).filter (fun b => decide (m.memory.bytes (2080 + b) = j)) := by
        apply List.filter_congr
        intro b hb
        rw [old _ (by omega) (.inl (by have := List.mem_range.1 hb; omega))]
      have h2 : ((List.range k).map (m.allocated + ·)).filter (fun b => decide (r2.bytes (2080 + b) = j)) =
          if j = id then List.range' m.allocated k else [] := by
        split
        · rename_i hj
          rw [List.filter_eq_self.2, List.range'_eq_map_range]
          intro b hb
          obtain ⟨q, hq, rfl⟩ := List.mem_map.1 hb
          have hq := List.mem_range.1 hq
          rw [decide_eq_true_iff, new _ (by omega) (by omega), hj]
        · rename_i hj
          rw [List.filter_eq_nil_iff]
          intro b hb
          obtain ⟨q, hq, rfl⟩ := List.mem_map.1 hb
          have hq := List.mem_range.1 hq
          rw [decide_eq_true_iff, new _ (by omega) (by omega)]
          exact fun e => hj e.symm
      rw [h1, h2]
      split <;> simp
    · intro j
      have he := h.enough j
      simp only
      rw [i8]
      split
      · rename_i hj
        subst hj
        rw [List.length_append, List.length_range', he]
        omega
      · exact he
    · intro j off x hl
      simp only at hl ⊢
      rw [i8] at hl
      have hold : Lies (m.buckets j) off x → r2.bytes x = c j off := by
        intro hl
        rw [old x (by have := h.low hl; omega) (.inr (by have := h.low hl; omega))]
        exact h.data j off x hl
      split at hl
      · by_cases ho : off / 8388608 < (m.buckets j).length
        · obtain ⟨b, e1, e2⟩ := hl
          rw [List.getElem?_append_left ho] at e1
          exact hold ⟨b, e1, e2⟩
        · obtain ⟨b, e1, e2⟩ := hl
          rw [List.getElem?_append_right (by omega)] at e1
          have hb := List.mem_range'_1.1 (List.mem_of_getElem? e1)
          have hx : 65536 * (1 + 128 * m.allocated) ≤ x := by omega
          rw [old x (by omega) (.inr (by omega)), h.rest x hx]
          have hw := h.within j
          exact (h.beyond j off (by omega)).symm
      · exact hold hl
    · intro x hx
      simp only at hx ⊢
      rw [old x (by omega) (.inr (by omega))]
      exact h.rest x (by omega)
    · intro j off ho
      simp only at ho
      refine h.beyond j off ?_
      split at ho
      · rename_i hj
        rw [hj]
        exact Nat.le_trans (Nat.mul_le_mul_right _ (Nat.le_add_right _ n)) ho
      · exact ho

/-! ### counting buckets -/

theorem one_owner (u : UInt8) (hu : u ≠ 255) : ((List.range 255).map fun i => if u = UInt8.ofNat i then 1 else 0).sum = 1 := by
  revert u
  apply u8_all
  decide +kernel

theorem count_buckets (f : Nat → UInt8) : ∀ (l : List Nat), (∀ b ∈ l, f b ≠ 255) →
    ((List.range 255).map fun i => (l.filter fun b => f b = UInt8.ofNat i).length).sum = l.length
  | [], _ => by
    simp only [List.filter_nil, List.length_nil]
    decide +kernel
  | b :: l, h => by
    have h1 := count_buckets f l fun x hx => h x (List.mem_cons_of_mem _ hx)
    have h2 := one_owner (f b) (h b List.mem_cons_self)
    have e : ∀ i, ((b :: l).filter fun b => f b = UInt8.ofNat i).length =
        (l.filter fun b => f b = UInt8.ofNat i).length + if f b = UInt8.ofNat i then 1 else 0 := by
      intro i
      by_cases hb : f b = UInt8.ofNat i
      · rw [List.filter_cons_of_pos (by simp [hb]), List.length_cons, if_pos hb]
      · rw [List.filter_cons_of_neg (by simp [hb]), if_neg hb]; rfl
    simp only [e]
    rw [List.sum_map_add, h1, h2, List.length_cons]

theorem Inv.total (h : Inv mb m c) : m.allocated = ((List.range 255).map fun i => (m.sizes (UInt8.ofNat i) + 127) / 128).sum := by
  have h1 := count_buckets (fun b => m.memory.bytes (2080 + b)) (List.range m.allocated) fun b hb => h.owned b (List.mem_range.1 hb)
  rw [List.length_range] at h1
  rw [← h1]
  refine congrArg List.sum (List.map_congr_left fun i _ => ?_)
  rw [← h.enough, h.bucket]

end Siwe.StableMemory
