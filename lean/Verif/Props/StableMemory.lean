import Verif.Lemmas.StableMemory
/- Property C119: the two mappings share the stable memory without disturbing each other. -/
namespace Siwe
open Spec StableMemory

namespace StableMemory

theorem pagesOf_snoc (id : UInt8) (es : List (Use × Outcome)) (e : Use × Outcome) :
    pagesOf id (es ++ [e]) = pagesOf id es + pagesOf id [e] := by
  simp only [pagesOf, List.map_append, List.sum_append]

theorem byteOf_snoc (id : UInt8) (x : Nat) (es : List (Use × Outcome)) (e : Use × Outcome) : byteOf id x (es ++ [e]) =
    match e with
    | (.write j offset bytes, .done) =>
      if j = id ∧ offset ≤ x then match bytes[x - offset]? with
        | some b => b
        | none => byteOf id x es
      else byteOf id x es
    | _ => byteOf id x es := by
  rw [byteOf, List.foldl_append]
  rfl

/-- The manager is as it should be after these uses. -/
def Good (mb : Nat) (m : Manager) (es : List (Use × Outcome)) : Prop :=
  Inv mb m (fun id x => byteOf id x es) ∧ ∀ id, m.sizes id = pagesOf id es

theorem good_idle {mb : Nat} {m : Manager} {es : List (Use × Outcome)} (h : Good mb m es) (u : Use) (o : Outcome) (ho : o ≠ .done ∨ u = .upgrade) :
    Good mb m (es ++ [(u, o)]) := by
  have h1 : ∀ id, pagesOf id [(u, o)] = 0 := by
    intro id
    rcases ho with ho | rfl
    · cases o with
      | done => exact (ho rfl).elim
      | _ => cases u <;> rfl
    · rfl
  have h2 : ∀ id x, byteOf id x (es ++ [(u, o)]) = byteOf id x es := by
    intro id x
    rw [byteOf_snoc]
    rcases ho with ho | rfl
    · cases o with
      | done => exact (ho rfl).elim
      | _ => cases u <;> rfl
    · rfl
  refine ⟨?_, fun id => by rw [pagesOf_snoc, h1, h.2]; rfl⟩
  simp only [h2]
  exact h.1

theorem good_step (limit : Nat) {mb : Nat} {m : Manager} {es : List (Use × Outcome)} (h : Good mb m es) (u : Use) :
    Good mb (m.use limit mb u).1 (es ++ [(u, (m.use limit mb u).2)]) := by
  cases u with
  | upgrade =>
    rw [Manager.use, init_inv h.1]
    exact good_idle h _ _ (.inr rfl)
  | write id off src =>
    rw [Manager.use]
    by_cases hid : id = unallocated
    · rw [if_pos hid]
      exact good_idle h _ _ (.inl nofun)
    rw [if_neg hid]
    have := write_inv h.1 id off src
    split at this
    · obtain ⟨m', h1, h2, h3⟩ := this
      rw [h1]
      refine ⟨?_, fun j => by rw [pagesOf_snoc, h2, h.2]; rfl⟩
      simp only [byteOf_snoc]
      have e : ∀ j x, (if id = j ∧ off ≤ x then match src[x - off]? with
          | some b => b
          | none => byteOf j x es
          else byteOf j x es) = if j = id ∧ off ≤ x then match src[x - off]? with
          | some b => b
          | none => byteOf j x es
          else byteOf j x es := by
        intro j x
        simp only [eq_comm (a := id)]
      simp only [e]
      exact h3
    · rw [this]
      exact good_idle h _ _ (.inl nofun)
  | grow id n =>
    rw [Manager.use]
    by_cases hid : id = unallocated
    · rw [if_pos hid]
      exact good_idle h _ _ (.inl nofun)
    rw [if_neg hid]
    rcases grow_inv h.1 limit id hid n with ⟨_, _, h1⟩ | ⟨_, h1⟩ | ⟨_, _, m', h1, h2, h3⟩
    · rw [h1]
      exact good_idle h _ _ (.inl nofun)
    · rw [h1]
      exact good_idle h _ _ (.inl nofun)
    · rw [h1]
      refine ⟨?_, fun j => ?_⟩
      · simp only [byteOf_snoc]
        exact h3
      · simp only
        rw [pagesOf_snoc, h2, h.2]
        simp only [pagesOf, List.map_cons, List.map_nil, List.sum_cons, List.sum_nil, eq_comm (a := j)]
        split <;> rfl

theorem good_uses (limit : Nat) {mb : Nat} : ∀ (us : List Use) {m : Manager} {es : List (Use × Outcome)}, Good mb m es →
    Good mb (m.uses limit mb us).1 (es ++ (m.uses limit mb us).2)
  | [], _, _, h => by rw [Manager.uses, List.append_nil]; exact h
  | u :: us, m, es, h => by
    have h1 := good_uses limit us (good_step limit h u)
    rw [Manager.uses]
    rw [List.append_assoc] at h1
    exact h1

theorem good_fresh {limit mb : Nat} (hl : 1 ≤ limit) (hf : 2080 + mb ≤ 65536) (us : List Use) :
    ∃ m, Manager.init limit mb Raw.empty = some m ∧ Good mb (m.uses limit mb us).1 (m.uses limit mb us).2 := by
  obtain ⟨m, h1, h2, h3⟩ := fresh_inv limit mb hl hf
  refine ⟨m, h1, ?_⟩
  have := good_uses limit us (m := m) (es := []) ⟨h3, h2⟩
  rw [List.nil_append] at this
  exact this

theorem others (id : UInt8) : ∀ (es' es : List (Use × Outcome)), (∀ e ∈ es', ¬UseOf id e.1) →
    pagesOf id (es ++ es') = pagesOf id es ∧ ∀ x, byteOf id x (es ++ es') = byteOf id x es
  | [], es, _ => by simp
  | (u, o) :: es', es, h => by
    obtain ⟨h1, h2⟩ := others id es' (es ++ [(u, o)]) fun e he => h e (List.mem_cons_of_mem _ he)
    rw [List.append_assoc, List.singleton_append] at h1
    have hu := h (u, o) List.mem_cons_self
    have e1 : pagesOf id [(u, o)] = 0 := by
      cases u <;> cases o <;> simp_all [pagesOf, UseOf]
    have e2 : ∀ x, byteOf id x (es ++ [(u, o)]) = byteOf id x es := by
      intro x
      rw [byteOf_snoc]
      cases u <;> cases o <;> simp_all [UseOf]
    refine ⟨by rw [h1, pagesOf_snoc, e1]; rfl, fun x => ?_⟩
    have := h2 x
    rw [List.append_assoc, List.singleton_append] at this
    rw [this, e2]

theorem uses_fst (limit mb : Nat) : ∀ (us : List Use) (m : Manager), (m.uses limit mb us).2.map (·.1) = us
  | [], _ => rfl
  | u :: us, m => by
    rw [Manager.uses]
    simp only [List.map_cons, uses_fst limit mb us]

end StableMemory

/-- C119: in a canister's stable memory, after any uses of its memories with any outcomes, and any upgrades, a memory has the pages granted to it,
each of its bytes is the one last written there or 0, and nothing outside can be read.  What was done with other memories plays no role. -/
theorem C119_reads (limit maxBuckets : Nat) (hl : 1 ≤ limit) (hm : maxBuckets ≤ 32768) (us : List Use) :
    ∃ m, Manager.init limit maxBuckets Raw.empty = some m ∧
      let (m', es) := m.uses limit maxBuckets us
      ∀ id offset n, m'.sizes id = pagesOf id es ∧ m'.read id offset n =
        if offset + n ≤ pagesOf id es * 65536 then some ((List.range n).map fun i => byteOf id (offset + i) es) else none := by
  obtain ⟨m, h1, h2⟩ := good_fresh (mb := maxBuckets) hl (by omega) us
  exact ⟨m, h1, fun id offset n => ⟨h2.2 id, by rw [← h2.2 id]; exact read_inv h2.1 id offset n⟩⟩

/-- C119: a write is done exactly if it lies inside the memory's pages. -/
theorem C119_writes (limit maxBuckets : Nat) (hl : 1 ≤ limit) (hm : maxBuckets ≤ 32768) (us : List Use) (id : UInt8) (hid : id ≠ 255) (offset : Nat)
    (bytes : Bytes) : ∃ m, Manager.init limit maxBuckets Raw.empty = some m ∧
      let (m', es) := m.uses limit maxBuckets us
      (m'.use limit maxBuckets (.write id offset bytes)).2 = if offset + bytes.length ≤ pagesOf id es * 65536 then .done else .trapped := by
  obtain ⟨m, h1, h2⟩ := good_fresh (mb := maxBuckets) hl (by omega) us
  refine ⟨m, h1, ?_⟩
  simp only
  rw [← h2.2 id, Manager.use, if_neg (show ¬id = unallocated from hid)]
  have := write_inv h2.1 id offset bytes
  split at this
  · rename_i hle
    obtain ⟨m', g1, _⟩ := this
    rw [g1, if_pos hle]
  · rename_i hle
    rw [this, if_neg hle]

/-- C119: a memory is made larger exactly if the table has room for the buckets it needs beyond those it has, and the system for their pages. -/
theorem C119_grows (limit maxBuckets : Nat) (hl : 1 ≤ limit) (hm : maxBuckets ≤ 32768) (us : List Use) (id : UInt8) (hid : id ≠ 255) (pages : Nat) :
    ∃ m, Manager.init limit maxBuckets Raw.empty = some m ∧
      let (m', es) := m.uses limit maxBuckets us
      let more := (pagesOf id es + pages + 127) / 128 - (pagesOf id es + 127) / 128
      (m'.use limit maxBuckets (.grow id pages)).2 =
        if ¬bucketsUsed es + more ≤ maxBuckets then .refused
        else if more = 0 ∨ 1 + 128 * (bucketsUsed es + more) ≤ limit then .done
        else .trapped := by
  obtain ⟨m, h1, h2⟩ := good_fresh (mb := maxBuckets) hl (by omega) us
  refine ⟨m, h1, ?_⟩
  have ht : bucketsUsed (m.uses limit maxBuckets us).2 = (m.uses limit maxBuckets us).1.allocated := by
    rw [h2.1.total, bucketsUsed]
    simp only [h2.2]
  simp only
  rw [ht, ← h2.2 id, Manager.use, if_neg (show ¬id = unallocated from hid)]
  rcases grow_inv h2.1 limit id hid pages with ⟨g1, g2, g3⟩ | ⟨g1, g2⟩ | ⟨g1, g2, m', g3, _⟩
  · rw [g3, if_neg (not_not.2 g1), if_neg g2]
  · rw [g2, if_pos g1]
  · rw [g3, if_neg (not_not.2 g1), if_pos g2]

/-- C119: an upgrade finds the manager exactly as it was. -/
theorem C119_upgrade (limit maxBuckets : Nat) (hl : 1 ≤ limit) (hm : maxBuckets ≤ 32768) (us : List Use) :
    ∃ m, Manager.init limit maxBuckets Raw.empty = some m ∧
      (m.uses limit maxBuckets us).1.use limit maxBuckets .upgrade = ((m.uses limit maxBuckets us).1, .done) := by
  obtain ⟨m, h1, h2⟩ := good_fresh (mb := maxBuckets) hl (by omega) us
  exact ⟨m, h1, by rw [Manager.use, init_inv h2.1]⟩

/-- C119: whatever is done with other memories, and over upgrades, a memory reads as before. -/
theorem C119_apart (limit maxBuckets : Nat) (hl : 1 ≤ limit) (hm : maxBuckets ≤ 32768) (us vs : List Use) (id : UInt8) (hv : ∀ u ∈ vs, ¬UseOf id u) :
    ∃ m, Manager.init limit maxBuckets Raw.empty = some m ∧
      let m' := (m.uses limit maxBuckets us).1
      ∀ offset n, (m'.uses limit maxBuckets vs).1.read id offset n = m'.read id offset n := by
  obtain ⟨m, h1, h2⟩ := good_fresh (mb := maxBuckets) hl (by omega) us
  refine ⟨m, h1, fun offset n => ?_⟩
  have h3 := good_uses limit vs h2
  obtain ⟨g1, g2⟩ := others id ((m.uses limit maxBuckets us).1.uses limit maxBuckets vs).2 (m.uses limit maxBuckets us).2 fun e he =>
    hv e.1 (by rw [← uses_fst limit maxBuckets vs (m.uses limit maxBuckets us).1]; exact List.mem_map_of_mem he)
  rw [read_inv h3.1, read_inv h2.1, h3.2, h2.2, g1]
  simp only [g2]

/-- C119: in particular, what is done with one of the provider's two mappings leaves the other one alone. -/
theorem C119_mappings (limit : Nat) (hl : 1 ≤ limit) (us vs : List Use) (this other : UInt8)
    (ho : (this = principalAddressMemory ∧ other = addressPrincipalMemory) ∨ (this = addressPrincipalMemory ∧ other = principalAddressMemory))
    (hv : ∀ u ∈ vs, UseOf this u ∨ u = .upgrade) :
    ∃ m, Manager.init limit 32768 Raw.empty = some m ∧
      let m' := (m.uses limit 32768 us).1
      ∀ offset n, (m'.uses limit 32768 vs).1.read other offset n = m'.read other offset n := by
  have hne : this ≠ other := by
    rcases ho with ⟨rfl, rfl⟩ | ⟨rfl, rfl⟩ <;> decide
  refine C119_apart limit 32768 hl (Nat.le_refl _) us vs other fun u hu hb => ?_
  rcases hv u hu with h | rfl
  · cases u with
    | grow j _ => exact hne (h.symm.trans hb)
    | write j _ _ => exact hne (h.symm.trans hb)
    | upgrade => exact hb
  · exact hb

/-- The two memories grow in turn; the first gets a second bucket behind the one of the second memory, and a write crosses its buckets. -/
def Ex.memoryUses : List Use :=
  [.grow 0 1, .grow 1 1, .write 0 65532 [1, 2, 3, 4], .write 1 0 [9, 9], .grow 0 128, .write 0 8388606 [5, 6, 7, 8], .write 1 65535 [1, 1],
    .grow 1 200, .grow 255 1]

/-- Non-vacuity: a write outside the memory traps, a table of three buckets refuses a fourth, and each memory has its own bytes. -/
example : ((Manager.init 1000 3 Raw.empty).map fun m =>
    ((m.uses 1000 3 Ex.memoryUses).2.map (·.2), (m.uses 1000 3 Ex.memoryUses).1.buckets 0, (m.uses 1000 3 Ex.memoryUses).1.read 0 8388605 6,
      (m.uses 1000 3 Ex.memoryUses).1.read 1 0 3)) =
    some ([.done, .done, .done, .done, .done, .done, .trapped, .refused, .trapped], [0, 2], some [0, 5, 6, 7, 8, 0], some [9, 9, 0]) := by
  decide +kernel

/-- ... as they should be. -/
example : let es := Ex.memoryUses.zip [.done, .done, .done, .done, .done, .done, .trapped, .refused, .trapped]
    pagesOf 0 es = 129 ∧ pagesOf 1 es = 1 ∧ bucketsUsed es = 3 ∧ byteOf 0 8388608 es = 7 ∧ byteOf 1 1 es = 9 ∧ byteOf 1 65532 es = 0 := by
  decide +kernel

end Siwe
