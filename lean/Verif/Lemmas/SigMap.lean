import Verif.Lemmas.RbDelete
import Verif.Lemmas.Heap
/- The signature map refines its specification. -/
namespace Siwe
open Spec RbTree

instance : Std.TransOrd Hash where
  eq_swap := fun {a b} => Std.OrientedOrd.eq_swap (a := a.bytes) (b := b.bytes)
  isLE_trans := fun {a b c} h1 h2 => Std.TransOrd.isLE_trans (a := a.bytes) (b := b.bytes) (c := c.bytes) h1 h2

instance : Std.LawfulEqOrd Hash where
  compare_self := fun {a} => Std.ReflOrd.compare_self (a := a.bytes)
  eq_of_compare := fun {_ _} h => Hash.ext' (Std.LawfulEqOrd.eq_of_compare h)

namespace SigMap

/-- The trees are search trees in order, and no subtree is empty. -/
structure TreesOk (m : SigMap) : Prop where
  outer : Good m.certifiedMap
  inner : ∀ s sub, m.certifiedMap.get s = some sub → Good sub ∧ sub.isEmpty = false

theorem holds_iff {m : SigMap} (h : TreesOk m) (s d : Hash) :
    Holds m s d ↔ ∃ sub, m.certifiedMap.get s = some sub ∧ sub.get d = some () := by
  constructor
  · rintro ⟨sub, h1, h2⟩
    have h1 := (get_iff _ h.outer.sorted s sub).mpr h1
    exact ⟨sub, h1, (get_iff _ (h.inner s sub h1).1.sorted d ()).mpr h2⟩
  · rintro ⟨sub, h1, h2⟩
    exact ⟨sub, (get_iff _ h.outer.sorted s sub).mp h1, (get_iff _ (h.inner s sub h1).1.sorted d ()).mp h2⟩

theorem treesOk_empty : TreesOk empty := ⟨good_nil, fun s sub h => by simp [empty, RbTree.get] at h⟩

theorem not_isEmpty_of_get {t : RbTree Hash Unit} {d : Hash} {u : Unit} (h : t.get d = some u) : t.isEmpty = false := by
  cases t with
  | nil => simp [RbTree.get] at h
  | node => rfl

theorem put_spec {m : SigMap} (h : TreesOk m) (ε : Type) (now : UInt64) (s d : Hash) :
    ∃ m', (m.put now s d : Res ε SigMap) = .ok m' ∧ TreesOk m' ∧
      m'.expirationQueue = heapPush m.expirationQueue ⟨s, d, satAdd now delegationSignatureExpiresAt⟩ ∧
      ∀ s' d', Holds m' s' d' ↔ (s' = s ∧ d' = d) ∨ Holds m s' d' := by
  -- the new outer tree, given by what it returns
  have main : ∀ (cm : RbTree Hash (RbTree Hash Unit)) (sub0 sub : RbTree Hash Unit), Good cm → (∀ k, cm.get k = if k = s then some sub else m.certifiedMap.get k) →
      Good sub → (∀ k, sub.get k = if k = d then some () else sub0.get k) →
      (∀ x, (∃ y, m.certifiedMap.get s = some y ∧ y.get x = some ()) ↔ sub0.get x = some ()) →
      ∀ q, TreesOk ⟨cm, q⟩ ∧ ∀ s' d', Holds ⟨cm, q⟩ s' d' ↔ (s' = s ∧ d' = d) ∨ Holds m s' d' := by
    intro cm sub0 sub hg hget hgs hgets h0 q
    have ht : TreesOk ⟨cm, q⟩ := by
      refine ⟨hg, fun k x hx => ?_⟩
      rw [hget] at hx
      split at hx
      · cases hx
        exact ⟨hgs, not_isEmpty_of_get (d := d) (u := ()) (by rw [hgets]; simp)⟩
      · exact h.inner k x hx
    refine ⟨ht, fun s' d' => ?_⟩
    rw [holds_iff ht, holds_iff h]
    simp only [hget]
    by_cases hs : s' = s
    · subst hs
      simp only [if_true, Option.some.injEq, exists_eq_left', hgets]
      by_cases hd : d' = d
      · simp [hd]
      · rw [if_neg hd, ← h0 d']; simp [hd]
    · simp [hs]
  rcases hk : m.certifiedMap.get s with _ | sub
  · have hg := good_insert h.outer s (RbTree.insert nil d ())
    have := main _ nil _ hg (fun k => get_insert h.outer s _ k) (good_insert good_nil d ())
      (fun k => get_insert good_nil d () k) (by simp [hk, RbTree.get])
      (heapPush m.expirationQueue ⟨s, d, satAdd now delegationSignatureExpiresAt⟩)
    exact ⟨_, by simp only [put, hk], this.1, rfl, this.2⟩
  · obtain ⟨cm, hcm⟩ := modify_total (t := m.certifiedMap) (key := s)
      (f := fun submap => some (submap.insert d ())) fun v _ => ⟨_, rfl⟩
    have hsub := (h.inner s sub hk).1
    have := main cm sub (sub.insert d ()) (good_modify h.outer hcm)
      (fun k => by rw [get_modify hcm, hk]; rfl) (good_insert hsub d ()) (fun k => get_insert hsub d () k)
      (by simp [hk])
      (heapPush m.expirationQueue ⟨s, d, satAdd now delegationSignatureExpiresAt⟩)
    exact ⟨_, by simp only [put, hk, hcm], this.1, rfl, this.2⟩

theorem delete_spec {m : SigMap} (h : TreesOk m) (ε : Type) (s d : Hash) :
    ∃ m', (m.delete s d : Res ε SigMap) = .ok m' ∧ TreesOk m' ∧ m'.expirationQueue = m.expirationQueue ∧
      ∀ s' d', Holds m' s' d' ↔ ¬(s' = s ∧ d' = d) ∧ Holds m s' d' := by
  obtain ⟨cm, hcm⟩ := modify_total (t := m.certifiedMap) (key := s) (f := fun sub => sub.delete d) fun v hv =>
    let ⟨t', h1, _⟩ := RbTree.delete_spec (h.inner s v hv).1 d
    ⟨t', h1⟩
  have hg := good_modify h.outer hcm
  have hget := get_modify hcm
  rcases hk : m.certifiedMap.get s with _ | sub
  · have hsame : ∀ k, cm.get k = m.certifiedMap.get k := by
      intro k
      rw [hget]
      split
      · next e => rw [e, hk]; rfl
      · rfl
    have ht : TreesOk ⟨cm, m.expirationQueue⟩ := ⟨hg, fun k x hx => h.inner k x (by rw [← hsame]; exact hx)⟩
    refine ⟨⟨cm, m.expirationQueue⟩, by simp [delete, hcm, hsame, hk], ht, rfl, fun s' d' => ?_⟩
    rw [holds_iff ht, holds_iff h]
    simp only [hsame]
    by_cases hs : s' = s
    · subst hs; simp [hk]
    · simp [hs]
  · obtain ⟨sub', hd, hgs, hgets⟩ := RbTree.delete_spec (h.inner s sub hk).1 d
    have hget' : ∀ k, cm.get k = if k = s then some sub' else m.certifiedMap.get k := by
      intro k; rw [hget, hk]; simp [hd]
    have hcs : cm.get s = some sub' := by rw [hget']; simp
    by_cases he : sub'.isEmpty = true
    · obtain ⟨cm', hdel, hg', hget''⟩ := RbTree.delete_spec hg s
      have ht : TreesOk ⟨cm', m.expirationQueue⟩ := by
        refine ⟨hg', fun k x hx => ?_⟩
        rw [hget''] at hx
        split at hx
        · simp at hx
        · next hne => rw [hget', if_neg hne] at hx; exact h.inner k x hx
      refine ⟨⟨cm', m.expirationQueue⟩, by simp [delete, hcm, hcs, he, hdel], ht, rfl, fun s' d' => ?_⟩
      rw [holds_iff ht, holds_iff h]
      by_cases hs : s' = s
      · subst hs
        have hnone := (isEmpty_iff_get hgs).mp he d'
        rw [hgets] at hnone
        by_cases hdd : d' = d
        · simp [hget'', hdd]
        · simp [hdd] at hnone; simp [hget'', hk, hnone]
      · simp [hget'', hget', hs]
    · have he : sub'.isEmpty = false := by simpa using he
      have ht : TreesOk ⟨cm, m.expirationQueue⟩ := by
        refine ⟨hg, fun k x hx => ?_⟩
        rw [hget'] at hx
        split at hx
        · cases hx; exact ⟨hgs, he⟩
        · exact h.inner k x hx
      refine ⟨⟨cm, m.expirationQueue⟩, by simp [delete, hcm, hcs, he], ht, rfl, fun s' d' => ?_⟩
      rw [holds_iff ht, holds_iff h]
      simp only [hget']
      by_cases hs : s' = s
      · subst hs
        by_cases hdd : d' = d
        · simp [hgets, hdd]
        · simp [hgets, hdd, hk]
      · simp [hs]

theorem pruneLoop_spec (ε : Type) (steps : Nat) {m : SigMap} (h : TreesOk m) (hq : HeapOk m.expirationQueue)
    (now : UInt64) (n : Nat) (hs : steps ≤ m.expirationQueue.length) :
    ∃ removed m', (pruneLoop steps m now n : Res ε _) = .ok (n + removed.length, m') ∧ TreesOk m' ∧
      HeapOk m'.expirationQueue ∧ Pruned now steps m.expirationQueue removed m'.expirationQueue ∧
      ∀ s d, Holds m' s d ↔ Holds m s d ∧ ∀ e ∈ removed, ¬(e.seedHash = s ∧ e.delegationHash = d) := by
  induction steps generalizing m n with
  | zero =>
    exact ⟨[], m, rfl, h, hq, ⟨.refl _, by simp, by simp, .nil, by simp, .inl rfl⟩, by simp⟩
  | succ steps ih =>
    rcases hd : m.expirationQueue with _ | ⟨top, rest⟩
    · simp [hd] at hs
    · rw [hd] at hq hs
      have hmin := heap_min hq
      obtain ⟨q, hpop, hperm, hq'⟩ := heapPop_spec hq
      have hlen := hperm.length_eq
      simp only [List.length_cons] at hs
      rw [pruneLoop]
      simp only [hd, heapPeek, List.head?_cons]
      by_cases hdue : top.expiresAt > now
      · rw [if_pos hdue]
        have hdue' : now.toNat < top.expiresAt.toNat := hdue
        refine ⟨[], m, rfl, h, hd ▸ hq, ?_, by simp⟩
        rw [hd]
        refine ⟨.refl _, by simp, by simp, .nil, by simp, .inr fun f hf => ?_⟩
        rcases List.mem_cons.mp hf with rfl | hf
        · exact hdue'
        · have := hmin f hf; omega
      · rw [if_neg hdue]
        have hdue' : top.expiresAt.toNat ≤ now.toNat := Nat.not_lt.mp hdue
        simp only [hpop]
        have h0 : TreesOk ⟨m.certifiedMap, q⟩ := ⟨h.outer, h.inner⟩
        obtain ⟨m1, hm1, ht1, hq1, hh1⟩ := delete_spec h0 ε top.seedHash top.delegationHash
        rw [hm1]
        simp only [Res.ok_bind]
        simp only at hq1
        obtain ⟨removed, m', hm', ht', hq2, hp, hh⟩ := ih ht1 (hq1 ▸ hq') (n + 1) (by rw [hq1]; omega)
        rw [hq1] at hp
        refine ⟨top :: removed, m', ?_, ht', hq2, ⟨?_, ?_, ?_, ?_, ?_, ?_⟩, ?_⟩
        · rw [hm']; simp; omega
        · exact (hperm.symm.trans hp.split).cons top
        · intro e he
          rcases List.mem_cons.mp he with rfl | he
          · exact hdue'
          · exact hp.due e he
        · intro e he f hf
          rcases List.mem_cons.mp he with rfl | he
          · exact hmin f (hperm.mem_iff.mp (hp.split.mem_iff.mpr (by simp [hf])))
          · exact hp.soonest e he f hf
        · refine List.pairwise_cons.mpr ⟨fun e he => ?_, hp.inOrder⟩
          exact hmin e (hperm.mem_iff.mp (hp.split.mem_iff.mpr (by simp [he])))
        · have := hp.bounded; simp; omega
        · rcases hp.exhaustive with h | h
          · left; simp [h]
          · right; exact h
        · intro s d
          rw [hh, hh1]
          have hsame : Holds ⟨m.certifiedMap, q⟩ s d ↔ Holds m s d := Iff.rfl
          rw [hsame]
          constructor
          · rintro ⟨⟨h1, h2⟩, h3⟩
            refine ⟨h2, fun e he => ?_⟩
            rcases List.mem_cons.mp he with rfl | he
            · rintro ⟨rfl, rfl⟩; exact h1 ⟨rfl, rfl⟩
            · exact h3 e he
          · rintro ⟨h1, h2⟩
            refine ⟨⟨?_, h1⟩, fun e he => h2 e (by simp [he])⟩
            rintro ⟨rfl, rfl⟩
            exact h2 top (by simp) ⟨rfl, rfl⟩

theorem pruneExpired_spec (ε : Type) {m : SigMap} (h : TreesOk m) (hq : HeapOk m.expirationQueue)
    (now : UInt64) (k : Nat) :
    ∃ removed m', (m.pruneExpired now k : Res ε _) = .ok (removed.length, m') ∧ TreesOk m' ∧
      HeapOk m'.expirationQueue ∧ Pruned now k m.expirationQueue removed m'.expirationQueue ∧
      ∀ s d, Holds m' s d ↔ Holds m s d ∧ ∀ e ∈ removed, ¬(e.seedHash = s ∧ e.delegationHash = d) := by
  obtain ⟨removed, m', h1, h2, h3, h4, h5⟩ := pruneLoop_spec ε (min k m.expirationQueue.length) h hq now 0
    (Nat.min_le_right _ _)
  refine ⟨removed, m', by rw [pruneExpired, h1]; simp, h2, h3, ?_, h5⟩
  have hl := h4.split.length_eq
  simp only [List.length_append] at hl
  refine ⟨h4.split, h4.due, h4.soonest, h4.inOrder, by have := h4.bounded; omega, ?_⟩
  rcases h4.exhaustive with h | h
  · by_cases hk : k ≤ m.expirationQueue.length
    · left; omega
    · right
      have : m'.expirationQueue = [] := List.eq_nil_of_length_eq_zero (by omega)
      simp [this]
  · exact .inr h

/-- What every reachable map satisfies. -/
structure Ok (m : SigMap) : Prop where
  trees : TreesOk m
  heap : HeapOk m.expirationQueue
  covered : ∀ s d, Holds m s d → ∃ e ∈ m.expirationQueue, e.seedHash = s ∧ e.delegationHash = d

theorem ok_empty : Ok empty :=
  ⟨treesOk_empty, heapOk_nil, fun s d ⟨sub, h, _⟩ => by simp [HasSeed, empty, RbTree.toList] at h⟩

theorem ok_put (ε : Type) {m : SigMap} (h : Ok m) (now : UInt64) (s d : Hash) :
    ∃ m', (m.put now s d : Res ε SigMap) = .ok m' ∧ Ok m' ∧
      m'.expirationQueue = heapPush m.expirationQueue ⟨s, d, satAdd now delegationSignatureExpiresAt⟩ ∧
      ∀ s' d', Holds m' s' d' ↔ (s' = s ∧ d' = d) ∨ Holds m s' d' := by
  obtain ⟨m', h1, h2, h3, h4⟩ := put_spec h.trees ε now s d
  refine ⟨m', h1, ⟨h2, h3 ▸ heapPush_ok h.heap _, fun s' d' hh => ?_⟩, h3, h4⟩
  rw [h3]
  rcases (h4 s' d').mp hh with ⟨rfl, rfl⟩ | hh
  · exact ⟨⟨s', d', satAdd now delegationSignatureExpiresAt⟩, (heapPush_perm _ _).mem_iff.mpr (by simp), rfl, rfl⟩
  · obtain ⟨e, he, h⟩ := h.covered s' d' hh
    exact ⟨e, (heapPush_perm _ _).mem_iff.mpr (by simp [he]), h⟩

theorem ok_delete (ε : Type) {m : SigMap} (h : Ok m) (s d : Hash) :
    ∃ m', (m.delete s d : Res ε SigMap) = .ok m' ∧ Ok m' ∧ m'.expirationQueue = m.expirationQueue ∧
      ∀ s' d', Holds m' s' d' ↔ ¬(s' = s ∧ d' = d) ∧ Holds m s' d' := by
  obtain ⟨m', h1, h2, h3, h4⟩ := delete_spec h.trees ε s d
  exact ⟨m', h1, ⟨h2, h3 ▸ h.heap, fun s' d' hh => h3 ▸ h.covered s' d' ((h4 s' d').mp hh).2⟩, h3, h4⟩

theorem ok_prune (ε : Type) {m : SigMap} (h : Ok m) (now : UInt64) (k : Nat) :
    ∃ removed m', (m.pruneExpired now k : Res ε _) = .ok (removed.length, m') ∧ Ok m' ∧
      Pruned now k m.expirationQueue removed m'.expirationQueue ∧
      ∀ s d, Holds m' s d ↔ Holds m s d ∧ ∀ e ∈ removed, ¬(e.seedHash = s ∧ e.delegationHash = d) := by
  obtain ⟨removed, m', h1, h2, h3, h4, h5⟩ := pruneExpired_spec ε h.trees h.heap now k
  refine ⟨removed, m', h1, ⟨h2, h3, fun s d hh => ?_⟩, h4, h5⟩
  obtain ⟨hh, hno⟩ := (h5 s d).mp hh
  obtain ⟨e, he, hs⟩ := h.covered s d hh
  rcases List.mem_append.mp (h4.split.mem_iff.mp he) with hr | ha
  · exact absurd hs (hno e hr)
  · exact ⟨e, ha, hs⟩

theorem isExpired_of_all {m : SigMap} {now : UInt64} {s d : Hash} {x : SigExpiration} (hx : x ∈ m.expirationQueue)
    (h1 : x.seedHash = s) (h2 : x.delegationHash = d)
    (hall : ∀ y ∈ m.expirationQueue, y.seedHash = s → y.delegationHash = d → y.expiresAt.toNat < now.toNat) :
    m.isExpired now s d = true := by
  rw [isExpired]
  split
  · next y hf =>
    have hy := List.find?_some hf
    have hm := List.mem_of_find?_eq_some hf
    simp only [decide_eq_true_eq] at hy
    have := hall y hm hy.1 hy.2
    simpa [UInt64.lt_iff_toNat_lt] using this
  · next hf =>
    have := List.find?_eq_none.mp hf x hx
    simp [h1, h2] at this

theorem not_isExpired_of_all {m : SigMap} {now : UInt64} {s d : Hash}
    (hall : ∀ y ∈ m.expirationQueue, y.seedHash = s → y.delegationHash = d → now.toNat ≤ y.expiresAt.toNat) :
    m.isExpired now s d = false := by
  rw [isExpired]
  split
  · next y hf =>
    have hy := List.find?_some hf
    have hm := List.mem_of_find?_eq_some hf
    simp only [decide_eq_true_eq] at hy
    have := hall y hm hy.1 hy.2
    simpa [UInt64.le_iff_toNat_le] using this
  · rfl

theorem exists_of_not_isExpired {m : SigMap} (h : Ok m) {now : UInt64} {s d : Hash} (hh : Holds m s d)
    (hn : m.isExpired now s d = false) :
    ∃ x ∈ m.expirationQueue, x.seedHash = s ∧ x.delegationHash = d ∧ now.toNat ≤ x.expiresAt.toNat := by
  obtain ⟨x, hx, h1, h2⟩ := h.covered s d hh
  rw [isExpired] at hn
  split at hn
  · next y hf =>
    have hy := List.find?_some hf
    have hm := List.mem_of_find?_eq_some hf
    simp only [decide_eq_true_eq] at hy
    exact ⟨y, hm, hy.1, hy.2, by simpa [UInt64.le_iff_toNat_le] using hn⟩
  · next hf =>
    have := List.find?_eq_none.mp hf x hx
    simp [h1, h2] at this

theorem minute_eq : delegationSignatureExpiresAt.toNat = minute := by decide

theorem isExpiryOf_satAdd (now : UInt64) : IsExpiryOf now (satAdd now delegationSignatureExpiresAt) := by
  rw [IsExpiryOf, satAdd_toNat, minute_eq]

theorem isExpiryOf_unique {now e e' : UInt64} (h : IsExpiryOf now e) (h' : IsExpiryOf now e') : e = e' :=
  UInt64.toNat_inj.mp (h.trans h'.symm)

/-- One call of the interface. -/
theorem ok_apply {m : SigMap} (h : Ok m) (op : MapOp) (a : AbsMap) (ha : Represents m a) :
    ∃ m' a', op.apply m = .ok m' ∧ Ok m' ∧ AbsStep a op a' ∧ Represents m' a' := by
  cases op with
  | put now s d =>
    obtain ⟨m', h1, h2, h3, h4⟩ := ok_put Empty h now s d
    refine ⟨m', _, h1, h2, .put a now _ s d (isExpiryOf_satAdd now), ⟨fun s' d' => ?_, ?_⟩⟩
    · rw [h4, ha.pairs]
    · rw [h3]; exact (heapPush_perm _ _).trans (ha.entries.cons _)
  | delete s d =>
    obtain ⟨m', h1, h2, h3, h4⟩ := ok_delete Empty h s d
    refine ⟨m', _, h1, h2, .delete a s d, ⟨fun s' d' => ?_, ?_⟩⟩
    · rw [h4, ha.pairs]
    · rw [h3]; exact ha.entries
  | prune now k =>
    obtain ⟨removed, m', h1, h2, h3, h4⟩ := ok_prune Empty h now k
    refine ⟨m', _, by simp [MapOp.apply, h1], h2, .prune a now k removed m'.expirationQueue
      { h3 with split := ha.entries.symm.trans h3.split }, ⟨fun s' d' => ?_, .refl _⟩⟩
    rw [h4, ha.pairs]

theorem ok_applyOps {m : SigMap} (h : Ok m) (ops : List MapOp) (a : AbsMap) (ha : Represents m a) :
    ∃ m' a', applyOps m ops = .ok m' ∧ Ok m' ∧ AbsRun a ops a' ∧ Represents m' a' := by
  induction ops generalizing m a with
  | nil => exact ⟨m, a, rfl, h, .nil a, ha⟩
  | cons op ops ih =>
    obtain ⟨m1, a1, h1, h2, h3, h4⟩ := ok_apply h op a ha
    obtain ⟨m', a', h5, h6, h7, h8⟩ := ih h2 a1 h4
    exact ⟨m', a', by simp [applyOps, h1, h5], h6, .cons h3 h7, h8⟩

theorem represents_empty : Represents SigMap.empty AbsMap.empty :=
  ⟨fun s d => ⟨fun ⟨sub, h, _⟩ => by simp [HasSeed, SigMap.empty] at h, fun h => h.elim⟩, .refl _⟩

end SigMap
end Siwe
