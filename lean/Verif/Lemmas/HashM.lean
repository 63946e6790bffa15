import Verif.Lemmas.Leb
import Mathlib.Data.List.Forall2
/- The representation-independent hash: totality, agreement with the specification, independence of order. -/
namespace Siwe
open Spec

theorem bytesLe_total (a b : Bytes) : (bytesLe a b || bytesLe b a) = true := by
  have := Std.OrientedOrd.eq_swap (a := a) (b := b)
  unfold bytesLe
  cases h : compare b a <;> simp_all [Ordering.isLE]

theorem bytesLe_trans (a b c : Bytes) (h1 : bytesLe a b = true) (h2 : bytesLe b c = true) :
    bytesLe a c = true := Std.TransCmp.isLE_trans h1 h2

theorem bytesLe_antisymm {a b : Bytes} (h1 : bytesLe a b = true) (h2 : bytesLe b a = true) : a = b := by
  have := Std.OrientedOrd.eq_swap (a := a) (b := b)
  unfold bytesLe at *
  have he : compare a b = .eq := by
    cases h : compare a b <;> cases h' : compare b a <;> simp_all [Ordering.isLE]
  exact Std.LawfulEqOrd.eq_of_compare he

theorem bytesLe_iff {a b : Bytes} : bytesLe a b = true ↔ compare a b ≠ .gt := by
  unfold bytesLe
  cases compare a b <;> simp [Ordering.isLE]

/-- Sorting gives the only sorted permutation. -/
theorem sortBytes_unique {l s : List Bytes} (hp : s.Perm l) (hs : s.Pairwise fun a b => compare a b ≠ .gt) :
    s = sortBy bytesLe l := by
  apply List.Perm.eq_of_pairwise (le := fun a b => bytesLe a b = true)
  · intro a b _ _ h1 h2
    exact bytesLe_antisymm h1 h2
  · exact hs.imp fun h => bytesLe_iff.mpr h
  · exact sortBy_pairwise bytesLe_total bytesLe_trans l
  · exact hp.trans (sortBy_perm bytesLe l).symm

theorem sortBytes_sorted (l : List Bytes) :
    (sortBy bytesLe l).Pairwise fun a b => compare a b ≠ .gt :=
  (sortBy_pairwise bytesLe_total bytesLe_trans l).imp fun h => bytesLe_iff.mp h

theorem sortBytes_perm {l l' : List Bytes} (h : l.Perm l') : sortBy bytesLe l = sortBy bytesLe l' :=
  sortBytes_unique ((sortBy_perm bytesLe l).trans h) (sortBytes_sorted l)

theorem hashU64_spec (ε : Type) (E : Env) (n : UInt64) :
    ∃ bs, (lebGo 10 n : Res ε Bytes) = .ok bs ∧ IsLeb128 n.toNat bs ∧ bs.length ≤ 10 ∧ MinimalLeb bs ∧
      (hashU64 E n : Res ε Hash) = .ok (E.sha256 bs) := by
  obtain ⟨bs, h1, h2, h3, h4⟩ := leb_go (ε := ε) 10 n (by omega) (by have := n.toNat_lt; omega)
  exact ⟨bs, h1, h2, h3, h4, by simp [hashU64, h1, hashBytes]⟩

mutual
theorem hashValue_ok (ε : Type) (E : Env) : ∀ v : Value, ∃ h, (hashValue E v : Res ε Hash) = .ok h ∧
    IsValueHash E v h
  | .bytes b => ⟨E.sha256 b, by simp [hashValue, hashBytes], .blob b⟩
  | .string b => ⟨E.sha256 b, by simp [hashValue, hashString, hashBytes], .text b⟩
  | .u64 n => by
    obtain ⟨bs, _, h2, _, h4, h5⟩ := hashU64_spec ε E n
    exact ⟨E.sha256 bs, by simp [hashValue, h5], .nat n bs h2 h4⟩
  | .array vs => by
    obtain ⟨cat, h1, h2⟩ := hashArrayInput_ok ε E vs
    exact ⟨E.sha256 cat, by simp [hashValue, h1], .array vs cat h2⟩
theorem hashArrayInput_ok (ε : Type) (E : Env) : ∀ vs : List Value,
    ∃ cat, (hashArrayInput E vs : Res ε Bytes) = .ok cat ∧ IsArrayInput E vs cat
  | [] => ⟨[], by simp [hashArrayInput], .nil⟩
  | v :: vs => by
    obtain ⟨h, h1, h2⟩ := hashValue_ok ε E v
    obtain ⟨cat, h3, h4⟩ := hashArrayInput_ok ε E vs
    exact ⟨h.bytes ++ cat, by simp [hashArrayInput, h1, h3], .cons v vs h cat h2 h4⟩
end

mutual
theorem valueHash_unique {E : Env} : ∀ (v : Value) {h h' : Hash}, IsValueHash E v h → IsValueHash E v h' → h = h'
  | .bytes b, _, _, a, a' => by cases a; cases a'; rfl
  | .string b, _, _, a, a' => by cases a; cases a'; rfl
  | .u64 n, _, _, a, a' => by
    cases a with | nat _ bs h1 h2 => cases a' with | nat _ bs' h1' h2' => rw [leb_unique bs bs' _ h1 h2 h1' h2']
  | .array vs, _, _, a, a' => by
    cases a with | array _ c h1 => cases a' with | array _ c' h1' => rw [arrayInput_unique vs h1 h1']
theorem arrayInput_unique {E : Env} : ∀ (vs : List Value) {c c' : Bytes}, IsArrayInput E vs c →
    IsArrayInput E vs c' → c = c'
  | [], _, _, a, a' => by cases a; cases a'; rfl
  | v :: vs, _, _, a, a' => by
    cases a with | cons _ _ h c h1 h2 => cases a' with | cons _ _ h' c' h1' h2' =>
      rw [valueHash_unique v h1 h1', arrayInput_unique vs h2 h2']
end

theorem pairHash_unique {E : Env} {kv : Bytes × Value} {c c' : Bytes} (h : IsPairHash E kv c)
    (h' : IsPairHash E kv c') : c = c' := by
  obtain ⟨x, h1, rfl⟩ := h
  obtain ⟨y, h2, rfl⟩ := h'
  rw [valueHash_unique _ h1 h2]

theorem hashPairs_ok (ε : Type) (E : Env) (m : List (Bytes × Value)) :
    ∃ chunks, (hashPairs E m : Res ε _) = .ok chunks ∧ List.Forall₂ (IsPairHash E) m chunks := by
  induction m with
  | nil => exact ⟨[], rfl, .nil⟩
  | cons kv m ih =>
    obtain ⟨k, v⟩ := kv
    obtain ⟨h, h1, h2⟩ := hashValue_ok ε E v
    obtain ⟨cs, h3, h4⟩ := ih
    exact ⟨((E.sha256 k).bytes ++ h.bytes) :: cs, by simp [hashPairs, hashKeyValue, h1, h3, hashString, hashBytes],
      .cons ⟨h, h2, rfl⟩ h4⟩

theorem pairHashes_unique {E : Env} {m : List (Bytes × Value)} {cs cs' : List Bytes}
    (h : List.Forall₂ (IsPairHash E) m cs) (h' : List.Forall₂ (IsPairHash E) m cs') : cs = cs' := by
  induction h generalizing cs' with
  | nil => cases h'; rfl
  | cons a _ ih => cases h' with | cons a' t => rw [pairHash_unique a a', ih t]

theorem hashOfMap_spec (ε : Type) (E : Env) (m : List (Bytes × Value)) (h : Hash) :
    (hashOfMap E m : Res ε Hash) = .ok h ↔ IsMapHash E m h := by
  obtain ⟨cs, h1, h2⟩ := hashPairs_ok ε E m
  simp only [hashOfMap, h1, Res.ok_bind, Res.ok.injEq]
  constructor
  · rintro rfl
    exact ⟨cs, _, h2, sortBy_perm _ _, sortBytes_sorted _, rfl⟩
  · rintro ⟨cs', s, h3, h4, h5, rfl⟩
    rw [pairHashes_unique h2 h3, sortBytes_unique h4 h5]

theorem forall₂_perm {α β : Type} {R : α → β → Prop} {l l' : List α} {c : List β} (hp : l.Perm l')
    (h : List.Forall₂ R l c) : ∃ c', List.Forall₂ R l' c' ∧ c.Perm c' := by
  induction hp generalizing c with
  | nil => exact ⟨c, h, .refl _⟩
  | cons x _ ih =>
    cases h with
    | cons a t =>
      obtain ⟨c', h1, h2⟩ := ih t
      exact ⟨_ :: c', .cons a h1, h2.cons _⟩
  | swap x y l =>
    cases h with
    | cons a t => cases t with | cons b t => exact ⟨_, .cons b (.cons a t), .swap _ _ _⟩
  | trans _ _ ih1 ih2 =>
    obtain ⟨c1, h1, p1⟩ := ih1 h
    obtain ⟨c2, h2, p2⟩ := ih2 h1
    exact ⟨c2, h2, p1.trans p2⟩

theorem mapHash_perm {E : Env} {m m' : List (Bytes × Value)} {h : Hash} (hp : m.Perm m') (hm : IsMapHash E m h) :
    IsMapHash E m' h := by
  obtain ⟨cs, s, h1, h2, h3, h4⟩ := hm
  obtain ⟨cs', h5, h6⟩ := forall₂_perm hp h1
  exact ⟨cs', s, h5, h2.trans h6, h3, h4⟩

theorem mapHash_exists (E : Env) (m : List (Bytes × Value)) : ∃ h, IsMapHash E m h := by
  obtain ⟨cs, h1, h2⟩ := hashPairs_ok Empty E m
  exact ⟨_, cs, _, h2, sortBy_perm bytesLe _, sortBytes_sorted _, rfl⟩

theorem mapHash_unique {E : Env} {m : List (Bytes × Value)} {h h' : Hash} (a : IsMapHash E m h)
    (b : IsMapHash E m h') : h = h' := by
  have := ((hashOfMap_spec Empty E m h).2 a).symm.trans ((hashOfMap_spec Empty E m h').2 b)
  simpa using this

/-- Concatenation of equally long pieces can be undone. -/
theorem flatten_inj {n : Nat} (hn : 0 < n) : ∀ {l l' : List Bytes}, (∀ x ∈ l, x.length = n) →
    (∀ x ∈ l', x.length = n) → l.flatten = l'.flatten → l = l'
  | [], [], _, _, _ => rfl
  | [], b :: l', _, h', e => by
    have := h' b (by simp)
    have := congrArg List.length e
    simp only [List.flatten_cons, List.flatten_nil, List.length_append, List.length_nil] at this
    omega
  | a :: l, [], h, _, e => by
    have := h a (by simp)
    have := congrArg List.length e
    simp only [List.flatten_cons, List.flatten_nil, List.length_append, List.length_nil] at this
    omega
  | a :: l, b :: l', h, h', e => by
    simp only [List.flatten_cons] at e
    obtain ⟨e1, e2⟩ := List.append_inj e ((h a (by simp)).trans (h' b (by simp)).symm)
    rw [e1, flatten_inj hn (fun x hx => h x (by simp [hx])) (fun x hx => h' x (by simp [hx])) e2]

end Siwe
