import Verif.Lemmas.RbBalance
/- Contents of the red-black tree under `get`, `insert` and `modify`. -/
namespace Siwe.RbTree
variable {K V : Type} [Ord K]

/-- Keys strictly increase from left to right. -/
def Sorted (l : List (K × V)) : Prop := l.Pairwise fun a b => compare a.1 b.1 = .lt

/-- What every reachable tree satisfies. -/
structure Good (t : RbTree K V) : Prop where
  sorted : Sorted t.toList
  inv : ∃ n, Inv t n
  black : t.isRed = false

theorem good_nil : Good (nil : RbTree K V) := ⟨.nil, ⟨0, rfl⟩, rfl⟩

section order
variable [Std.TransOrd K] [Std.LawfulEqOrd K]

theorem cmp_lt_gt {a b : K} : compare a b = .lt ↔ compare b a = .gt := by
  rw [Std.OrientedOrd.eq_swap (a := a) (b := b)]
  cases compare b a <;> simp

theorem cmp_trans {a b c : K} (h1 : compare a b = .lt) (h2 : compare b c = .lt) : compare a c = .lt :=
  Std.TransCmp.lt_trans h1 h2

theorem cmp_self (a : K) : compare a a = .eq := Std.ReflOrd.compare_self

theorem cmp_eq {a b : K} : compare a b = .eq ↔ a = b :=
  ⟨Std.LawfulEqOrd.eq_of_compare, fun h => h ▸ cmp_self a⟩

theorem sorted_node {L R : List (K × V)} {k : K} {v : V} :
    Sorted (L ++ (k, v) :: R) ↔ Sorted L ∧ Sorted R ∧ (∀ e ∈ L, compare e.1 k = .lt) ∧
      (∀ e ∈ R, compare k e.1 = .lt) := by
  simp only [Sorted, List.pairwise_append, List.pairwise_cons, List.mem_cons]
  constructor
  · rintro ⟨h1, ⟨h2, h3⟩, h4⟩
    exact ⟨h1, h3, fun e he => h4 e he (k, v) (.inl rfl), fun e he => h2 e he⟩
  · rintro ⟨h1, h2, h3, h4⟩
    refine ⟨h1, ⟨h4, h2⟩, ?_⟩
    rintro a ha b (rfl | hb)
    · exact h3 a ha
    · exact cmp_trans (h3 a ha) (h4 b hb)

/-- `get` finds exactly what is in the tree. -/
theorem get_iff (t : RbTree K V) (h : Sorted t.toList) (key : K) (v : V) :
    t.get key = some v ↔ (key, v) ∈ t.toList := by
  induction t with
  | nil => simp [get]
  | node c l k v' r ih1 ih2 =>
    rw [toList_node, sorted_node] at h
    obtain ⟨hl, hr, h3, h4⟩ := h
    have no_l : (key, v) ∈ l.toList → compare key k = .lt := fun hm => h3 _ hm
    have no_r : (key, v) ∈ r.toList → compare key k = .gt := fun hm => cmp_lt_gt.mp (h4 _ hm)
    simp only [get, toList_node, List.mem_append, List.mem_cons, Prod.mk.injEq]
    rcases hc : compare key k with _ | _ | _
    · rw [hc] at no_l no_r
      have : key ≠ k := by rintro rfl; simp [cmp_self] at hc
      simp [ih1 hl, this, show ¬(key, v) ∈ r.toList from fun hm => by simpa using no_r hm]
    · rw [hc] at no_l no_r
      have := cmp_eq.mp hc
      simp [this, show ¬(k, v) ∈ r.toList from fun hm => by simpa using no_r (this ▸ hm),
        show ¬(k, v) ∈ l.toList from fun hm => by simpa using no_l (this ▸ hm), @eq_comm _ v]
    · rw [hc] at no_l no_r
      have : key ≠ k := by rintro rfl; simp [cmp_self] at hc
      simp [ih2 hr, this, show ¬(key, v) ∈ l.toList from fun hm => by simpa using no_l hm]

theorem mem_insertGo (t : RbTree K V) (h : Sorted t.toList) (key : K) (v : V) (e : K × V) :
    e ∈ (t.insertGo key v).toList ↔ e = (key, v) ∨ (e.1 ≠ key ∧ e ∈ t.toList) := by
  obtain ⟨k', v'⟩ := e
  induction t with
  | nil => simp [insertGo]
  | node c l k w r ih1 ih2 =>
    rw [toList_node, sorted_node] at h
    obtain ⟨hl, hr, h3, h4⟩ := h
    have no_l : ∀ w, (key, w) ∈ l.toList → compare key k = .lt := fun w hm => h3 _ hm
    have no_r : ∀ w, (key, w) ∈ r.toList → compare key k = .gt := fun w hm => cmp_lt_gt.mp (h4 _ hm)
    rcases hc : compare key k with _ | _ | _ <;> rw [hc] at no_l no_r <;>
      simp only [insertGo, hc, toList_balance, toList_node, List.mem_append, List.mem_cons, ih1 hl, ih2 hr,
        Prod.mk.injEq]
    · have : k ≠ key := by rintro rfl; simp [cmp_self] at hc
      by_cases e : k' = key
      · subst e
        have : ¬(k', v') ∈ r.toList := fun hm => by simpa using no_r _ hm
        have : k' ≠ k := by rintro rfl; simp [cmp_self] at hc
        simp_all
      · simp [e]
    · have hk := cmp_eq.mp hc
      subst hk
      by_cases e : k' = key
      · subst e
        have h1 : ¬(k', v') ∈ r.toList := fun hm => by simpa using no_r _ hm
        have h2 : ¬(k', v') ∈ l.toList := fun hm => by simpa using no_l _ hm
        simp [h1, h2]
      · simp [e]
    · have : k ≠ key := by rintro rfl; simp [cmp_self] at hc
      by_cases e : k' = key
      · subst e
        have : ¬(k', v') ∈ l.toList := fun hm => by simpa using no_l _ hm
        have : k' ≠ k := by rintro rfl; simp [cmp_self] at hc
        simp_all
      · simp [e]

theorem sorted_insertGo (t : RbTree K V) (h : Sorted t.toList) (key : K) (v : V) :
    Sorted (t.insertGo key v).toList := by
  induction t with
  | nil => simp [insertGo, Sorted]
  | node c l k w r ih1 ih2 =>
    rw [toList_node, sorted_node] at h
    obtain ⟨hl, hr, h3, h4⟩ := h
    rcases hc : compare key k with _ | _ | _ <;> simp only [insertGo, hc, toList_balance, toList_node, sorted_node]
    · refine ⟨ih1 hl, hr, fun e he => ?_, h4⟩
      rcases (mem_insertGo l hl key v e).mp he with rfl | ⟨_, he⟩
      · exact hc
      · exact h3 e he
    · exact ⟨hl, hr, h3, h4⟩
    · refine ⟨hl, ih2 hr, h3, fun e he => ?_⟩
      rcases (mem_insertGo r hr key v e).mp he with rfl | ⟨_, he⟩
      · exact cmp_lt_gt.mpr hc
      · exact h4 e he

omit [Std.TransOrd K] [Std.LawfulEqOrd K] in
theorem inv_insertGo (t : RbTree K V) (key : K) (v : V) (n : Nat) (h : Inv t n) :
    (t.isRed = false → Inv (t.insertGo key v) n) ∧ (t.isRed = true → RInv (t.insertGo key v) n) := by
  induction t generalizing n with
  | nil => exact ⟨fun _ => ⟨rfl, rfl, h, h⟩, fun h => by simp at h⟩
  | node c l k w r ih1 ih2 =>
    cases c with
    | red =>
      refine ⟨fun h => by simp at h, fun _ => ?_⟩
      obtain ⟨hl, hr, h1, h2⟩ := h
      rcases hc : compare key k with _ | _ | _ <;> simp only [insertGo, hc]
      · exact balance_red ((ih1 n h1).1 hl) h2 (by simp [hr])
      · exact ⟨_, _, _, _, rfl, h1, h2, hr⟩
      · exact balance_red h1 ((ih2 n h2).1 hr) (by simp [hl])
    | black =>
      refine ⟨fun _ => ?_, fun h => by simp at h⟩
      cases n with
      | zero => exact h.elim
      | succ n =>
        obtain ⟨hr, h1, h2⟩ := h
        rcases hc : compare key k with _ | _ | _ <;> simp only [insertGo, hc]
        · rcases hl : l.isRed
          · exact (balance_black ((ih1 n h1).1 hl) h2).1
          · exact balance_black_r ((ih1 n h1).2 hl) h2 hr
        · exact ⟨hr, h1, h2⟩
        · exact (balance_black h1 ((ih2 n h2).1 hr)).1

omit [Ord K] [Std.TransOrd K] [Std.LawfulEqOrd K] in
theorem setBlack_inv {t : RbTree K V} {n : Nat} (h : Inv t n ∨ RInv t n) (hr : t.isRed = true → Inv t n) :
    (∃ m, Inv (setColor .black t) m) ∧ (setColor .black t).isRed = false := by
  cases t with
  | nil => exact ⟨⟨0, rfl⟩, rfl⟩
  | node c l k v r =>
    refine ⟨?_, rfl⟩
    cases c with
    | red => exact ⟨n + 1, inv_blacken (hr rfl)⟩
    | black =>
      rcases h with h | ⟨_, _, _, _, h, _⟩
      · exact ⟨n, h⟩
      · simp at h

theorem good_insert {t : RbTree K V} (h : Good t) (key : K) (v : V) : Good (t.insert key v) := by
  obtain ⟨n, hn⟩ := h.inv
  have hi := (inv_insertGo t key v n hn).1 h.black
  have := setBlack_inv (.inl hi) fun _ => hi
  exact ⟨by rw [insert, toList_setColor]; exact sorted_insertGo t h.sorted key v, this.1, this.2⟩

theorem get_insert {t : RbTree K V} (h : Good t) (key : K) (v : V) (k : K) [DecidableEq K] :
    (t.insert key v).get k = if k = key then some v else t.get k := by
  apply Option.ext
  intro w
  rw [get_iff _ (good_insert h key v).sorted, insert, toList_setColor, mem_insertGo t h.sorted]
  split
  · next e => simp [e, @eq_comm _ v]
  · next e => simp [e, get_iff t h.sorted]

omit [Std.TransOrd K] [Std.LawfulEqOrd K] in
theorem isRed_modify {t t' : RbTree K V} {key : K} {f : V → Option V} (h : t.modify key f = some t') :
    t'.isRed = t.isRed := by
  cases t with
  | nil => simp only [modify, Option.some.injEq] at h; rw [← h]
  | node c l k v r =>
    rcases hc : compare key k with _ | _ | _ <;> simp only [modify, hc, Option.bind_eq_bind, Option.bind_eq_some_iff,
      Option.some.injEq] at h <;> obtain ⟨_, _, rfl⟩ := h <;> cases c <;> rfl

omit [Std.TransOrd K] [Std.LawfulEqOrd K] in
theorem inv_modify {t t' : RbTree K V} {key : K} {f : V → Option V} {n : Nat} (h : t.modify key f = some t')
    (hi : Inv t n) : Inv t' n := by
  induction t generalizing n t' with
  | nil => simp only [modify, Option.some.injEq] at h; rw [← h]; exact hi
  | node c l k v r ih1 ih2 =>
    rcases hc : compare key k with _ | _ | _ <;> simp only [modify, hc, Option.bind_eq_bind, Option.bind_eq_some_iff,
      Option.some.injEq] at h <;> obtain ⟨x, hx, rfl⟩ := h
    · cases c with
      | red => exact ⟨isRed_modify hx ▸ hi.1, hi.2.1, ih1 hx hi.2.2.1, hi.2.2.2⟩
      | black => cases n with
        | zero => exact hi.elim
        | succ n => exact ⟨hi.1, ih1 hx hi.2.1, hi.2.2⟩
    · cases c with
      | red => exact hi
      | black => cases n with
        | zero => exact hi.elim
        | succ n => exact hi
    · cases c with
      | red => exact ⟨hi.1, isRed_modify hx ▸ hi.2.1, hi.2.2.1, ih2 hx hi.2.2.2⟩
      | black => cases n with
        | zero => exact hi.elim
        | succ n => exact ⟨isRed_modify hx ▸ hi.1, hi.2.1, ih2 hx hi.2.2⟩

omit [Std.TransOrd K] [Std.LawfulEqOrd K] in
theorem keys_modify {t t' : RbTree K V} {key : K} {f : V → Option V} (h : t.modify key f = some t') :
    t'.toList.map Prod.fst = t.toList.map Prod.fst := by
  induction t generalizing t' with
  | nil => simp only [modify, Option.some.injEq] at h; rw [← h]
  | node c l k v r ih1 ih2 =>
    rcases hc : compare key k with _ | _ | _ <;> simp only [modify, hc, Option.bind_eq_bind, Option.bind_eq_some_iff,
      Option.some.injEq] at h <;> obtain ⟨x, hx, rfl⟩ := h <;> simp [ih1, ih2, hx]

omit [Std.TransOrd K] [Std.LawfulEqOrd K] in
theorem sorted_of_keys {L L' : List (K × V)} (h : L'.map Prod.fst = L.map Prod.fst) (hs : Sorted L) : Sorted L' := by
  have : ∀ L : List (K × V), Sorted L ↔ (L.map Prod.fst).Pairwise fun a b => compare a b = .lt := by
    intro L; rw [List.pairwise_map]; rfl
  rw [this] at hs ⊢
  rw [h]; exact hs

omit [Std.TransOrd K] [Std.LawfulEqOrd K] in
theorem good_modify {t t' : RbTree K V} {key : K} {f : V → Option V} (hg : Good t) (h : t.modify key f = some t') :
    Good t' :=
  ⟨sorted_of_keys (keys_modify h) hg.sorted, hg.inv.imp fun _ => inv_modify h, isRed_modify h ▸ hg.black⟩

theorem get_modify {t t' : RbTree K V} {key : K} {f : V → Option V} (h : t.modify key f = some t') (k : K)
    [DecidableEq K] : t'.get k = if k = key then (t.get key).bind f else t.get k := by
  induction t generalizing t' with
  | nil => simp only [modify, Option.some.injEq] at h; rw [← h]; simp [get]
  | node c l k' v r ih1 ih2 =>
    rcases hc : compare key k' with _ | _ | _ <;> simp only [modify, hc, Option.bind_eq_bind, Option.bind_eq_some_iff,
      Option.some.injEq] at h <;> obtain ⟨x, hx, rfl⟩ := h <;> simp only [get, hc]
    · by_cases e : k = key
      · subst e; simp [hc, ih1 hx]
      · simp [ih1 hx, e]
    · by_cases e : k = key
      · subst e; simp [hc, hx]
      · simp only [e, if_false]
        have : compare k k' ≠ .eq := fun h => e ((cmp_eq.mp h).trans (cmp_eq.mp hc).symm)
        rcases hk : compare k k' with _ | _ | _ <;> simp_all
    · by_cases e : k = key
      · subst e; simp [hc, ih2 hx]
      · simp [ih2 hx, e]

omit [Std.TransOrd K] [Std.LawfulEqOrd K] in
/-- `modify` fails only if the closure fails on the value stored under the key. -/
theorem modify_total {t : RbTree K V} {key : K} {f : V → Option V} (h : ∀ v, t.get key = some v → ∃ w, f v = some w) :
    ∃ t', t.modify key f = some t' := by
  induction t with
  | nil => exact ⟨_, rfl⟩
  | node c l k v r ih1 ih2 =>
    rcases hc : compare key k with _ | _ | _ <;> simp only [modify, hc, get] at h ⊢
    · obtain ⟨x, hx⟩ := ih1 h; exact ⟨_, by rw [hx]; rfl⟩
    · obtain ⟨x, hx⟩ := h v rfl; exact ⟨_, by rw [hx]; rfl⟩
    · obtain ⟨x, hx⟩ := ih2 h; exact ⟨_, by rw [hx]; rfl⟩

end order
end Siwe.RbTree
