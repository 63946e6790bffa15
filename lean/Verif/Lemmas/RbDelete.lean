import Verif.Lemmas.RbTree
/- `delete` of the red-black tree: it never dereferences null and removes exactly the key. -/
namespace Siwe.RbTree
variable {K V : Type}

/-- Precondition of the deletion descent: the node or its left child is red. -/
def PreA : RbTree K V → Prop
  | nil => False
  | node c l _ _ _ => c = .red ∨ l.isRed = true

/-- A black node whose right (instead of left) child is red. -/
def RightRed (t : RbTree K V) (n : Nat) : Prop :=
  ∃ l k v r m, t = node .black l k v r ∧ n = m + 1 ∧ Inv l m ∧ Inv r m ∧ l.isRed = false ∧ r.isRed = true

theorem inv_zero {t : RbTree K V} (h : Inv t 0) (hr : t.isRed = false) : t = nil := by
  cases t with
  | nil => rfl
  | node c l k v r => cases c with
    | red => simp at hr
    | black => exact h.elim

theorem inv_succ {t : RbTree K V} {n : Nat} (h : Inv t (n + 1)) (hr : t.isRed = false) :
    ∃ l k v r, t = node .black l k v r ∧ r.isRed = false ∧ Inv l n ∧ Inv r n := by
  cases t with
  | nil => simp [Inv] at h
  | node c l k v r => cases c with
    | red => simp at hr
    | black => exact ⟨l, k, v, r, rfl, h⟩

theorem inv_red {l r : RbTree K V} {k : K} {v : V} {n : Nat} (h : Inv (node .black l k v r) (n + 1))
    (hl : l.isRed = false) : Inv (node .red l k v r) n := ⟨hl, h.1, h.2.1, h.2.2⟩

/-- The effect of the descent step to the left. -/
theorem fixLeft_spec {c : Color} {l r : RbTree K V} {k : K} {v : V} {n : Nat} (hi : Inv (node c l k v r) n)
    (hp : PreA (node c l k v r)) (hne : l.isEmpty = false) :
    ∃ c' l' k' v' r' m, fixLeft (node c l k v r) = some (node c' l' k' v' r') ∧
      (node c' l' k' v' r').toList = (node c l k v r).toList ∧
      ((k', v') = (k, v) ∨ (k, v) ∈ l'.toList) ∧ Inv l' m ∧ PreA l' ∧
      ∀ l'', Inv l'' m → (l'.isRed = false → l''.isRed = false) →
        Inv (balance (node c' l'' k' v' r')) n ∧
          (c = .black → (balance (node c' l'' k' v' r')).isRed = false) := by
  by_cases hl : l.isRed = true
  · cases c with
    | red => exact absurd hi.1 (by simp [hl])
    | black =>
      cases n with
      | zero => exact hi.elim
      | succ m =>
        obtain ⟨hr, h1, h2⟩ := hi
        refine ⟨.black, l, k, v, r, m, by simp [fixLeft, left?, hl], rfl, .inl rfl, h1, ?_, fun l'' hi'' _ => ?_⟩
        · obtain ⟨a, b, d, e, rfl⟩ := isRed_iff.mp hl; exact .inl rfl
        · have := balance_black (k := k) (v := v) hi'' h2
          exact ⟨this.1, fun _ => this.2 (by simp [hr])⟩
  · have hl : l.isRed = false := by simpa using hl
    have hc : c = .red := hp.resolve_right (by simp [hl])
    subst hc
    obtain ⟨_, hr, h1, h2⟩ := hi
    cases n with
    | zero => rw [inv_zero h1 hl] at hne; simp [isEmpty] at hne
    | succ m =>
      obtain ⟨ll, lk, lv, lr, rfl, g1, g2, g3⟩ := inv_succ h1 hl
      obtain ⟨rl, rk, rv, rr, rfl, f1, f2, f3⟩ := inv_succ h2 hr
      by_cases hll : ll.isRed = true
      · refine ⟨.red, node .black ll lk lv lr, k, v, node .black rl rk rv rr, m + 1,
          by simp [fixLeft, left?, hll], rfl, .inl rfl, h1, .inr hll, fun l'' hi'' hb => ?_⟩
        rw [balance_id (hb rfl) hr]
        exact ⟨⟨hb rfl, hr, hi'', h2⟩, by simp⟩
      · have hll : ll.isRed = false := by simpa using hll
        by_cases hrl : rl.isRed = true
        · obtain ⟨a, ak, av, b, rfl⟩ := isRed_iff.mp hrl
          refine ⟨.red, node .black (node .red ll lk lv lr) k v a, ak, av, node .black b rk rv rr, m + 1,
            by simp [fixLeft, left?, hll, moveRedLeft, flipColors, Color.flip, rotateRight, rotateLeft],
            by simp, .inr (by simp), ⟨f2.1, ⟨hll, g1, g2, g3⟩, f2.2.2.1⟩, .inr rfl, fun l'' hi'' hb => ?_⟩
          rw [balance_id (hb rfl) rfl]
          exact ⟨⟨hb rfl, rfl, hi'', ⟨f1, f2.2.2.2, f3⟩⟩, by simp⟩
        · have hrl : rl.isRed = false := by simpa using hrl
          refine ⟨.black, node .red ll lk lv lr, k, v, node .red rl rk rv rr, m,
            by simp [fixLeft, left?, hll, moveRedLeft, flipColors, Color.flip, hrl],
            by simp, .inl rfl, ⟨hll, g1, g2, g3⟩, .inl rfl, fun l'' hi'' _ => ?_⟩
          have := balance_black (k := k) (v := v) (r := node .red rl rk rv rr) hi'' ⟨hrl, f1, f2, f3⟩
          exact ⟨this.1, by simp⟩

/-- The effect of the descent step to the right. -/
theorem fixRight_spec {c : Color} {l r : RbTree K V} {k : K} {v : V} {n : Nat}
    (hi : RightRed (node c l k v r) n ∨ (Inv (node c l k v r) n ∧ c = .red)) (hne : r.isEmpty = false) :
    ∃ c' l' k' v' r' m, fixRight (node c l k v r) = some (node c' l' k' v' r') ∧
      (node c' l' k' v' r').toList = (node c l k v r).toList ∧
      ((k' = k ∧ v' = v ∧ Inv r' m ∧ PreA r') ∨
        ((k, v) ∈ r'.toList ∧ RightRed r' m ∧ ∃ a w b, r' = node .black a k w b)) ∧
      ∀ r'', Inv r'' m → (r'.isRed = false → r''.isRed = false) → ∀ mk mv,
        Inv (balance (node c' l' mk mv r'')) n ∧
          (c = .black → (balance (node c' l' mk mv r'')).isRed = false) := by
  rcases hi with ⟨l, k, v, r, m, he, rfl, h1, h2, hl, hr⟩ | ⟨hi, rfl⟩
  · cases he
    refine ⟨.black, l, k, v, r, m, by simp [fixRight, hr], rfl, .inl ⟨rfl, rfl, h2, ?_⟩, fun r'' hi'' _ mk mv => ?_⟩
    · obtain ⟨a, b, d, e, rfl⟩ := isRed_iff.mp hr; exact .inl rfl
    · have := balance_black (k := mk) (v := mv) h1 hi''
      exact ⟨this.1, fun _ => this.2 (by simp [hl])⟩
  · obtain ⟨hl, hr, h1, h2⟩ := hi
    cases n with
    | zero => rw [inv_zero h2 hr] at hne; simp [isEmpty] at hne
    | succ m =>
      obtain ⟨ll, lk, lv, lr, rfl, g1, g2, g3⟩ := inv_succ h1 hl
      obtain ⟨rl, rk, rv, rr, rfl, f1, f2, f3⟩ := inv_succ h2 hr
      by_cases hrl : rl.isRed = true
      · refine ⟨.red, node .black ll lk lv lr, k, v, node .black rl rk rv rr, m + 1,
          by simp [fixRight, left?, hrl], rfl, .inl ⟨rfl, rfl, h2, .inr hrl⟩, fun r'' hi'' hb mk mv => ?_⟩
        rw [balance_id hl (hb rfl)]
        exact ⟨⟨hl, hb rfl, h1, hi''⟩, by simp⟩
      · have hrl : rl.isRed = false := by simpa using hrl
        by_cases hll : ll.isRed = true
        · obtain ⟨a, ak, av, b, rfl⟩ := isRed_iff.mp hll
          refine ⟨.red, node .black a ak av b, lk, lv, node .black lr k v (node .red rl rk rv rr), m + 1,
            by simp [fixRight, left?, hrl, moveRedRight, flipColors, Color.flip, rotateRight],
            by simp, .inr ⟨by simp, ⟨lr, k, v, _, m, rfl, rfl, g3, ⟨hrl, f1, f2, f3⟩, g1, rfl⟩, _, _, _, rfl⟩,
            fun r'' hi'' hb mk mv => ?_⟩
          rw [balance_id rfl (hb rfl)]
          exact ⟨⟨rfl, hb rfl, inv_blacken g2, hi''⟩, by simp⟩
        · have hll : ll.isRed = false := by simpa using hll
          refine ⟨.black, node .red ll lk lv lr, k, v, node .red rl rk rv rr, m,
            by simp [fixRight, left?, hrl, moveRedRight, flipColors, Color.flip, hll],
            by simp, .inl ⟨rfl, rfl, ⟨hrl, f1, f2, f3⟩, .inl rfl⟩, fun r'' hi'' _ mk mv => ?_⟩
          have := balance_black (k := mk) (v := mv) (l := node .red ll lk lv lr) ⟨hll, g1, g2, g3⟩ hi''
          exact ⟨this.1, by simp⟩

variable [Ord K]

omit [Ord K] in
theorem minEntry_head [Ord K] (t : RbTree K V) : t.minEntry = t.toList.head? := by
  induction t with
  | nil => rfl
  | node c l k v r ih1 _ =>
    cases l with
    | nil => rfl
    | node c' a b d e =>
      rw [minEntry, ih1]
      · simp [List.head?_append]
      · intro h; cases h

omit [Ord K] in
theorem deleteMin_spec (n : Nat) (t : RbTree K V) (h : Nat) (hn : t.toList.length ≤ n) (hp : PreA t) (hi : Inv t h) :
    ∃ t' e, deleteMin n t = some t' ∧ t.toList = e :: t'.toList ∧ Inv t' h ∧
      (t.isRed = false → t'.isRed = false) := by
  induction n generalizing t h with
  | zero =>
    cases t with
    | nil => exact hp.elim
    | node => simp at hn
  | succ n ih =>
    cases t with
    | nil => exact hp.elim
    | node c l k v r =>
      rw [deleteMin]
      by_cases hl : l.isEmpty = true
      · have hl' : l = nil := by cases l <;> simp_all [isEmpty]
        subst hl'
        have hc : c = .red := hp.resolve_right (by simp)
        subst hc
        have h0 : h = 0 := hi.2.2.1
        subst h0
        rw [inv_zero hi.2.2.2 hi.2.1]
        exact ⟨nil, (k, v), by simp [isEmpty], by simp, rfl, by simp⟩
      · have hl : l.isEmpty = false := by simpa using hl
        obtain ⟨c', l', k', v', r', m, he, ht, _, hi', hp', hpost⟩ := fixLeft_spec hi hp hl
        have hlen := congrArg List.length ht
        simp only [toList_node, List.length_append, List.length_cons] at hlen hn
        obtain ⟨t', e, h1, h2, h3, h4⟩ := ih l' m (by omega) hp' hi'
        rw [hl, he]
        refine ⟨balance (node c' t' k' v' r'), e, by simp [h1], ?_, (hpost t' h3 h4).1, fun hr => (hpost t' h3 h4).2 ?_⟩
        · rw [toList_balance, ← ht]; simp [h2]
        · cases c
          · simp at hr
          · rfl

variable [Std.TransOrd K] [Std.LawfulEqOrd K]

/-- Precondition of `deleteGo`. -/
def PreGo (t : RbTree K V) (n : Nat) (key : K) : Prop :=
  (Inv t n ∧ PreA t) ∨ (RightRed t n ∧ ∀ c l k v r, t = node c l k v r → compare key k ≠ .lt)

theorem split_mem {L R : List (K × V)} {k key : K} {v w : V} (hs : Sorted (L ++ (k, v) :: R))
    (hm : (key, w) ∈ L ++ (k, v) :: R) :
    (compare key k = .lt → (key, w) ∈ L) ∧ (compare key k = .eq → (k, v) = (key, w)) ∧
      (compare key k = .gt → (key, w) ∈ R) := by
  rw [sorted_node] at hs
  obtain ⟨_, _, h3, h4⟩ := hs
  rw [List.mem_append, List.mem_cons] at hm
  rcases hm with hm | hm | hm
  · have := h3 _ hm
    simp only at this
    simp [this, hm]
  · cases hm; simp [cmp_self]
  · have := cmp_lt_gt.mp (h4 _ hm)
    simp only at this
    simp [this, hm]

theorem deleteGo_spec (n : Nat) (t : RbTree K V) (h : Nat) (key : K) (w : V) (hn : t.toList.length ≤ n)
    (hs : Sorted t.toList) (hm : (key, w) ∈ t.toList) (hp : PreGo t h key) :
    ∃ t' A B, deleteGo n t key = some t' ∧ t.toList = A ++ (key, w) :: B ∧ t'.toList = A ++ B ∧ Inv t' h ∧
      (t.isRed = false → t'.isRed = false) := by
  induction n generalizing t h with
  | zero =>
    cases t with
    | nil => simp at hm
    | node => simp at hn
  | succ n ih =>
    cases t with
    | nil => simp at hm
    | node c l k v r =>
      rw [deleteGo]
      by_cases hlt : compare key k = .lt
      · -- to the left
        rw [if_pos hlt]
        have hp' : Inv (node c l k v r) h ∧ PreA (node c l k v r) := by
          rcases hp with h | ⟨_, h⟩
          · exact h
          · exact absurd hlt (h _ _ _ _ _ rfl)
        have hml := (split_mem hs hm).1 hlt
        have hne : l.isEmpty = false := by cases l <;> simp_all [isEmpty]
        obtain ⟨c', l', k', v', r', m, he, ht, hk, hi', hpl, hpost⟩ := fixLeft_spec hp'.1 hp'.2 hne
        have hs' : Sorted (l'.toList ++ (k', v') :: r'.toList) := by rw [← toList_node c', ht]; exact hs
        have hlt' : compare key k' = .lt := by
          rcases hk with hk | hk
          · cases hk; exact hlt
          · exact cmp_trans hlt ((sorted_node.mp hs').2.2.1 _ hk)
        have hml' := (split_mem hs' (by rw [← toList_node c', ht]; exact hm)).1 hlt'
        have hlen := congrArg List.length ht
        simp only [toList_node, List.length_append, List.length_cons] at hlen hn
        obtain ⟨t', A, B, h1, h2, h3, h4, h5⟩ := ih l' m (by omega) (sorted_node.mp hs').1 hml' (.inl ⟨hi', hpl⟩)
        refine ⟨balance (node c' t' k' v' r'), A, B ++ (k', v') :: r'.toList, by rw [he]; simp [h1], ?_, ?_,
          (hpost t' h4 h5).1, fun hr => (hpost t' h4 h5).2 ?_⟩
        · rw [← ht, toList_node, h2]; simp
        · rw [toList_balance, toList_node, h3]; simp
        · cases c
          · simp at hr
          · rfl
      · -- to the right
        rw [if_neg hlt]
        -- the tree after the optional rotation
        have key1 : ∃ c1 l1 k1 v1 r1, (if l.isRed then rotateRight (node c l k v r) else node c l k v r) =
              node c1 l1 k1 v1 r1 ∧ (node c1 l1 k1 v1 r1).toList = (node c l k v r).toList ∧
              compare key k1 ≠ .lt ∧ c1 = c ∧
              (RightRed (node c1 l1 k1 v1 r1) h ∨ (Inv (node c1 l1 k1 v1 r1) h ∧ c1 = .red)) := by
          rcases hp with ⟨hi, hp⟩ | ⟨hrr, _⟩
          · by_cases hl : l.isRed = true
            · obtain ⟨a, ak, av, b, rfl⟩ := isRed_iff.mp hl
              cases c with
              | red => exact absurd hi.1 (by simp)
              | black =>
                cases h with
                | zero => exact hi.elim
                | succ m =>
                  obtain ⟨h1, h2, h3⟩ := hi
                  refine ⟨.black, a, ak, av, node .red b k v r, by simp [rotateRight], by simp, ?_, rfl,
                    .inl ⟨a, ak, av, _, m, rfl, rfl, h2.2.2.1, ⟨h2.2.1, h1, h2.2.2.2, h3⟩, h2.1, rfl⟩⟩
                  intro hlt1
                  rw [toList_node, sorted_node] at hs
                  exact hlt (cmp_trans hlt1 (hs.2.2.1 (ak, av) (by simp)))
            · have hl : l.isRed = false := by simpa using hl
              have hc : c = .red := hp.resolve_right (by simp [hl])
              exact ⟨c, l, k, v, r, by simp [hl], rfl, hlt, rfl, .inr ⟨hi, hc⟩⟩
          · obtain ⟨l0, k0, v0, r0, m, he, rfl, h1, h2, h3, h4⟩ := hrr
            cases he
            exact ⟨.black, l, k, v, r, by simp [h3], rfl, hlt, rfl, .inl ⟨l, k, v, r, m, rfl, rfl, h1, h2, h3, h4⟩⟩
        obtain ⟨c1, l1, k1, v1, r1, e1, ht1, hlt1, rfl, hp1⟩ := key1
        rw [e1]
        have hs1 : Sorted (l1.toList ++ (k1, v1) :: r1.toList) := by rw [← toList_node c1, ht1]; exact hs
        have hm1 : (key, w) ∈ l1.toList ++ (k1, v1) :: r1.toList := by rw [← toList_node c1, ht1]; exact hm
        by_cases hcase : compare key k1 = .eq ∧ r1.isEmpty = true
        · have hr1 : r1 = nil := by have := hcase.2; cases r1 <;> simp_all [isEmpty]
          subst hr1
          have hcase' : compare key k1 = .eq ∧ (nil : RbTree K V).isEmpty = true := hcase
          simp only [hcase', and_self, if_true]
          rcases hp1 with ⟨_, _, _, _, _, he, _, _, _, _, hr⟩ | ⟨hi, rfl⟩
          · cases he; simp at hr
          · have h0 : h = 0 := hi.2.2.2
            subst h0
            have hl1 := inv_zero hi.2.2.1 hi.1
            subst hl1
            refine ⟨nil, [], [], rfl, ?_, by simp, rfl, by simp⟩
            rw [← ht1]
            simpa using (split_mem hs1 hm1).2.1 hcase.1
        · simp only [if_neg hcase]
          have hne : r1.isEmpty = false := by
            cases r1 with
            | node => rfl
            | nil =>
              have : compare key k1 ≠ .eq := fun h => hcase ⟨h, rfl⟩
              have hgt : compare key k1 = .gt := by rcases hk : compare key k1 with _ | _ | _ <;> simp_all
              have := (split_mem hs1 hm1).2.2 hgt
              simp at this
          obtain ⟨c2, l2, k2, v2, r2, m, e2, ht2, hk2, hpost⟩ := fixRight_spec hp1 hne
          have hs2 : Sorted (l2.toList ++ (k2, v2) :: r2.toList) := by rw [← toList_node c2, ht2]; exact hs1
          have hm2 : (key, w) ∈ l2.toList ++ (k2, v2) :: r2.toList := by rw [← toList_node c2, ht2]; exact hm1
          have hlen := congrArg List.length (ht2.trans ht1)
          simp only [toList_node, List.length_append, List.length_cons] at hlen hn
          have hcol : (node c1 l k v r).isRed = false → c1 = .black := by
            intro hr; cases c1
            · simp at hr
            · rfl
          rw [e2]
          by_cases heq : compare key k2 = .eq
          · have hkk := (split_mem hs2 hm2).2.1 heq
            have hA : Inv r2 m ∧ PreA r2 := by
              rcases hk2 with ⟨rfl, rfl, h1, h2⟩ | ⟨hin, _⟩
              · exact ⟨h1, h2⟩
              · have := (sorted_node.mp hs2).2.2.2 _ hin
                rw [← cmp_eq.mp heq] at this
                exact absurd (cmp_lt_gt.mp this) (fun h => by
                  have : compare key k1 = .lt := this
                  exact hlt1 this)
            obtain ⟨t', e, h1, h2, h3, h4⟩ := deleteMin_spec n r2 m (by omega) hA.2 hA.1
            have hmin : r2.minEntry = some e := by rw [minEntry_head, h2]; rfl
            refine ⟨balance (node c2 l2 e.1 e.2 t'), l2.toList, r2.toList, ?_, ?_, ?_,
              (hpost t' h3 h4 _ _).1, fun hr => (hpost t' h3 h4 _ _).2 (hcol hr)⟩
            · simp [heq, hmin, h1]
            · rw [← ht1, ← ht2, toList_node, hkk]
            · rw [toList_balance, toList_node, h2]
          · have hgt : compare key k2 = .gt := by
              rcases hk : compare key k2 with _ | _ | _
              · exfalso
                rcases hk2 with ⟨rfl, rfl, _⟩ | ⟨hin, _⟩
                · exact hlt1 hk
                · exact hlt1 (cmp_trans hk ((sorted_node.mp hs2).2.2.2 _ hin))
              · exact absurd hk heq
              · rfl
            have hmr := (split_mem hs2 hm2).2.2 hgt
            have hpre : PreGo r2 m key := by
              rcases hk2 with ⟨_, _, h1, h2⟩ | ⟨_, hrr, a, w', b, hr⟩
              · exact .inl ⟨h1, h2⟩
              · refine .inr ⟨hrr, fun c l k v r he => ?_⟩
                rw [hr] at he; cases he
                exact hlt1
            obtain ⟨t', A, B, h1, h2, h3, h4, h5⟩ := ih r2 m (by omega) (sorted_node.mp hs2).2.1 hmr hpre
            refine ⟨balance (node c2 l2 k2 v2 t'), l2.toList ++ (k2, v2) :: A, B, ?_, ?_, ?_,
              (hpost t' h4 h5 _ _).1, fun hr => (hpost t' h4 h5 _ _).2 (hcol hr)⟩
            · simp [heq, h1]
            · rw [← ht1, ← ht2, toList_node, h2]; simp
            · rw [toList_balance, toList_node, h3]; simp

/-- Deletion succeeds, keeps the invariants and removes exactly the key. -/
theorem delete_spec {t : RbTree K V} (hg : Good t) (key : K) [DecidableEq K] :
    ∃ t', t.delete key = some t' ∧ Good t' ∧ ∀ k, t'.get k = if k = key then none else t.get k := by
  rw [delete.eq_def]
  rcases hk : t.get key with _ | w
  · refine ⟨t, rfl, hg, fun k => ?_⟩
    split
    · next e => rw [e, hk]
    · rfl
  · have hm := (get_iff t hg.sorted key w).mp hk
    cases t with
    | nil => simp at hm
    | node c l k v r =>
      have hc : c = .black := by have := hg.black; cases c; simp at this; rfl
      subst hc
      obtain ⟨n, hn⟩ := hg.inv
      cases n with
      | zero => exact hn.elim
      | succ n =>
        -- the root as it enters the descent
        have hroot : ∃ root h, (if !l.isRed && !r.isRed then node .red l k v r else node .black l k v r) = root ∧
            root.toList = (node .black l k v r).toList ∧ Inv root h ∧ PreA root := by
          by_cases hl : l.isRed = true
          · exact ⟨_, n + 1, rfl, by simp [hl], by simpa [hl] using hn, by simp [hl, PreA]⟩
          · have hl : l.isRed = false := by simpa using hl
            exact ⟨_, n, rfl, by simp [hl, hn.1], by simpa [hl, hn.1] using inv_red hn hl, by simp [hl, hn.1, PreA]⟩
        obtain ⟨root, h, e, ht, hi, hp⟩ := hroot
        obtain ⟨t', A, B, h1, h2, h3, h4, _⟩ := deleteGo_spec root.size root h key w (by rw [size_toList]; exact Nat.le_refl _)
          (by rw [ht]; exact hg.sorted) (by rw [ht]; exact hm) (.inl ⟨hi, hp⟩)
        have hb := setBlack_inv (.inl h4) fun _ => h4
        have hsT : Sorted (A ++ (key, w) :: B) := by rw [← h2, ht]; exact hg.sorted
        have hs' : Sorted (A ++ B) := by
          refine List.Pairwise.sublist ?_ hsT
          exact List.Sublist.append_left (List.sublist_cons_self _ _) _
        have hgood : Good (setColor .black t') := ⟨by rw [toList_setColor, h3]; exact hs', hb.1, hb.2⟩
        refine ⟨setColor .black t', by simp only [e]; rw [h1]; rfl, hgood, fun k' => ?_⟩
        apply Option.ext
        intro w'
        rw [get_iff _ hgood.sorted, toList_setColor, h3]
        have hmem : ∀ e, e ∈ (node .black l k v r).toList ↔ e ∈ A ++ (key, w) :: B := by rw [← ht, h2]; simp
        split
        · next ek =>
          subst ek
          simp only [reduceCtorEq, iff_false]
          rw [sorted_node] at hsT
          intro hin
          rcases List.mem_append.mp hin with hin | hin
          · have := hsT.2.2.1 _ hin; simp [cmp_self] at this
          · have := hsT.2.2.2 _ hin; simp [cmp_self] at this
        · next ek =>
          rw [get_iff _ hg.sorted, hmem]
          simp [ek]

omit [Std.TransOrd K] [Std.LawfulEqOrd K] in
theorem isEmpty_iff_get {t : RbTree K V} [Std.TransOrd K] [Std.LawfulEqOrd K] (hg : Good t) :
    t.isEmpty = true ↔ ∀ k, t.get k = none := by
  cases t with
  | nil => simp [isEmpty, get]
  | node c l k v r =>
    simp only [isEmpty, Bool.false_eq_true, false_iff]
    intro h
    have := (get_iff _ hg.sorted k v).mpr (by simp)
    rw [h] at this
    simp at this

end Siwe.RbTree
