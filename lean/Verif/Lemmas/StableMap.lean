import Verif.Lemmas.StableInsert
/- The B-trees in stable memory as maps. -/
namespace Siwe.StableBTree

theorem full_iff (n : Node) : n.isFull = true ↔ 11 ≤ n.entries.length := by
  simp only [Node.isFull, capacity, minDegree]
  exact decide_eq_true_iff

theorem SizeAt.mono {m : Memory} {a : Nat} {p q : Nat → Prop} (h : SizeAt m a p) (hpq : ∀ n, p n → q n) : SizeAt m a q := by
  obtain ⟨n, h1, h2⟩ := h
  exact ⟨n, h1, hpq _ h2⟩

/-! ### insertion below a node that is not full -/

theorem insertNonfull_spec (k v : Bytes) : ∀ (h fuel : Nat) (m : Memory) (a : Nat) (l : List Item) (F : List Nat), Rep m h a l F → F.Nodup →
    (∀ x ∈ F, x < m.next) → Sorted l → SizeAt m a (· < 11) → h < fuel →
    ∃ m' l' F' old, insertNonfull k v fuel m a = some (m', old) ∧ Rep m' h a l' F' ∧ Grown m m' F F' ∧ Put k v l l' old ∧
      ∀ q, SizeAt m a (q ≤ ·) → SizeAt m' a (q ≤ ·) := by
  intro h
  induction h with
  | zero =>
    intro fuel m a l F hr hn hb hs hz hf
    cases fuel with
    | zero => omega
    | succ fuel =>
      have hr' := hr
      obtain ⟨h1, h2, h3⟩ := hr
      have hnf : (Node.mk l []).isFull = false := by
        obtain ⟨n, g1, g2⟩ := hz
        rw [h1] at g1
        cases g1
        cases hq : (Node.mk l []).isFull with
        | false => rfl
        | true =>
          have := (full_iff _).1 hq
          simp only at this g2
          omega
      rw [insertNonfull, h1]
      simp only [hnf, Bool.false_eq_true, if_false]
      rcases search_cases k l 0 hs with ⟨e1, old, e2, he, hse⟩ | ⟨e1, e2, he, g1, g2, hse⟩
      · obtain ⟨m', l', u1, u2, u3, u4, u5⟩ := Rep.update (v := v) hr' hn h1 he
        rw [hse, Nat.zero_add]
        refine ⟨m', l', F, some old, u1, u2, u3, u4, fun q hq => ?_⟩
        obtain ⟨n, p1, p2⟩ := hq
        rw [h1] at p1
        cases p1
        exact u5.mono fun x hx => by rw [hx]; exact p2
      · rw [hse, Nat.zero_add]
        subst he
        simp only [List.isEmpty_nil, if_true]
        refine ⟨_, e1 ++ (k, v) :: e2, F, none, rfl, ⟨?_, h2, ?_⟩, save_grown hr' _, .add _ _ g1 g2, fun q hq => ?_⟩
        · rw [save_same, insertIdx_length]
        · obtain ⟨n, p1, p2⟩ := hz
          rw [h1] at p1
          cases p1
          simp only [List.length_append, List.length_cons] at p2 ⊢
          omega
        · obtain ⟨n, p1, p2⟩ := hq
          rw [h1] at p1
          cases p1
          refine ⟨_, save_same _ _ _, ?_⟩
          rw [insertIdx_length]
          simp only [List.length_append, List.length_cons] at p2 ⊢
          omega
  | succ h ih =>
    intro fuel m a l F hr hn hb hs hz hf
    cases fuel with
    | zero => omega
    | succ fuel =>
      have hr' := hr
      obtain ⟨es, kids, h1, h2, h3, h4, h5, h6⟩ := hr
      have hsz : es.length < 11 := by
        obtain ⟨n, g1, g2⟩ := hz
        rw [h1] at g1
        cases g1
        exact g2
      have hnf : (Node.mk es (kids.map (·.addr))).isFull = false := by
        cases hq : (Node.mk es (kids.map (·.addr))).isFull with
        | false => rfl
        | true =>
          have := (full_iff _).1 hq
          simp only at this
          omega
      have hse' : Sorted es := hs.sublist (h5 ▸ entries_sublist h2)
      rw [insertNonfull, h1]
      simp only [hnf, Bool.false_eq_true, if_false]
      rcases search_cases k es 0 hse' with ⟨e1, old, e2, he, hse⟩ | ⟨e1, e2, he, g1, g2, hse⟩
      · obtain ⟨m', l', u1, u2, u3, u4, u5⟩ := Rep.update (v := v) hr' hn h1 he
        rw [hse, Nat.zero_add]
        refine ⟨m', l', F, some old, u1, u2, u3, u4, fun q hq => ?_⟩
        obtain ⟨n, p1, p2⟩ := hq
        rw [h1] at p1
        cases p1
        exact u5.mono fun x hx => by rw [hx]; exact p2
      · rw [hse, Nat.zero_add]
        subst he
        obtain ⟨k1, c, k2, rfl, l1, l2⟩ := split_kids h2
        have hne : ((k1 ++ c :: k2).map (·.addr)).isEmpty = false := by
          cases k1 <;> rfl
        have hget : ((k1 ++ c :: k2).map (·.addr))[e1.length]? = some c.addr := by
          rw [← l1]; simp
        have hcm : c ∈ k1 ++ c :: k2 := by simp
        have hl : l = before k1 e1 ++ c.items ++ after e2 k2 := by rw [h5, inorder_split _ _ _ _ _ l1]
        have hs2 := hs
        rw [hl, Sorted, List.pairwise_append, List.pairwise_append] at hs2
        have hbl := before_less (k := k) k1 e1 hs2.1.1 l1 g1
        have hal := after_less (k := k) e2 k2 hs2.2.1 l2 g2
        have hcs : Sorted c.items := hs2.1.2.1
        obtain ⟨child, c1, c2⟩ := (h4 c hcm).2
        have hcle := (h4 c hcm).1.size
        rw [h6] at hn hb
        have hcf : c.foot.Nodup ∧ ∀ x ∈ c.foot, x < m.next := by
          constructor
          · have := (List.nodup_cons.1 hn).2
            simp only [List.flatMap_append, List.flatMap_cons] at this
            rw [List.nodup_append, List.nodup_append] at this
            exact this.2.1.1
          · intro x hx
            exact hb x (List.mem_cons_of_mem _ (List.mem_flatMap.2 ⟨c, hcm, hx⟩))
        simp only [hne, Bool.false_eq_true, if_false, hget, c1]
        cases hfull : child.isFull with
        | false =>
          simp only [Bool.false_eq_true, if_false]
          have hclt : SizeAt m c.addr (· < 11) := ⟨child, c1, by
            cases Nat.lt_or_ge child.entries.length 11 with
            | inl h => exact h
            | inr h => rw [(full_iff _).2 h] at hfull; exact nomatch hfull⟩
          obtain ⟨m', l', F', old, i1, i2, i3, i4, i5⟩ := ih fuel m c.addr c.items c.foot (h4 c hcm).1 hcf.1 hcf.2 hcs hclt (by omega)
          obtain ⟨F2, d1, d2, d3⟩ := Rep.descend h1 l1 l2 h3 h4 hn hb i3 i2 (i5 5 (h4 c hcm).2)
          refine ⟨m', _, F2, old, i1, d1, ?_, ?_, ?_⟩
          · rw [h6]; exact d2
          · rw [hl]; exact i4.frame _ _ hbl hal
          · intro q hq
            obtain ⟨n, p1, p2⟩ := hq
            exact ⟨n, by rw [d3, p1], p2⟩
        | true =>
          simp only [if_true]
          have h11 : child.entries.length = 11 := by
            have := (full_iff _).1 hfull
            obtain ⟨n, p1, p2⟩ := hcle
            rw [c1] at p1
            cases p1
            omega
          have hces : Sorted child.entries := by
            cases h with
            | zero =>
              have := (h4 c hcm).1.1
              rw [c1] at this
              cases this
              exact hcs
            | succ h =>
              obtain ⟨es', kids', q1, q2, _, _, q5, _⟩ := (h4 c hcm).1
              rw [c1] at q1
              cases q1
              exact hcs.sublist (q5 ▸ entries_sublist q2)
          rcases search_cases k child.entries 0 hces with ⟨x1, old, x2, hx, hsx⟩ | ⟨x1, x2, hx, y1, y2, hsx⟩
          · rw [hsx, Nat.zero_add]
            obtain ⟨m', l', u1, u2, u3, u4, u5⟩ := Rep.update (v := v) (h4 c hcm).1 hcf.1 c1 hx
            obtain ⟨F2, d1, d2, d3⟩ := Rep.descend h1 l1 l2 h3 h4 hn hb u3 u2 (u5.mono fun x hx => by omega)
            refine ⟨m', _, F2, some old, u1, d1, ?_, ?_, ?_⟩
            · rw [h6]; exact d2
            · rw [hl]; exact u4.frame _ _ hbl hal
            · intro q hq
              obtain ⟨n, p1, p2⟩ := hq
              exact ⟨n, by rw [d3, p1], p2⟩
          · rw [hsx]
            obtain ⟨m1, med, cl, cr, s1, s2, s3, s4, s5, s6, s7, s8⟩ := Rep.split l1 l2 hsz h4 hn hb c1 h11
            simp only [s1]
            obtain ⟨n1, b1⟩ := s8.ok hn hb
            have hmed : Less med.1 k ∨ Less k med.1 := by
              rw [hx] at s7
              rcases List.mem_append.1 s7 with q | q
              · exact .inl (y1 _ q)
              · exact .inr (y2 _ q)
            have hlen3 : (e1 ++ med :: e2).length ≤ 11 := by
              simp only [List.length_append, List.length_cons] at hsz ⊢
              omega
            have hsorted2 : Sorted (cl.items ++ med :: cr.items) := s6 ▸ hcs
            rw [Sorted, List.pairwise_append, List.pairwise_cons] at hsorted2
            have fin : ∀ (x : Kid) (f1 f2 : List Item) (w1 w2 : List Kid), e1 ++ med :: e2 = f1 ++ f2 → k1 ++ cl :: cr :: k2 = w1 ++ x :: w2 →
                w1.length = f1.length → w2.length = f2.length → (∀ e ∈ f1, Less e.1 k) → (∀ e ∈ f2, Less k e.1) →
                SizeAt m1 x.addr (· = 5) → Sorted x.items → l = before w1 f1 ++ x.items ++ after f2 w2 →
                (∀ e ∈ before w1 f1, Less e.1 k) → (∀ e ∈ after f2 w2, Less k e.1) →
                ∃ m' l' F' old, (match ((k1 ++ cl :: cr :: k2).map (·.addr))[match search k (e1 ++ med :: e2) 0 with
                      | .found i => i
                      | .absent i => i]? with
                    | none => none
                    | some c => insertNonfull k v fuel m1 c) = some (m', old) ∧ Rep m' (h + 1) a l' F' ∧ Grown m m' F F' ∧ Put k v l l' old ∧
                  ∀ q, SizeAt m a (q ≤ ·) → SizeAt m' a (q ≤ ·) := by
              intro x f1 f2 w1 w2 he hw lw1 lw2 q1 q2 q3 q4 q5 q6 q7
              have hxm : x ∈ k1 ++ cl :: cr :: k2 := by rw [hw]; simp
              have hsr : search k (e1 ++ med :: e2) 0 = .absent f1.length := by
                rw [he, search_absent k f1 f2 0 q1 q2, Nat.zero_add]
              have hgx : ((k1 ++ cl :: cr :: k2).map (·.addr))[f1.length]? = some x.addr := by
                rw [hw, ← lw1]; simp
              simp only [hsr, hgx]
              have hxf : x.foot.Nodup ∧ ∀ y ∈ x.foot, y < m1.next := by
                rw [hw] at n1 b1
                constructor
                · have := (List.nodup_cons.1 n1).2
                  simp only [List.flatMap_append, List.flatMap_cons] at this
                  rw [List.nodup_append, List.nodup_append] at this
                  exact this.2.1.1
                · intro y hy
                  exact b1 y (List.mem_cons_of_mem _ (List.mem_flatMap.2 ⟨x, by simp, hy⟩))
              obtain ⟨m', l', F', old, i1, i2, i3, i4, i5⟩ := ih fuel m1 x.addr x.items x.foot (s3 x hxm).1 hxf.1 hxf.2 q4
                (q3.mono fun y hy => by omega) (by omega)
              have s2' := s2
              have s3' := s3
              have n1' := n1
              have b1' := b1
              have s8' := s8
              rw [he, hw] at s2'
              rw [hw] at s3' n1' b1' s8'
              obtain ⟨F2, d1, d2, d3⟩ := Rep.descend s2' lw1 lw2 (he ▸ hlen3) s3' n1' b1' i3 i2 (i5 5 (s3 x hxm).2)
              refine ⟨m', _, F2, old, i1, d1, ?_, ?_, ?_⟩
              · rw [h6]; exact s8'.trans d2
              · rw [q5]; exact i4.frame _ _ q6 q7
              · intro q hq
                obtain ⟨n, p1, p2⟩ := hq
                rw [h1] at p1
                cases p1
                refine ⟨_, by rw [d3, s2'], ?_⟩
                have := congrArg List.length he
                simp only [List.length_append, List.length_cons] at p2 this ⊢
                omega
            rcases hmed with hmed | hmed
            · -- the key belongs to the right half
              refine fin cr (e1 ++ [med]) e2 (k1 ++ [cl]) k2 (by simp) (by simp) (by simp [l1]) l2 ?_ g2 s5 hsorted2.2.1.2 ?_ ?_ hal
              · intro e he
                rcases List.mem_append.1 he with he | he
                · exact g1 e he
                · rw [List.mem_singleton] at he
                  subst he
                  exact hmed
              · rw [hl, s6]
                have : before (k1 ++ [cl]) (e1 ++ [med]) = before k1 e1 ++ cl.items ++ [med] := by
                  rw [before, List.zip_append l1]
                  simp [before]
                rw [this]
                simp
              · have : before (k1 ++ [cl]) (e1 ++ [med]) = before k1 e1 ++ cl.items ++ [med] := by
                  rw [before, List.zip_append l1]
                  simp [before]
                rw [this]
                intro e he
                rcases List.mem_append.1 he with he | he
                · rcases List.mem_append.1 he with he | he
                  · exact hbl e he
                  · exact less_trans (hsorted2.2.2 e he med (by simp)) hmed
                · rw [List.mem_singleton] at he
                  subst he
                  exact hmed
            · -- or to the left half
              refine fin cl e1 (med :: e2) k1 (cr :: k2) rfl rfl l1 (by simp [l2]) g1 ?_ s4 hsorted2.1 ?_ hbl ?_
              · intro e he
                rcases List.mem_cons.1 he with rfl | he
                · exact hmed
                · exact g2 e he
              · rw [hl, s6, after_cons]
                simp
              · rw [after_cons]
                intro e he
                rcases List.mem_cons.1 he with rfl | he
                · exact hmed
                · rcases List.mem_append.1 he with he | he
                  · exact less_trans hmed (hsorted2.2.1.1 e he)
                  · exact hal e he

/-! ### looking a key up -/

/-- The value of a key among entries. -/
def find (l : List Item) (k : Bytes) : Option Bytes := (l.find? fun e => e.1 = k).map (·.2)

theorem find_append (a b : List Item) (k : Bytes) : find (a ++ b) k = (find a k).or (find b k) := by
  simp only [find, List.find?_append]
  cases List.find? (fun e : Item => decide (e.1 = k)) a <;> rfl

theorem find_cons (e : Item) (b : List Item) (k : Bytes) : find (e :: b) k = if e.1 = k then some e.2 else find b k := by
  simp only [find, List.find?_cons]
  by_cases h : e.1 = k <;> simp [h]

theorem find_none {l : List Item} {k : Bytes} (h : ∀ e ∈ l, e.1 ≠ k) : find l k = none := by
  rw [find, List.find?_eq_none.2]
  · rfl
  · intro e he; simp [h e he]

theorem find_less {l : List Item} {k : Bytes} (h : ∀ e ∈ l, Less e.1 k) : find l k = none :=
  find_none fun e he hk => less_irrefl k (by have := h e he; rwa [hk] at this)

theorem find_greater {l : List Item} {k : Bytes} (h : ∀ e ∈ l, Less k e.1) : find l k = none :=
  find_none fun e he hk => less_irrefl k (by have := h e he; rwa [hk] at this)

theorem find_at {a b : List Item} {k v : Bytes} (hs : Sorted (a ++ (k, v) :: b)) : find (a ++ (k, v) :: b) k = some v := by
  rw [Sorted, List.pairwise_append] at hs
  rw [find_append, find_less (fun e he => hs.2.2 e he (k, v) (by simp)), find_cons]
  simp

theorem find_mem {l : List Item} {k v : Bytes} (hs : Sorted l) (h : (k, v) ∈ l) : find l k = some v := by
  obtain ⟨a, b, rfl⟩ := List.append_of_mem h
  exact find_at hs

theorem Put.find {k v : Bytes} {l l' : List Item} {old : Option Bytes} (h : Put k v l l' old) (hs : Sorted l) (x : Bytes) :
    StableBTree.find l' x = if x = k then some v else StableBTree.find l x := by
  have hs' := h.sorted hs
  by_cases hx : x = k
  · subst hx
    rw [if_pos rfl]
    cases h with
    | replace a b old => exact find_at hs'
    | add a b h1 h2 => exact find_at hs'
  · rw [if_neg hx]
    have hx' : ¬k = x := fun e => hx e.symm
    cases h with
    | replace a b old => simp [find_append, find_cons, hx']
    | add a b h1 h2 => simp [find_append, find_cons, hx']

theorem Put.old {k v : Bytes} {l l' : List Item} {old : Option Bytes} (h : Put k v l l' old) (hs : Sorted l) : old = StableBTree.find l k := by
  cases h with
  | replace a b old => exact (find_at hs).symm
  | add a b h1 h2 => rw [find_append, find_less h1, find_greater h2]; rfl

theorem Put.length {k v : Bytes} {l l' : List Item} {old : Option Bytes} (h : Put k v l l' old) :
    l'.length = if old.isSome then l.length else l.length + 1 := by
  cases h with
  | replace a b old => simp
  | add a b h1 h2 => simp; omega

theorem getHelper_spec (k : Bytes) : ∀ (h fuel : Nat) (m : Memory) (a : Nat) (l : List Item) (F : List Nat), Rep m h a l F → Sorted l → h < fuel →
    getHelper k fuel m a = some (find l k) := by
  intro h
  induction h with
  | zero =>
    intro fuel m a l F hr hs hf
    cases fuel with
    | zero => omega
    | succ fuel =>
      obtain ⟨h1, h2, h3⟩ := hr
      rw [getHelper, h1]
      simp only
      rcases search_cases k l 0 hs with ⟨e1, v, e2, rfl, hse⟩ | ⟨e1, e2, rfl, g1, g2, hse⟩
      · rw [hse, find_at hs]
        simp
      · rw [hse, find_append, find_less g1, find_greater g2]
        rfl
  | succ h ih =>
    intro fuel m a l F hr hs hf
    cases fuel with
    | zero => omega
    | succ fuel =>
      obtain ⟨es, kids, h1, h2, h3, h4, h5, h6⟩ := hr
      have hsub : es.Sublist l := h5 ▸ entries_sublist h2
      rw [getHelper, h1]
      simp only
      rcases search_cases k es 0 (hs.sublist hsub) with ⟨e1, v, e2, he, hse⟩ | ⟨e1, e2, he, g1, g2, hse⟩
      · rw [hse, find_mem hs (hsub.subset (he ▸ by simp : (k, v) ∈ es))]
        simp [he]
      · subst he
        rw [hse, Nat.zero_add]
        obtain ⟨k1, c, k2, rfl, l1, l2⟩ := split_kids h2
        have hne : ((k1 ++ c :: k2).map (·.addr)).isEmpty = false := by
          cases k1 <;> rfl
        have hget : ((k1 ++ c :: k2).map (·.addr))[e1.length]? = some c.addr := by
          rw [← l1]; simp
        have hl : l = before k1 e1 ++ c.items ++ after e2 k2 := by rw [h5, inorder_split _ _ _ _ _ l1]
        have hs2 := hs
        rw [hl, Sorted, List.pairwise_append, List.pairwise_append] at hs2
        simp only [hne, Bool.false_eq_true, if_false, hget]
        rw [ih fuel m c.addr c.items c.foot (h4 c (by simp)).1 hs2.1.2.1 (by omega), hl, find_append, find_append,
          find_less (before_less k1 e1 hs2.1.1 l1 g1), find_greater (after_less e2 k2 hs2.2.1 l2 g2)]
        simp

/-! ### how high a tree can be -/

theorem after_size : ∀ (es : List Item) (kids : List Kid) (n : Nat), kids.length = es.length → (∀ c ∈ kids, n ≤ c.items.length + 1) →
    n * kids.length ≤ (after es kids).length
  | [], [], _, _, _ => by simp
  | [], _ :: _, _, h, _ => nomatch h
  | _ :: _, [], _, h, _ => nomatch h
  | e :: es, c :: kids, n, h, hk => by
    have ih := after_size es kids n (by simpa using h) fun c hc => hk c (by simp [hc])
    have := hk c (by simp)
    rw [after_cons, List.length_cons, List.length_cons, List.length_append, Nat.mul_add]
    omega

theorem Rep.high {m : Memory} : ∀ {h a : Nat} {l : List Item} {F : List Nat}, Rep m h a l F → ∀ q, SizeAt m a (q ≤ ·) →
    (q + 1) * 6 ^ h ≤ l.length + 1
  | 0, a, l, F, hr, q, hq => by
    obtain ⟨n, g1, g2⟩ := hq
    rw [hr.1] at g1
    cases g1
    simp only at g2
    omega
  | h + 1, a, l, F, hr, q, hq => by
    obtain ⟨es, kids, h1, h2, h3, h4, h5, h6⟩ := hr
    obtain ⟨n, g1, g2⟩ := hq
    rw [h1] at g1
    cases g1
    simp only at g2
    have hk : ∀ c ∈ kids, 6 ^ (h + 1) ≤ c.items.length + 1 := by
      intro c hc
      have := (h4 c hc).1.high 5 (h4 c hc).2
      rw [Nat.pow_succ, Nat.mul_comm]
      exact this
    cases kids with
    | nil => exact nomatch h2
    | cons c kids =>
      have hc := hk c (by simp)
      have ha := after_size es kids (6 ^ (h + 1)) (by simpa using h2) fun c hc => hk c (by simp [hc])
      have hl : kids.length = es.length := by simpa using h2
      rw [h5, inorder, List.length_append]
      have : 6 ^ (h + 1) * q ≤ 6 ^ (h + 1) * kids.length := Nat.mul_le_mul_left _ (by omega)
      rw [Nat.mul_comm, Nat.mul_add]
      omega

theorem Rep.low {m : Memory} {h a : Nat} {l : List Item} {F : List Nat} (hr : Rep m h a l F) : h ≤ l.length := by
  have := hr.high 0 (by
    obtain ⟨n, h1, _⟩ := hr.size
    exact ⟨n, h1, Nat.zero_le _⟩)
  have := Nat.lt_pow_self (n := h) (show 1 < 6 by omega)
  omega

/-! ### how many nodes there are -/

theorem after_nodes : ∀ (es : List Item) (kids : List Kid), kids.length = es.length → (∀ c ∈ kids, 5 * c.foot.length ≤ c.items.length) →
    5 * (kids.flatMap (·.foot)).length + es.length ≤ (after es kids).length
  | [], [], _, _ => by simp
  | [], _ :: _, h, _ => nomatch h
  | _ :: _, [], h, _ => nomatch h
  | e :: es, c :: kids, h, hk => by
    have ih := after_nodes es kids (by simpa using h) fun c hc => hk c (by simp [hc])
    have := hk c (by simp)
    rw [after_cons, List.length_cons, List.length_cons, List.length_append, List.flatMap_cons, List.length_append]
    omega

theorem Rep.nodes {m : Memory} : ∀ {h a : Nat} {l : List Item} {F : List Nat}, Rep m h a l F → ∀ q, SizeAt m a (q ≤ ·) →
    5 * F.length + q ≤ l.length + 5
  | 0, a, l, F, hr, q, hq => by
    obtain ⟨n, g1, g2⟩ := hq
    rw [hr.1] at g1
    cases g1
    simp only at g2
    rw [hr.2.1, List.length_singleton]
    omega
  | h + 1, a, l, F, hr, q, hq => by
    obtain ⟨es, kids, h1, h2, h3, h4, h5, h6⟩ := hr
    obtain ⟨n, g1, g2⟩ := hq
    rw [h1] at g1
    cases g1
    simp only at g2
    have hk : ∀ c ∈ kids, 5 * c.foot.length ≤ c.items.length := by
      intro c hc
      have := (h4 c hc).1.nodes 5 (h4 c hc).2
      omega
    cases kids with
    | nil => exact nomatch h2
    | cons c kids =>
      have hc := hk c (by simp)
      have ha := after_nodes es kids (by simpa using h2) fun c hc => hk c (by simp [hc])
      rw [h5, h6, inorder, List.length_append, List.length_cons, List.flatMap_cons, List.length_append]
      omega

theorem Grown.count {m m' : Memory} {F F' : List Nat} (h : Grown m m' F F') (hl : F.length = m.next) : F'.length = m'.next := by
  obtain ⟨n, a, b, _⟩ := h
  rw [b.length_eq, List.length_append, List.length_range', a, hl]

/-! ### the map -/

/-- The map holds these entries, and its memory is what `init` needs to find them again. -/
def Holds (t : BTreeMap) (l : List Item) : Prop :=
  t.memory.header = some (t.root, t.length) ∧ t.length = l.length ∧ Sorted l ∧
    match t.root with
    | none => l = [] ∧ t.memory.next = 0
    | some a => ∃ h F, Rep t.memory h a l F ∧ F.Nodup ∧ (∀ x ∈ F, x < t.memory.next) ∧ SizeAt t.memory a (1 ≤ ·) ∧ F.length = t.memory.next

theorem holds_new : Holds (init .unused) [] := ⟨rfl, rfl, List.Pairwise.nil, rfl, rfl⟩

theorem Holds.reload {t : BTreeMap} {l : List Item} (h : Holds t l) : init t.memory = t := by
  rw [init, h.1]

theorem Holds.get {t : BTreeMap} {l : List Item} (h : Holds t l) (k : Bytes) : get t k = some (find l k) := by
  obtain ⟨h1, h2, h3, h4⟩ := h
  rw [StableBTree.get]
  cases hr : t.root with
  | none =>
    rw [hr] at h4
    obtain ⟨rfl, _⟩ := h4
    rfl
  | some a =>
    rw [hr] at h4
    obtain ⟨h, F, g1, g2, g3, g4, _⟩ := h4
    exact getHelper_spec k h _ _ _ _ _ g1 h3 (by have := g1.low; omega)

theorem Rep.root {m m' : Memory} {h a : Nat} {l' : List Item} {F' : List Nat} (hr : Rep m' h a l' F') (hne : l' ≠ [])
    (hz : h ≠ 0 → SizeAt m a (1 ≤ ·)) (hm : ∀ q, SizeAt m a (q ≤ ·) → SizeAt m' a (q ≤ ·)) : SizeAt m' a (1 ≤ ·) := by
  cases h with
  | zero =>
    refine ⟨_, hr.1, ?_⟩
    cases l' with
    | nil => exact absurd rfl hne
    | cons => simp
  | succ h => exact hm 1 (hz (by omega))

theorem Put.ne {k v : Bytes} {l l' : List Item} {old : Option Bytes} (h : Put k v l l' old) : l' ≠ [] := by
  cases h <;> simp

/-- The rest of an insertion, once there is a root that is not full. -/
theorem insert_below {t : BTreeMap} {l : List Item} {k v : Bytes} {a h : Nat} {F : List Nat} (hroot : t.root = some a)
    (hh : t.memory.header = some (t.root, t.length)) (hl : t.length = l.length) (hs : Sorted l) (hr : Rep t.memory h a l F) (hn : F.Nodup)
    (hb : ∀ x ∈ F, x < t.memory.next) (hz : SizeAt t.memory a (· < 11)) (hz1 : h ≠ 0 → SizeAt t.memory a (1 ≤ ·)) (hcnt : F.length = t.memory.next) :
    ∃ t' l' old, (match insertNonfull k v (t.length + 2) t.memory a with
        | none => none
        | some (m, some old) => some (({ t with memory := m } : BTreeMap), some old)
        | some (m, none) => some (BTreeMap.saveHeader { t with memory := m, length := t.length + 1 }, none)) = some (t', old) ∧
      Holds t' l' ∧ Put k v l l' old := by
  obtain ⟨m', l', F', old, i1, i2, i3, i4, i5⟩ := insertNonfull_spec k v h (t.length + 2) t.memory a l F hr hn hb hs hz (by have := hr.low; omega)
  have hok := i3.ok hn hb
  have hrz := i2.root i4.ne hz1 i5
  have hlen := i4.length
  have hhd : m'.header = t.memory.header := by obtain ⟨_, _, _, h, _⟩ := i3; exact h
  have hlen' := i3.count hcnt
  rw [i1]
  cases old with
  | some old =>
    simp only [Option.isSome_some, if_true] at hlen
    refine ⟨_, l', some old, rfl, ⟨?_, ?_, i4.sorted hs, ?_⟩, i4⟩
    · simp only [hhd, hh]
    · simp only [hl, hlen]
    · simp only [hroot]
      exact ⟨h, F', i2, hok.1, hok.2, hrz, hlen'⟩
  | none =>
    simp only [Option.isSome_none, Bool.false_eq_true, if_false] at hlen
    refine ⟨_, l', none, rfl, ⟨rfl, ?_, i4.sorted hs, ?_⟩, i4⟩
    · simp only [BTreeMap.saveHeader, hl, hlen]
    · simp only [BTreeMap.saveHeader, hroot]
      refine ⟨h, F', i2.agree fun _ _ => rfl, hok.1, hok.2, ?_, hlen'⟩
      exact hrz

theorem Holds.insert {t : BTreeMap} {l : List Item} (ht : Holds t l) (k v : Bytes) :
    ∃ t' l' old, insert t k v = some (t', old) ∧ Holds t' l' ∧ Put k v l l' old := by
  obtain ⟨h1, h2, h3, h4⟩ := ht
  rw [StableBTree.insert, insertionRoot]
  cases hroot : t.root with
  | none =>
    rw [hroot] at h4
    obtain ⟨rfl, h5⟩ := h4
    refine insert_below (h := 0) (F := [t.memory.next]) rfl rfl h2 h3 ⟨?_, rfl, by simp⟩ (by simp) ?_ ?_ (by simp) ?_
    · simp [BTreeMap.saveHeader, Memory.save]
    · simp [BTreeMap.saveHeader, Memory.save]
    · exact ⟨⟨[], []⟩, by simp [BTreeMap.saveHeader, Memory.save], by simp⟩
    · simp [BTreeMap.saveHeader, Memory.save, h5]
  | some a =>
    rw [hroot] at h4
    obtain ⟨h, F, g1, g2, g3, g4, g5⟩ := h4
    obtain ⟨n, n1, n2⟩ := g1.size
    simp only [n1]
    have hes : Sorted n.entries := by
      cases h with
      | zero =>
        have := g1.1
        rw [n1] at this
        cases this
        exact h3
      | succ h =>
        obtain ⟨es', kids', q1, q2, _, _, q5, _⟩ := g1
        rw [n1] at q1
        cases q1
        exact h3.sublist (q5 ▸ entries_sublist q2)
    rcases search_cases k n.entries 0 hes with ⟨e1, old, e2, he, hse⟩ | ⟨e1, e2, he, y1, y2, hse⟩
    · obtain ⟨m', l', u1, u2, u3, u4, u5⟩ := Rep.update (v := v) g1 g2 n1 he
      rw [hse, Nat.zero_add]
      simp only [u1]
      have hok := u3.ok g2 g3
      have hhd : m'.header = t.memory.header := by obtain ⟨_, _, _, h, _⟩ := u3; exact h
      have hlen := u4.length
      simp only [Option.isSome_some, if_true] at hlen
      refine ⟨_, l', some old, rfl, ⟨?_, ?_, u4.sorted h3, ?_⟩, u4⟩
      · simp only [hhd, h1, hroot]
      · simp only [h2, hlen]
      · simp only
        refine ⟨h, F, u2, hok.1, hok.2, u5.mono (fun x hx => ?_), u3.count g5⟩
        rw [hx, he]
        simp only [List.length_append, List.length_cons]
        omega
    · rw [hse]
      cases hfull : n.isFull with
      | false =>
        simp only [Bool.false_eq_true, if_false]
        have hz : SizeAt t.memory a (· < 11) := ⟨n, n1, by
          cases Nat.lt_or_ge n.entries.length 11 with
          | inl h => exact h
          | inr h => rw [(full_iff _).2 h] at hfull; exact nomatch hfull⟩
        have := insert_below (k := k) (v := v) (t := t) hroot h1 h2 h3 g1 g2 g3 hz (fun _ => g4) g5
        exact this
      | true =>
        simp only [if_true]
        have h11 : n.entries.length = 11 := by
          have := (full_iff _).1 hfull
          omega
        let m2 : Memory := { t.memory with next := t.memory.next + 1, header := some (some t.memory.next, t.length) }
        have hrm : Rep m2 h a l F := g1.agree fun _ _ => rfl
        have hnd : (t.memory.next :: (([] : List Kid) ++ Kid.mk a l F :: []).flatMap (·.foot)).Nodup := by
          simp only [List.nil_append, List.flatMap_cons, List.flatMap_nil, List.append_nil, List.nodup_cons]
          exact ⟨fun h => by have := g3 _ h; omega, g2⟩
        have hbd : ∀ x ∈ t.memory.next :: (([] : List Kid) ++ Kid.mk a l F :: []).flatMap (·.foot), x < m2.next := by
          simp only [List.nil_append, List.flatMap_cons, List.flatMap_nil, List.append_nil, List.mem_cons]
          rintro x (rfl | hx)
          · exact Nat.lt_succ_self _
          · exact Nat.lt_succ_of_lt (g3 x hx)
        obtain ⟨m', med, cl, cr, s1, s2, s3, s4, s5, s6, s7, s8⟩ := Rep.split (m := m2) (h := h) (a := t.memory.next) (e1 := []) (e2 := [])
          (k1 := []) (k2 := []) (c := ⟨a, l, F⟩) (full := n) rfl rfl (by simp) (by
            intro x hx
            simp only [List.nil_append, List.mem_singleton] at hx
            subst hx
            exact ⟨hrm, n, n1, by omega⟩) hnd hbd n1 h11
        have hok := s8.ok hnd hbd
        have hsp : splitChild m2 t.memory.next ⟨[], [a]⟩ 0 = some (m', ⟨[med], [cl.addr, cr.addr]⟩) := s1
        have hhd : m'.header = some (some t.memory.next, t.length) := by obtain ⟨_, _, _, h, _⟩ := s8; exact h
        have hgo : insertionRoot t k v = some (⟨some t.memory.next, t.length, m'⟩, .inl t.memory.next) := by
          rw [insertionRoot, hroot]
          simp only [n1, hse, hfull, if_true]
          show (match splitChild m2 t.memory.next ⟨[], [a]⟩ 0 with
            | none => none
            | some (m, _) => some (({ root := some t.memory.next, length := t.length, memory := m } : BTreeMap), Sum.inl t.memory.next)) = _
          rw [hsp]
        have hgo2 := hgo
        rw [insertionRoot, hroot] at hgo2
        simp only [n1, hse, hfull, if_true] at hgo2
        rw [hgo2]
        simp only
        refine insert_below (t := ⟨some t.memory.next, t.length, m'⟩) (h := h + 1)
          (F := t.memory.next :: (([] : List Kid) ++ cl :: cr :: []).flatMap (·.foot)) rfl hhd h2 h3 ⟨[med], [cl, cr], s2, rfl, by simp, s3, ?_, rfl⟩ hok.1 hok.2
          ⟨_, s2, by simp⟩ (fun _ => ⟨_, s2, by simp⟩) (s8.count (by simp [m2, g5]))
        simp only at s6
        simp [inorder, after, s6]

end Siwe.StableBTree
