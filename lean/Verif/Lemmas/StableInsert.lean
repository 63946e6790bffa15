import Verif.Lemmas.StableBTree
/- Insertion into the B-trees in stable memory. -/
namespace Siwe.StableBTree

theorem save_same (m : Memory) (a : Nat) (n : Node) : (m.save a n).nodes a = some n := by simp [Memory.save]

theorem save_other (m : Memory) {a x : Nat} (n : Node) (h : x ≠ a) : (m.save a n).nodes x = m.nodes x := by simp [Memory.save, h]

/-! ### the rest of a tree when a child changes -/

theorem Rep.descend {m m' : Memory} {h a : Nat} {e1 e2 : List Item} {k1 k2 : List Kid} {c : Kid} {items : List Item} {foot : List Nat}
    (hnode : m.nodes a = some ⟨e1 ++ e2, (k1 ++ c :: k2).map (·.addr)⟩) (hl1 : k1.length = e1.length) (hl2 : k2.length = e2.length)
    (hsz : (e1 ++ e2).length ≤ 11)
    (hk : ∀ x ∈ k1 ++ c :: k2, Rep m h x.addr x.items x.foot ∧ SizeAt m x.addr (5 ≤ ·))
    (hn : (a :: (k1 ++ c :: k2).flatMap (·.foot)).Nodup) (hb : ∀ x ∈ a :: (k1 ++ c :: k2).flatMap (·.foot), x < m.next)
    (hg : Grown m m' c.foot foot) (hr : Rep m' h c.addr items foot) (h5 : SizeAt m' c.addr (5 ≤ ·)) :
    ∃ F', Rep m' (h + 1) a (before k1 e1 ++ items ++ after e2 k2) F' ∧
      Grown m m' (a :: (k1 ++ c :: k2).flatMap (·.foot)) F' ∧ m'.nodes a = m.nodes a := by
  simp only [List.flatMap_append, List.flatMap_cons] at hn hb ⊢
  rw [List.nodup_cons, List.nodup_append, List.nodup_append] at hn
  obtain ⟨n1, n2, ⟨n3, n4, n5⟩, n6⟩ := hn
  have hsame := hg
  obtain ⟨_, _, _, _, hsame⟩ := hsame
  have ha : m'.nodes a = m.nodes a := hsame a (fun h => n1 (by simp [h])) (hb a (by simp))
  refine ⟨a :: (k1.flatMap (·.foot) ++ foot ++ k2.flatMap (·.foot)), ⟨e1 ++ e2, k1 ++ ⟨c.addr, items, foot⟩ :: k2, ?_, ?_, hsz, ?_, ?_, ?_⟩, ?_, ha⟩
  · rw [ha, hnode]
    simp
  · simp only [List.length_append, List.length_cons]
    omega
  · intro x hx
    rcases List.mem_append.1 hx with hx | hx
    · have hx' : x ∈ k1 ++ c :: k2 := by simp [hx]
      have hs : ∀ y ∈ x.foot, m'.nodes y = m.nodes y := by
        intro y hy
        have hy' : y ∈ k1.flatMap (·.foot) := List.mem_flatMap.2 ⟨x, hx, hy⟩
        refine hsame y (fun q => ?_) (hb y (by simp only [List.mem_cons, List.mem_append]; exact .inr (.inl hy')))
        exact n6 y hy' y (by simp [q]) rfl
      refine ⟨(hk x hx').1.agree hs, ?_⟩
      obtain ⟨n, g1, g2⟩ := (hk x hx').2
      exact ⟨n, by rw [hs _ (hk x hx').1.mem, g1], g2⟩
    · rcases List.mem_cons.1 hx with rfl | hx
      · exact ⟨hr, h5⟩
      · have hx' : x ∈ k1 ++ c :: k2 := by simp [hx]
        have hs : ∀ y ∈ x.foot, m'.nodes y = m.nodes y := by
          intro y hy
          have hy' : y ∈ k2.flatMap (·.foot) := List.mem_flatMap.2 ⟨x, hx, hy⟩
          refine hsame y (fun q => ?_) (hb y (by simp only [List.mem_cons, List.mem_append]; exact .inr (.inr (.inr hy'))))
          exact n5 y q y hy' rfl
        refine ⟨(hk x hx').1.agree hs, ?_⟩
        obtain ⟨n, g1, g2⟩ := (hk x hx').2
        exact ⟨n, by rw [hs _ (hk x hx').1.mem, g1], g2⟩
  · rw [inorder_split _ _ _ _ _ hl1]
  · simp
  · have := hg.frame (a :: k1.flatMap (·.foot)) (k2.flatMap (·.foot))
    simpa using this

/-! ### replacing a value -/

theorem insertIdx_length {α : Type} (x : α) : ∀ (a b : List α), (a ++ b).insertIdx a.length x = a ++ x :: b
  | [], b => by simp
  | y :: a, b => by simp [insertIdx_length x a b]

theorem save_kids {m : Memory} {h a : Nat} {n : Node} {kids : List Kid} (hn : (a :: kids.flatMap (·.foot)).Nodup)
    (hk : ∀ c ∈ kids, Rep m h c.addr c.items c.foot ∧ SizeAt m c.addr (5 ≤ ·)) :
    ∀ c ∈ kids, Rep (m.save a n) h c.addr c.items c.foot ∧ SizeAt (m.save a n) c.addr (5 ≤ ·) := by
  intro c hc
  rw [List.nodup_cons] at hn
  have hs : ∀ y ∈ c.foot, (m.save a n).nodes y = m.nodes y := by
    intro y hy
    refine save_other _ _ fun e => hn.1 ?_
    subst e
    exact List.mem_flatMap.2 ⟨c, hc, hy⟩
  refine ⟨(hk c hc).1.agree hs, ?_⟩
  obtain ⟨x, g1, g2⟩ := (hk c hc).2
  exact ⟨x, by rw [hs _ (hk c hc).1.mem, g1], g2⟩

theorem save_grown {m : Memory} {h a : Nat} {l : List Item} {F : List Nat} (hr : Rep m h a l F) (n : Node) : Grown m (m.save a n) F F :=
  ⟨0, rfl, by simp, rfl, fun x hx _ => save_other _ _ (fun e => hx (e ▸ hr.mem))⟩

theorem Rep.update {m : Memory} {h a : Nat} {l : List Item} {F : List Nat} {n : Node} {k v old : Bytes} {e1 e2 : List Item}
    (hr : Rep m h a l F) (hn : F.Nodup) (hnode : m.nodes a = some n) (he : n.entries = e1 ++ (k, old) :: e2) :
    ∃ m' l', updateValue m a n e1.length v = some (m', some old) ∧ Rep m' h a l' F ∧ Grown m m' F F ∧ Put k v l l' (some old) ∧
      SizeAt m' a (· = n.entries.length) := by
  have hu : updateValue m a n e1.length v = some (m.save a ⟨e1 ++ (k, v) :: e2, n.children⟩, some old) := by
    have : n.entries[e1.length]? = some (k, old) := by rw [he]; simp
    rw [updateValue, this]
    simp [he]
  have hz : SizeAt (m.save a ⟨e1 ++ (k, v) :: e2, n.children⟩) a (· = n.entries.length) := ⟨_, save_same _ _ _, by simp [he]⟩
  cases h with
  | zero =>
    obtain ⟨h1, h2, h3⟩ := hr
    rw [hnode] at h1
    cases h1
    simp only at he
    refine ⟨_, e1 ++ (k, v) :: e2, hu, ⟨save_same _ _ _, h2, ?_⟩, save_grown (h := 0) (l := l) ⟨hnode, h2, h3⟩ _, ?_, hz⟩
    · rw [he] at h3
      simpa using h3
    · rw [he]
      exact .replace _ _ _
  | succ h =>
    have hr' := hr
    obtain ⟨es, kids, h1, h2, h3, h4, h5, h6⟩ := hr
    rw [hnode] at h1
    cases h1
    simp only at he
    subst he
    have h2' : kids.length = (e1 ++ (k, old) :: e2).length + 1 := h2
    obtain ⟨k1, c, k2, rfl, l1, l2⟩ := split_kids h2'
    cases k2 with
    | nil => exact nomatch l2
    | cons d k2 =>
      refine ⟨_, inorder (k1 ++ c :: d :: k2) (e1 ++ (k, v) :: e2), hu, ⟨_, _, save_same _ _ _, ?_, ?_, ?_, rfl, h6⟩, save_grown hr' _, ?_, hz⟩
      · simpa using h2
      · simpa using h3
      · rw [h6] at hn
        exact save_kids hn h4
      · rw [h5, inorder_split _ _ _ _ _ l1, inorder_split _ _ _ _ _ l1, after_cons, after_cons]
        exact .replace _ _ _

/-! ### cutting a full child in two -/

theorem split_at {α : Type} {l : List α} {n : Nat} (h : n < l.length) : ∃ a x b, l = a ++ x :: b ∧ a.length = n ∧ l.take n = a ∧ l.drop (n + 1) = b ∧
    l[n]? = some x := by
  refine ⟨l.take n, l[n], l.drop (n + 1), ?_, ?_, rfl, rfl, ?_⟩
  · rw [List.getElem_cons_drop, List.take_append_drop]
  · rw [List.length_take]; omega
  · rw [List.getElem?_eq_getElem h]

theorem Rep.split {m : Memory} {h a : Nat} {e1 e2 : List Item} {k1 k2 : List Kid} {c : Kid} {full : Node}
    (hl1 : k1.length = e1.length) (hl2 : k2.length = e2.length) (hsz : (e1 ++ e2).length < 11)
    (hk : ∀ x ∈ k1 ++ c :: k2, Rep m h x.addr x.items x.foot ∧ SizeAt m x.addr (5 ≤ ·))
    (hn : (a :: (k1 ++ c :: k2).flatMap (·.foot)).Nodup) (hb : ∀ x ∈ a :: (k1 ++ c :: k2).flatMap (·.foot), x < m.next)
    (hc : m.nodes c.addr = some full) (hf : full.entries.length = 11) :
    ∃ m' med cl cr, splitChild m a ⟨e1 ++ e2, (k1 ++ c :: k2).map (·.addr)⟩ e1.length =
        some (m', ⟨e1 ++ med :: e2, (k1 ++ cl :: cr :: k2).map (·.addr)⟩) ∧
      m'.nodes a = some ⟨e1 ++ med :: e2, (k1 ++ cl :: cr :: k2).map (·.addr)⟩ ∧
      (∀ x ∈ k1 ++ cl :: cr :: k2, Rep m' h x.addr x.items x.foot ∧ SizeAt m' x.addr (5 ≤ ·)) ∧
      SizeAt m' cl.addr (· = 5) ∧ SizeAt m' cr.addr (· = 5) ∧ c.items = cl.items ++ med :: cr.items ∧ med ∈ full.entries ∧
      Grown m m' (a :: (k1 ++ c :: k2).flatMap (·.foot)) (a :: (k1 ++ cl :: cr :: k2).flatMap (·.foot)) := by
  obtain ⟨C, med, D, hE, hC, ht, hd, hmed⟩ := split_at (l := full.entries) (n := 5) (by omega)
  have hD : D.length = 5 := by
    have := congrArg List.length hE
    simp only [List.length_append, List.length_cons] at this
    omega
  have hcm : c ∈ k1 ++ c :: k2 := by simp
  have hrc := (hk c hcm).1
  -- addresses
  have hnext : ∀ x ∈ a :: (k1 ++ c :: k2).flatMap (·.foot), x ≠ m.next := fun x hx e => by
    have := hb x hx
    omega
  have hfoot : ∀ y ∈ c.foot, y ∈ (k1 ++ c :: k2).flatMap (·.foot) := fun y hy => List.mem_flatMap.2 ⟨c, hcm, hy⟩
  have hca : c.addr ≠ a := by
    intro e
    rw [List.nodup_cons] at hn
    exact hn.1 (e ▸ hfoot _ hrc.mem)
  have hcn : c.addr ≠ m.next := hnext _ (List.mem_cons_of_mem _ (hfoot _ hrc.mem))
  have han : a ≠ m.next := hnext _ (List.mem_cons_self ..)
  -- the memory afterwards
  let sib : Node := ⟨D, full.children.drop 6⟩
  let left : Node := ⟨C, full.children.take 6⟩
  have hm : ∀ n : Node, ∃ m' : Memory, m' = ((({ m with next := m.next + 1 } : Memory).save c.addr left).save m.next sib).save a n := fun n => ⟨_, rfl⟩
  obtain ⟨m', hm'⟩ := hm ⟨e1 ++ med :: e2, (k1.map (·.addr)) ++ c.addr :: m.next :: k2.map (·.addr)⟩
  have hma : m'.nodes a = some ⟨e1 ++ med :: e2, (k1.map (·.addr)) ++ c.addr :: m.next :: k2.map (·.addr)⟩ := by rw [hm']; exact save_same _ _ _
  have hms : m'.nodes m.next = some sib := by
    rw [hm', save_other _ _ (Ne.symm han)]; exact save_same _ _ _
  have hmc : m'.nodes c.addr = some left := by
    rw [hm', save_other _ _ hca, save_other _ _ hcn]; exact save_same _ _ _
  have hmo : ∀ x, x ≠ a → x ≠ m.next → x ≠ c.addr → m'.nodes x = m.nodes x := by
    intro x h1 h2 h3
    rw [hm', save_other _ _ h1, save_other _ _ h2, save_other _ _ h3]
  have hmn : m'.next = m.next + 1 := by rw [hm']; rfl
  have hmh : m'.header = m.header := by rw [hm']; rfl
  have hsplit : splitChild m a ⟨e1 ++ e2, (k1 ++ c :: k2).map (·.addr)⟩ e1.length =
      some (m', ⟨e1 ++ med :: e2, (k1.map (·.addr)) ++ c.addr :: m.next :: k2.map (·.addr)⟩) := by
    have g1 : (Node.mk (e1 ++ e2) ((k1 ++ c :: k2).map (·.addr))).isFull = false := by
      simp only [Node.isFull, capacity, minDegree]
      exact decide_eq_false (by omega)
    have g2 : ((k1 ++ c :: k2).map (·.addr))[e1.length]? = some c.addr := by
      rw [← hl1]; simp
    have g3 : full.isFull = true := by
      simp only [Node.isFull, capacity, minDegree]
      exact decide_eq_true (by omega)
    have g4 : (e1 ++ e2).insertIdx e1.length med = e1 ++ med :: e2 := insertIdx_length med e1 e2
    have g5 : ((k1 ++ c :: k2).map (·.addr)).insertIdx (e1.length + 1) m.next = (k1.map (·.addr)) ++ c.addr :: m.next :: k2.map (·.addr) := by
      have := insertIdx_length m.next (k1.map (·.addr) ++ [c.addr]) (k2.map (·.addr))
      rw [List.length_append, List.length_map, hl1] at this
      simpa using this
    rw [splitChild, g1]
    simp only [Bool.false_eq_true, if_false, g2, hc, g3, Bool.not_true, minDegree, hmed, Memory.allocate, g4, g5]
    rw [hm']
    simp only [left, sib, ht, hd]
  -- the parts
  have key : ∃ fl fr il ir, Rep m' h c.addr il fl ∧ Rep m' h m.next ir fr ∧ c.items = il ++ med :: ir ∧
      (fl ++ fr).Perm (c.foot ++ [m.next]) := by
    cases h with
    | zero =>
      obtain ⟨h1, h2, h3⟩ := hrc
      rw [hc] at h1
      cases h1
      refine ⟨[c.addr], [m.next], C, D, ⟨?_, rfl, by omega⟩, ⟨?_, rfl, by omega⟩, hE, ?_⟩
      · rw [hmc]; rfl
      · rw [hms]; rfl
      · rw [h2]
    | succ h =>
      obtain ⟨es, kids, h1, h2, h3, h4, h5, h6⟩ := hrc
      rw [hc] at h1
      cases h1
      simp only at hE hf h2
      have hlen : kids.length = 12 := by omega
      have hkid : ∀ x ∈ kids, Rep m' h x.addr x.items x.foot ∧ SizeAt m' x.addr (5 ≤ ·) := by
        intro x hx
        have hx' : ∀ y ∈ x.foot, y ∈ c.foot := by
          intro y hy
          rw [h6]
          exact List.mem_cons_of_mem _ (List.mem_flatMap.2 ⟨x, hx, hy⟩)
        have hs : ∀ y ∈ x.foot, m'.nodes y = m.nodes y := by
          intro y hy
          refine hmo y ?_ (hnext _ (List.mem_cons_of_mem _ (hfoot _ (hx' y hy)))) ?_
          · intro e
            rw [List.nodup_cons] at hn
            exact hn.1 (e ▸ hfoot _ (hx' y hy))
          · intro e
            have hnd : c.foot.Nodup := by
              rw [List.nodup_cons] at hn
              have := hn.2
              simp only [List.flatMap_append, List.flatMap_cons] at this
              rw [List.nodup_append, List.nodup_append] at this
              exact this.2.1.1
            rw [h6, List.nodup_cons] at hnd
            exact hnd.1 (e ▸ List.mem_flatMap.2 ⟨x, hx, hy⟩)
        refine ⟨(h4 x hx).1.agree hs, ?_⟩
        obtain ⟨n, g1, g2⟩ := (h4 x hx).2
        exact ⟨n, by rw [hs _ (h4 x hx).1.mem, g1], g2⟩
      refine ⟨c.addr :: (kids.take 6).flatMap (·.foot), m.next :: (kids.drop 6).flatMap (·.foot), inorder (kids.take 6) C,
        inorder (kids.drop 6) D, ⟨C, kids.take 6, ?_, ?_, by omega, ?_, rfl, rfl⟩, ⟨D, kids.drop 6, ?_, ?_, by omega, ?_, rfl, rfl⟩, ?_, ?_⟩
      · rw [hmc, List.map_take]
      · rw [List.length_take]; omega
      · exact fun x hx => hkid x (List.mem_of_mem_take hx)
      · rw [hms, List.map_drop]
      · rw [List.length_drop]; omega
      · exact fun x hx => hkid x (List.mem_of_mem_drop hx)
      · rw [h5, hE, ← inorder_join _ _ _ _ _ (by rw [List.length_take]; omega) ?_, List.take_append_drop]
        intro e
        have := congrArg List.length e
        rw [List.length_drop] at this
        simp at this
        omega
      · rw [h6]
        have : kids.flatMap (·.foot) = (kids.take 6).flatMap (·.foot) ++ (kids.drop 6).flatMap (·.foot) := by
          rw [← List.flatMap_append, List.take_append_drop]
        rw [this]
        simp only [List.cons_append, List.append_assoc]
        refine List.Perm.cons _ (List.Perm.append_left _ ?_)
        exact (List.perm_append_singleton _ _).symm
  obtain ⟨fl, fr, il, ir, r1, r2, hi, hp⟩ := key
  have hcl : SizeAt m' c.addr (· = 5) := ⟨_, hmc, hC⟩
  have hcr : SizeAt m' m.next (· = 5) := ⟨_, hms, hD⟩
  have h5 : ∀ {x : Nat}, SizeAt m' x (· = 5) → SizeAt m' x (5 ≤ ·) := fun ⟨n, a, b⟩ => ⟨n, a, by omega⟩
  refine ⟨m', med, ⟨c.addr, il, fl⟩, ⟨m.next, ir, fr⟩, ?_, ?_, ?_, hcl, hcr, hi, ?_, ?_⟩
  · rw [hsplit]; simp
  · rw [hma]; simp
  · have others : ∀ x, x ∈ k1 ∨ x ∈ k2 → Rep m' h x.addr x.items x.foot ∧ SizeAt m' x.addr (5 ≤ ·) := by
      intro x hx
      have hx' : x ∈ k1 ++ c :: k2 := by
        rcases hx with hx | hx <;> simp [hx]
      have hdis : c.addr ∉ x.foot := by
        have := hn
        rw [List.nodup_cons] at this
        have := this.2
        simp only [List.flatMap_append, List.flatMap_cons] at this
        rw [List.nodup_append, List.nodup_append] at this
        obtain ⟨_, ⟨_, _, n5⟩, n6⟩ := this
        intro hy
        rcases hx with hx | hx
        · exact n6 _ (List.mem_flatMap.2 ⟨x, hx, hy⟩) c.addr (by simp [hrc.mem]) rfl
        · exact n5 c.addr hrc.mem _ (List.mem_flatMap.2 ⟨x, hx, hy⟩) rfl
      have hs : ∀ y ∈ x.foot, m'.nodes y = m.nodes y := by
        intro y hy
        have hy' : y ∈ (k1 ++ c :: k2).flatMap (·.foot) := List.mem_flatMap.2 ⟨x, hx', hy⟩
        refine hmo y ?_ (hnext _ (List.mem_cons_of_mem _ hy')) (fun e => hdis (e ▸ hy))
        intro e
        rw [List.nodup_cons] at hn
        exact hn.1 (e ▸ hy')
      refine ⟨(hk x hx').1.agree hs, ?_⟩
      obtain ⟨n, g1, g2⟩ := (hk x hx').2
      exact ⟨n, by rw [hs _ (hk x hx').1.mem, g1], g2⟩
    intro x hx
    rcases List.mem_append.1 hx with hx | hx
    · exact others x (.inl hx)
    · rcases List.mem_cons.1 hx with rfl | hx
      · exact ⟨r1, h5 hcl⟩
      · rcases List.mem_cons.1 hx with rfl | hx
        · exact ⟨r2, h5 hcr⟩
        · exact others x (.inr hx)
  · rw [hE]; simp
  · refine ⟨1, hmn, ?_, hmh, ?_⟩
    · simp only [List.flatMap_append, List.flatMap_cons, List.range'_one, List.cons_append, List.append_assoc]
      refine List.Perm.cons _ (List.Perm.append_left _ ?_)
      rw [← List.append_assoc]
      refine (hp.append_right _).trans ?_
      rw [List.append_assoc]
      exact List.Perm.append_left _ (List.perm_append_comm (l₁ := [m.next]))
    · intro x hx hlt
      refine hmo x (fun e => hx (by simp [e])) (by omega) fun e => hx ?_
      rw [e]
      exact List.mem_cons_of_mem _ (hfoot _ hrc.mem)

end Siwe.StableBTree
