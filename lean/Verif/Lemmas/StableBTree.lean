import Verif.Spec.StableBTree
/- Lemmas about the B-trees in stable memory. -/
namespace Siwe.StableBTree

/-! ### the order of keys -/

theorem compareBytes_eq : ∀ a b, compareBytes a b = .eq ↔ a = b
  | [], [] => by simp [compareBytes]
  | [], _ :: _ => by simp [compareBytes]
  | _ :: _, [] => by simp [compareBytes]
  | a :: as, b :: bs => by
    rw [compareBytes]
    split
    · rename_i h
      constructor
      · intro e; exact nomatch e
      · intro e; cases e; exact absurd h (UInt8.lt_irrefl _)
    · split
      · rename_i h
        constructor
        · intro e; exact nomatch e
        · intro e; cases e; exact absurd h (UInt8.lt_irrefl _)
      · rename_i h1 h2
        have : a = b := UInt8.le_antisymm (UInt8.not_lt.1 h2) (UInt8.not_lt.1 h1)
        rw [compareBytes_eq as bs, this]
        simp

theorem compareBytes_gt : ∀ a b, compareBytes a b = .gt ↔ compareBytes b a = .lt
  | [], [] => by simp [compareBytes]
  | [], _ :: _ => by simp [compareBytes]
  | _ :: _, [] => by simp [compareBytes]
  | a :: as, b :: bs => by
    rw [compareBytes, compareBytes]
    by_cases h1 : a < b
    · have h2 : ¬b < a := UInt8.not_lt.2 (UInt8.le_of_lt h1)
      simp [h1, h2]
    · by_cases h2 : b < a
      · simp [h1, h2]
      · simp [h1, h2, compareBytes_gt as bs]

/-- The order of keys. -/
def Less (a b : Bytes) : Prop := compareBytes a b = .lt

theorem less_irrefl (a : Bytes) : ¬Less a a := by
  intro h
  have := (compareBytes_eq a a).2 rfl
  rw [Less, this] at h
  exact nomatch h

theorem less_trans : ∀ {a b c : Bytes}, Less a b → Less b c → Less a c
  | [], [], _, h, _ => nomatch h
  | [], _ :: _, [], _, h => nomatch h
  | [], _ :: _, _ :: _, _, _ => rfl
  | _ :: _, [], _, h, _ => nomatch h
  | _ :: _, _ :: _, [], _, h => nomatch h
  | a :: as, b :: bs, c :: cs, h1, h2 => by
    rw [Less, compareBytes] at h1 h2 ⊢
    by_cases hab : a < b
    · by_cases hbc : b < c
      · rw [if_pos (UInt8.lt_trans hab hbc)]
      · rw [if_neg hbc] at h2
        by_cases hcb : c < b
        · rw [if_pos hcb] at h2; exact nomatch h2
        · have : b = c := UInt8.le_antisymm (UInt8.not_lt.1 hcb) (UInt8.not_lt.1 hbc)
          rw [if_pos (this ▸ hab)]
    · rw [if_neg hab] at h1
      by_cases hba : b < a
      · rw [if_pos hba] at h1; exact nomatch h1
      · have e : a = b := UInt8.le_antisymm (UInt8.not_lt.1 hba) (UInt8.not_lt.1 hab)
        subst e
        rw [if_neg (UInt8.lt_irrefl _)] at h1
        by_cases hbc : a < c
        · rw [if_pos hbc]
        · rw [if_neg hbc] at h2 ⊢
          by_cases hcb : c < a
          · rw [if_pos hcb] at h2; exact nomatch h2
          · rw [if_neg hcb] at h2 ⊢
            exact less_trans h1 h2

theorem less_asymm {a b : Bytes} (h1 : Less a b) (h2 : Less b a) : False := less_irrefl a (less_trans h1 h2)

/-- An entry. -/
abbrev Item := Bytes × Bytes

/-- Keys ascend. -/
def Sorted (l : List Item) : Prop := l.Pairwise fun a b => Less a.1 b.1

/-! ### searching a node -/

theorem search_cases (k : Bytes) : ∀ (es : List Item) (i : Nat), Sorted es →
    (∃ a v b, es = a ++ (k, v) :: b ∧ search k es i = .found (i + a.length)) ∨
    (∃ a b, es = a ++ b ∧ (∀ e ∈ a, Less e.1 k) ∧ (∀ e ∈ b, Less k e.1) ∧ search k es i = .absent (i + a.length))
  | [], i, _ => .inr ⟨[], [], rfl, by simp, by simp, by simp [search]⟩
  | (k', v) :: es, i, h => by
    have hs := List.pairwise_cons.1 h
    rw [search]
    cases hc : compareBytes k k' with
    | eq =>
      have := (compareBytes_eq _ _).1 hc
      subst this
      exact .inl ⟨[], v, es, rfl, by simp⟩
    | lt =>
      refine .inr ⟨[], (k', v) :: es, rfl, by simp, ?_, by simp⟩
      intro e he
      rcases List.mem_cons.1 he with rfl | he
      · exact hc
      · exact less_trans hc (hs.1 e he)
    | gt =>
      have hl : Less k' k := (compareBytes_gt _ _).1 hc
      rcases search_cases k es (i + 1) hs.2 with ⟨a, w, b, rfl, h1⟩ | ⟨a, b, rfl, h1, h2, h3⟩
      · refine .inl ⟨(k', v) :: a, w, b, rfl, ?_⟩
        simp only
        rw [h1, List.length_cons]
        congr 1
        omega
      · refine .inr ⟨(k', v) :: a, b, rfl, ?_, h2, ?_⟩
        · intro e he
          rcases List.mem_cons.1 he with rfl | he
          · exact hl
          · exact h1 e he
        · simp only
          rw [h3, List.length_cons]
          congr 1
          omega

theorem search_absent (k : Bytes) : ∀ (a b : List Item) (i : Nat), (∀ e ∈ a, Less e.1 k) → (∀ e ∈ b, Less k e.1) →
    search k (a ++ b) i = .absent (i + a.length)
  | [], [], i, _, _ => rfl
  | [], (k', v) :: b, i, _, h => by
    have : compareBytes k k' = .lt := h (k', v) (by simp)
    simp [search, this]
  | (k', v) :: a, b, i, h1, h2 => by
    have : compareBytes k k' = .gt := (compareBytes_gt _ _).2 (h1 (k', v) (by simp))
    rw [List.cons_append, search, this]
    simp only
    rw [search_absent k a b (i + 1) (fun e he => h1 e (by simp [he])) h2, List.length_cons]
    congr 1
    omega

/-! ### what an insertion does to the entries in order -/

/-- The entries before and after an insertion, and the old value. -/
inductive Put (k v : Bytes) : List Item → List Item → Option Bytes → Prop
  | replace (a b old) : Put k v (a ++ (k, old) :: b) (a ++ (k, v) :: b) (some old)
  | add (a b) : (∀ e ∈ a, Less e.1 k) → (∀ e ∈ b, Less k e.1) → Put k v (a ++ b) (a ++ (k, v) :: b) none

theorem Put.frame {k v : Bytes} {l l' : List Item} {old : Option Bytes} (h : Put k v l l' old) (p s : List Item)
    (hp : ∀ e ∈ p, Less e.1 k) (hs : ∀ e ∈ s, Less k e.1) : Put k v (p ++ l ++ s) (p ++ l' ++ s) old := by
  cases h with
  | replace a b old =>
    have := Put.replace (k := k) (v := v) (p ++ a) (b ++ s) old
    simpa using this
  | add a b h1 h2 =>
    have := Put.add (k := k) (v := v) (p ++ a) (b ++ s) (by
      intro e he
      rcases List.mem_append.1 he with he | he
      · exact hp e he
      · exact h1 e he) (by
      intro e he
      rcases List.mem_append.1 he with he | he
      · exact h2 e he
      · exact hs e he)
    simpa using this

theorem Put.sorted {k v : Bytes} {l l' : List Item} {old : Option Bytes} (h : Put k v l l' old) (hs : Sorted l) : Sorted l' := by
  cases h with
  | replace a b old =>
    rw [Sorted, List.pairwise_append, List.pairwise_cons] at hs ⊢
    refine ⟨hs.1, ⟨hs.2.1.1, hs.2.1.2⟩, fun x hx y hy => ?_⟩
    rcases List.mem_cons.1 hy with rfl | hy
    · exact hs.2.2 x hx (k, old) (by simp)
    · exact hs.2.2 x hx y (by simp [hy])
  | add a b h1 h2 =>
    rw [Sorted, List.pairwise_append] at hs
    rw [Sorted, List.pairwise_append, List.pairwise_cons]
    refine ⟨hs.1, ⟨h2, hs.2.1⟩, fun x hx y hy => ?_⟩
    rcases List.mem_cons.1 hy with rfl | hy
    · exact h1 x hx
    · exact hs.2.2 x hx y hy

/-! ### nodes and their entries in order -/

/-- A child, with the entries below it and the addresses of its nodes. -/
structure Kid where
  addr : Nat
  items : List Item
  foot : List Nat

/-- Children each followed by an entry. -/
def before (kids : List Kid) (es : List Item) : List Item := (kids.zip es).flatMap fun x => x.1.items ++ [x.2]
/-- Entries each followed by a child. -/
def after (es : List Item) (kids : List Kid) : List Item := (es.zip kids).flatMap fun x => x.1 :: x.2.items

/-- The entries at and below a node, in order. -/
def inorder : List Kid → List Item → List Item
  | [], _ => []
  | c :: kids, es => c.items ++ after es kids

theorem inorder_split : ∀ (k1 : List Kid) (c : Kid) (k2 : List Kid) (e1 e2 : List Item), k1.length = e1.length →
    inorder (k1 ++ c :: k2) (e1 ++ e2) = before k1 e1 ++ c.items ++ after e2 k2
  | [], c, k2, [], e2, _ => by simp [inorder, before]
  | [], _, _, _ :: _, _, h => nomatch h
  | _ :: _, _, _, [], _, h => nomatch h
  | d :: k1, c, k2, e :: e1, e2, h => by
    have ih := inorder_split k1 c k2 e1 e2 (by simpa using h)
    have : inorder (d :: k1 ++ c :: k2) (e :: e1 ++ e2) = d.items ++ e :: inorder (k1 ++ c :: k2) (e1 ++ e2) := by
      cases k1 with
      | nil => simp [inorder, after]
      | cons f k1 => simp [inorder, after]
    rw [this, ih]
    simp [before]

/-- The entry size of a node at an address. -/
def SizeAt (m : Memory) (a : Nat) (p : Nat → Prop) : Prop := ∃ n, m.nodes a = some n ∧ p n.entries.length

/-- A tree of this height lies at the address: its entries in order and the addresses of its nodes. -/
def Rep (m : Memory) : Nat → Nat → List Item → List Nat → Prop
  | 0, a, l, F => m.nodes a = some ⟨l, []⟩ ∧ F = [a] ∧ l.length ≤ 11
  | h + 1, a, l, F => ∃ (es : List Item) (kids : List Kid), m.nodes a = some ⟨es, kids.map (·.addr)⟩ ∧ kids.length = es.length + 1 ∧
      es.length ≤ 11 ∧ (∀ c ∈ kids, Rep m h c.addr c.items c.foot ∧ SizeAt m c.addr (5 ≤ ·)) ∧ l = inorder kids es ∧
      F = a :: kids.flatMap (·.foot)

theorem Rep.size {m : Memory} {h : Nat} {a : Nat} {l : List Item} {F : List Nat} (hr : Rep m h a l F) : SizeAt m a (· ≤ 11) := by
  cases h with
  | zero => exact ⟨_, hr.1, hr.2.2⟩
  | succ h => obtain ⟨es, kids, h1, _, h2, _⟩ := hr; exact ⟨_, h1, h2⟩

theorem Rep.mem {m : Memory} {h : Nat} {a : Nat} {l : List Item} {F : List Nat} (hr : Rep m h a l F) : a ∈ F := by
  cases h with
  | zero => rw [hr.2.1]; simp
  | succ h => obtain ⟨es, kids, _, _, _, _, _, rfl⟩ := hr; simp

/-- Only the nodes of the tree matter. -/
theorem Rep.agree {m m' : Memory} : ∀ {h : Nat} {a : Nat} {l : List Item} {F : List Nat}, Rep m h a l F →
    (∀ x ∈ F, m'.nodes x = m.nodes x) → Rep m' h a l F
  | 0, a, l, F, hr, hm => ⟨by rw [hm a (by rw [hr.2.1]; simp), hr.1], hr.2⟩
  | h + 1, a, l, F, hr, hm => by
    obtain ⟨es, kids, h1, h2, h3, h4, h5, rfl⟩ := hr
    refine ⟨es, kids, by rw [hm a (by simp), h1], h2, h3, fun c hc => ?_, h5, rfl⟩
    have hsub : ∀ x ∈ c.foot, m'.nodes x = m.nodes x := fun x hx => hm x (by
      simp only [List.mem_cons, List.mem_flatMap]
      exact .inr ⟨c, hc, hx⟩)
    refine ⟨(h4 c hc).1.agree hsub, ?_⟩
    obtain ⟨n, g1, g2⟩ := (h4 c hc).2
    exact ⟨n, by rw [hsub _ (h4 c hc).1.mem, g1], g2⟩

/-! ### order within a node -/

theorem before_cons (c : Kid) (k1 : List Kid) (e : Item) (e1 : List Item) : before (c :: k1) (e :: e1) = c.items ++ e :: before k1 e1 := by
  simp [before]

theorem after_cons (c : Kid) (k1 : List Kid) (e : Item) (e1 : List Item) : after (e :: e1) (c :: k1) = e :: (c.items ++ after e1 k1) := by
  simp [after]

theorem before_less {k : Bytes} : ∀ (k1 : List Kid) (e1 : List Item), Sorted (before k1 e1) → k1.length = e1.length → (∀ e ∈ e1, Less e.1 k) →
    ∀ x ∈ before k1 e1, Less x.1 k
  | [], _, _, _, _, x, hx => by simp [before] at hx
  | _ :: _, [], _, h, _, _, _ => nomatch h
  | c :: k1, e :: e1, hs, hl, he, x, hx => by
    rw [before_cons] at hs hx
    rw [Sorted, List.pairwise_append, List.pairwise_cons] at hs
    have hk := he e (by simp)
    rcases List.mem_append.1 hx with hx | hx
    · exact less_trans (hs.2.2 x hx e (by simp)) hk
    · rcases List.mem_cons.1 hx with rfl | hx
      · exact hk
      · exact before_less k1 e1 hs.2.1.2 (by simpa using hl) (fun e h => he e (by simp [h])) x hx

theorem after_less {k : Bytes} : ∀ (e2 : List Item) (k2 : List Kid), Sorted (after e2 k2) → k2.length = e2.length → (∀ e ∈ e2, Less k e.1) →
    ∀ x ∈ after e2 k2, Less k x.1
  | [], _, _, _, _, x, hx => by simp [after] at hx
  | _ :: _, [], _, h, _, _, _ => nomatch h
  | e :: e2, c :: k2, hs, hl, he, x, hx => by
    rw [after_cons] at hs hx
    rw [Sorted, List.pairwise_cons, List.pairwise_append] at hs
    have hk := he e (by simp)
    rcases List.mem_cons.1 hx with rfl | hx
    · exact hk
    · rcases List.mem_append.1 hx with hx | hx
      · exact less_trans hk (hs.1 x (by simp [hx]))
      · exact after_less e2 k2 hs.2.2.1 (by simpa using hl) (fun e h => he e (by simp [h])) x hx

theorem sublist_after : ∀ (es : List Item) (kids : List Kid), kids.length = es.length → es.Sublist (after es kids)
  | [], _, _ => List.nil_sublist _
  | _ :: _, [], h => nomatch h
  | e :: es, c :: kids, h => by
    rw [after_cons]
    exact (((sublist_after es kids (by simpa using h)).trans (List.sublist_append_right ..))).cons_cons e

theorem entries_sublist {kids : List Kid} {es : List Item} (h : kids.length = es.length + 1) : es.Sublist (inorder kids es) := by
  cases kids with
  | nil => exact nomatch h
  | cons c kids => exact (sublist_after es kids (by simpa using h)).trans (List.sublist_append_right ..)

theorem inorder_join : ∀ (A B : List Kid) (C D : List Item) (e : Item), A.length = C.length + 1 → B ≠ [] →
    inorder (A ++ B) (C ++ e :: D) = inorder A C ++ e :: inorder B D
  | [], _, _, _, _, h, _ => nomatch h
  | [a], b :: B, [], D, e, _, _ => by simp [inorder, after]
  | [_], [], _, _, _, _, h => absurd rfl h
  | [_], _, _ :: _, _, _, h, _ => nomatch h
  | _ :: _ :: _, _, [], _, _, h, _ => nomatch h
  | a :: a' :: A, B, c :: C, D, e, h, hB => by
    have ih := inorder_join (a' :: A) B C D e (by simpa using h) hB
    have h1 : ∀ (X : List Kid) (Y : List Item), inorder (a :: a' :: X) (c :: Y) = a.items ++ c :: inorder (a' :: X) Y := by
      intro X Y; simp [inorder, after]
    rw [List.cons_append, List.cons_append, List.cons_append, h1, h1, ← List.cons_append, ih]
    simp

theorem split_kids {kids : List Kid} {e1 e2 : List Item} (h : kids.length = (e1 ++ e2).length + 1) :
    ∃ k1 c k2, kids = k1 ++ c :: k2 ∧ k1.length = e1.length ∧ k2.length = e2.length := by
  rw [List.length_append] at h
  have h1 : e1.length < kids.length := by omega
  refine ⟨kids.take e1.length, kids[e1.length], kids.drop (e1.length + 1), ?_, ?_, ?_⟩
  · rw [List.getElem_cons_drop, List.take_append_drop]
  · rw [List.length_take]; omega
  · rw [List.length_drop]; omega

/-! ### growth of the memory -/

/-- The nodes of a tree before and after a change: addresses from the allocator are added; everything else is as it was. -/
def Grown (m m' : Memory) (F F' : List Nat) : Prop :=
  ∃ n, m'.next = m.next + n ∧ F'.Perm (F ++ List.range' m.next n) ∧ m'.header = m.header ∧
    ∀ x, x ∉ F → x < m.next → m'.nodes x = m.nodes x

theorem Grown.refl (m : Memory) (F : List Nat) : Grown m m F F := ⟨0, rfl, by simp, rfl, fun _ _ _ => rfl⟩

theorem Grown.trans {m m1 m2 : Memory} {F F1 F2 : List Nat} (h1 : Grown m m1 F F1) (h2 : Grown m1 m2 F1 F2) : Grown m m2 F F2 := by
  obtain ⟨n1, a1, b1, c1, d1⟩ := h1
  obtain ⟨n2, a2, b2, c2, d2⟩ := h2
  refine ⟨n1 + n2, by omega, ?_, c2.trans c1, fun x hx hl => ?_⟩
  · refine b2.trans ((b1.append_right _).trans ?_)
    rw [List.append_assoc, a1]
    have : List.range' m.next n1 ++ List.range' (m.next + n1) n2 = List.range' m.next (n1 + n2) := by
      rw [← List.range'_append_1]
    rw [this]
  · rw [d2 x ?_ (by omega), d1 x hx hl]
    intro h
    rcases List.mem_append.1 (b1.mem_iff.1 h) with h | h
    · exact hx h
    · rw [List.mem_range'_1] at h
      omega

theorem Grown.frame {m m' : Memory} {F F' : List Nat} (h : Grown m m' F F') (p s : List Nat) : Grown m m' (p ++ F ++ s) (p ++ F' ++ s) := by
  obtain ⟨n, a, b, c, d⟩ := h
  refine ⟨n, a, ?_, c, fun x hx => d x fun h => hx (by simp [h])⟩
  have h1 : (p ++ F' ++ s).Perm (p ++ (F ++ List.range' m.next n) ++ s) := (b.append_left p).append_right s
  refine h1.trans ?_
  rw [List.append_assoc, List.append_assoc, List.append_assoc, List.append_assoc]
  exact (List.perm_append_comm.append_left F).append_left p |>.trans (by rw [])

theorem Grown.ok {m m' : Memory} {F F' : List Nat} (h : Grown m m' F F') (hn : F.Nodup) (hb : ∀ x ∈ F, x < m.next) :
    F'.Nodup ∧ ∀ x ∈ F', x < m'.next := by
  obtain ⟨n, a, b, c, d⟩ := h
  constructor
  · rw [b.nodup_iff, List.nodup_append]
    refine ⟨hn, List.nodup_range', ?_⟩
    intro x hx y hy e
    rw [List.mem_range'_1] at hy
    have := hb x hx
    omega
  · intro x hx
    rcases List.mem_append.1 (b.mem_iff.1 hx) with h | h
    · have := hb x h
      omega
    · rw [List.mem_range'_1] at h
      omega

end Siwe.StableBTree
