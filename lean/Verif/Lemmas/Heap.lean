import Verif.Model.BinHeap
/- The binary heap: `push` and `pop` keep the multiset of entries and put an earliest expiry first. -/
namespace Siwe

/-- expiry in slot `i` (0 outside the array; only used in bounds) -/
def slot (d : List SigExpiration) (i : Nat) : Nat :=
  match d[i]? with
  | some e => e.expiresAt.toNat
  | none => 0

/-- Every entry expires no earlier than its parent. -/
def HeapOk (d : List SigExpiration) : Prop :=
  ∀ i, 0 < i → i < d.length → slot d ((i - 1) / 2) ≤ slot d i

theorem slot_eq {d : List SigExpiration} {i : Nat} {e : SigExpiration} (h : d[i]? = some e) :
    slot d i = e.expiresAt.toNat := by simp [slot, h]

theorem swapAt_eq {d : List SigExpiration} {i j : Nat} (hi : i < d.length) (hj : j < d.length) :
    swapAt d i j = (d.set i d[j]).set j d[i] := by
  simp [swapAt, hi, hj]

theorem swapAt_length (d : List SigExpiration) (i j : Nat) : (swapAt d i j).length = d.length := by
  unfold swapAt; split <;> simp

theorem swapAt_perm (d : List SigExpiration) (i j : Nat) : (swapAt d i j).Perm d := by
  by_cases hi : i < d.length
  · by_cases hj : j < d.length
    · rw [swapAt_eq hi hj]; exact List.set_set_perm hi hj
    · simp [swapAt, hj]
  · simp [swapAt, hi]

theorem slot_swapAt {d : List SigExpiration} {i j : Nat} (hi : i < d.length) (hj : j < d.length) (k : Nat) :
    slot (swapAt d i j) k = if k = j then slot d i else if k = i then slot d j else slot d k := by
  rw [swapAt_eq hi hj]
  unfold slot
  rw [List.getElem?_set, List.getElem?_set]
  by_cases h1 : k = j
  · subst h1; simp [hj, hi]
  · by_cases h2 : k = i
    · subst h2; simp [h1, Ne.symm h1, hi, hj]
    · simp [h1, h2, Ne.symm h1, Ne.symm h2]

theorem siftUp_perm (n : Nat) (d : List SigExpiration) (pos : Nat) : (siftUp n d pos).Perm d := by
  induction n generalizing d pos with
  | zero => exact .refl _
  | succ n ih =>
    rw [siftUp]
    split
    · exact .refl _
    · simp only
      split
      · split
        · exact .refl _
        · exact (ih _ _).trans (swapAt_perm _ _ _)
      · exact .refl _

/-- The heap order holds except possibly between `pos` and its parent. -/
def UpOk (d : List SigExpiration) (pos : Nat) : Prop :=
  (∀ i, 0 < i → i < d.length → i ≠ pos → slot d ((i - 1) / 2) ≤ slot d i) ∧
    (0 < pos → ∀ i, 0 < i → i < d.length → (i - 1) / 2 = pos → slot d ((pos - 1) / 2) ≤ slot d i)

theorem siftUp_ok (n : Nat) (d : List SigExpiration) (pos : Nat) (hn : pos ≤ n) (hp : pos < d.length)
    (h : UpOk d pos) : HeapOk (siftUp n d pos) := by
  induction n generalizing d pos with
  | zero =>
    intro i h0 hi
    exact h.1 i h0 hi (by omega)
  | succ n ih =>
    rw [siftUp]
    by_cases h0 : pos = 0
    · rw [if_pos h0]
      intro i hi hl
      exact h.1 i hi hl (by omega)
    · rw [if_neg h0]
      have hpar : (pos - 1) / 2 < d.length := by omega
      have e1 : d[pos]? = some d[pos] := by simp
      have e2 : d[(pos - 1) / 2]? = some d[(pos - 1) / 2] := by simp
      have s1 := slot_eq e1
      have s2 := slot_eq e2
      simp only [e1, e2]
      split
      · next hle =>
        simp only [SigExpiration.le, decide_eq_true_eq, UInt64.le_iff_toNat_le] at hle
        intro i hi hl
        by_cases he : i = pos
        · subst he; omega
        · exact h.1 i hi hl he
      · next hle =>
        simp only [SigExpiration.le, decide_eq_true_eq, UInt64.le_iff_toNat_le] at hle
        have hslot := slot_swapAt hp hpar
        apply ih
        · omega
        · rw [swapAt_length]; exact hpar
        · constructor
          · intro i hi hl hne
            rw [swapAt_length] at hl
            rw [hslot, hslot]
            by_cases he : i = pos
            · subst he
              simp [hne]
              omega
            · rw [if_neg hne, if_neg he]
              by_cases hpe : (i - 1) / 2 = (pos - 1) / 2
              · rw [if_pos hpe]
                have := h.1 i hi hl he
                rw [hpe] at this
                omega
              · rw [if_neg hpe]
                by_cases hpp : (i - 1) / 2 = pos
                · rw [if_pos hpp]
                  exact h.2 (by omega) i hi hl hpp
                · rw [if_neg hpp]
                  exact h.1 i hi hl he
          · intro hpp i hi hl hpi
            rw [swapAt_length] at hl
            rw [hslot, hslot]
            have hb := h.1 ((pos - 1) / 2) hpp hpar (by omega)
            have n1 : ((pos - 1) / 2 - 1) / 2 ≠ (pos - 1) / 2 := by omega
            have n2 : ((pos - 1) / 2 - 1) / 2 ≠ pos := by omega
            have n3 : i ≠ (pos - 1) / 2 := by omega
            rw [if_neg n1, if_neg n2, if_neg n3]
            by_cases he : i = pos
            · rw [if_pos he]; exact hb
            · rw [if_neg he]
              have := h.1 i hi hl he
              rw [hpi] at this
              omega

theorem heapPush_perm (d : List SigExpiration) (e : SigExpiration) : (heapPush d e).Perm (e :: d) :=
  (siftUp_perm _ _ _).trans (List.perm_append_singleton e d)

theorem slot_append_left {d d' : List SigExpiration} {i : Nat} (h : i < d.length) : slot (d ++ d') i = slot d i := by
  simp [slot, List.getElem?_append_left h]

theorem heapPush_ok {d : List SigExpiration} (h : HeapOk d) (e : SigExpiration) : HeapOk (heapPush d e) := by
  apply siftUp_ok
  · exact Nat.le_refl _
  · simp
  · constructor
    · intro i h0 hl hne
      have hl' : i < d.length := by simp at hl; omega
      rw [slot_append_left hl', slot_append_left (by omega)]
      exact h i h0 hl'
    · intro h0 i hi hl hp
      simp at hl
      omega

theorem descend_perm (n : Nat) (d : List SigExpiration) (pos : Nat) : (descend n d pos).1.Perm d := by
  induction n generalizing d pos with
  | zero => exact .refl _
  | succ n ih =>
    rw [descend]
    simp only
    split
    · split
      · exact (ih _ _).trans (swapAt_perm _ _ _)
      · exact .refl _
    · split
      · exact swapAt_perm _ _ _
      · exact .refl _

/-- The heap order holds except between `pos` and its neighbours. -/
def DownOk (d : List SigExpiration) (pos : Nat) : Prop :=
  (∀ i, 0 < i → i < d.length → i ≠ pos → (i - 1) / 2 ≠ pos → slot d ((i - 1) / 2) ≤ slot d i) ∧
    (0 < pos → ∀ i, 0 < i → i < d.length → (i - 1) / 2 = pos → slot d ((pos - 1) / 2) ≤ slot d i)

theorem downOk_step {d : List SigExpiration} {pos c : Nat} (h : DownOk d pos) (hp : pos < d.length)
    (hc : c < d.length) (h0 : 0 < c) (hpc : (c - 1) / 2 = pos)
    (hmin : ∀ i, 0 < i → i < d.length → (i - 1) / 2 = pos → slot d c ≤ slot d i) : DownOk (swapAt d pos c) c := by
  have hslot := slot_swapAt hp hc
  constructor
  · intro i hi hl hne hpne
    rw [swapAt_length] at hl
    rw [hslot, hslot, if_neg hne, if_neg hpne]
    by_cases hip : i = pos
    · rw [if_pos hip, if_neg (by omega)]
      subst hip
      exact h.2 hi c h0 hc hpc
    · rw [if_neg hip]
      by_cases hpp : (i - 1) / 2 = pos
      · rw [if_pos hpp]; exact hmin i hi hl hpp
      · rw [if_neg hpp]; exact h.1 i hi hl hip hpp
  · intro _ i hi hl hpi
    rw [swapAt_length] at hl
    rw [hslot, hslot, if_neg (by omega), if_pos hpc, if_neg (by omega), if_neg (by omega)]
    have := h.1 i hi hl (by omega) (by omega)
    rw [hpi] at this
    exact this

theorem descend_ok (n : Nat) (d : List SigExpiration) (pos : Nat) (hn : d.length ≤ n + pos) (hp : pos < d.length)
    (h : DownOk d pos) : (descend n d pos).2 < (descend n d pos).1.length ∧
      UpOk (descend n d pos).1 (descend n d pos).2 := by
  induction n generalizing d pos with
  | zero => omega
  | succ n ih =>
    have leaf : ∀ (d : List SigExpiration) (pos : Nat), DownOk d pos → d.length ≤ 2 * pos + 1 → UpOk d pos := by
      intro d pos h hl
      exact ⟨fun i hi hlt hne => h.1 i hi hlt hne (by omega), fun _ i hi hlt hpi => by omega⟩
    rw [descend]
    simp only
    by_cases hc : 2 * pos + 1 ≤ d.length - 2
    · have b1 : 2 * pos + 1 < d.length := by omega
      have b2 : 2 * pos + 1 + 1 < d.length := by omega
      have e1 : d[2 * pos + 1]? = some d[2 * pos + 1] := by simp [b1]
      have e2 : d[2 * pos + 1 + 1]? = some d[2 * pos + 1 + 1] := by simp [b2]
      have s1 := slot_eq e1
      have s2 := slot_eq e2
      rw [if_pos hc]
      simp only [e1, e2]
      by_cases hle : d[2 * pos + 1].le d[2 * pos + 1 + 1] = true
      · simp only [hle, if_true]
        simp only [SigExpiration.le, decide_eq_true_eq, UInt64.le_iff_toNat_le] at hle
        apply ih
        · rw [swapAt_length]; omega
        · rw [swapAt_length]; omega
        · apply downOk_step h hp b2 (by omega) (by omega)
          intro i hi hl hpi
          have : i = 2 * pos + 1 ∨ i = 2 * pos + 1 + 1 := by omega
          rcases this with rfl | rfl <;> omega
      · simp only [hle]
        simp only [SigExpiration.le, decide_eq_true_eq, UInt64.le_iff_toNat_le] at hle
        apply ih
        · rw [swapAt_length]; simp; omega
        · rw [swapAt_length]; simp; omega
        · apply downOk_step h hp b1 (by omega) (by omega)
          intro i hi hl hpi
          have : i = 2 * pos + 1 ∨ i = 2 * pos + 1 + 1 := by omega
          rcases this with rfl | rfl <;> omega
    · rw [if_neg hc]
      by_cases hl : 2 * pos + 1 = d.length - 1
      · by_cases h2 : 2 * pos + 1 < d.length
        · rw [if_pos hl]
          refine ⟨by rw [swapAt_length]; exact h2, leaf _ _ ?_ (by rw [swapAt_length]; omega)⟩
          apply downOk_step h hp h2 (by omega) (by omega)
          intro i hi hlt hpi
          have : i = 2 * pos + 1 := by omega
          subst this; exact Nat.le_refl _
        · omega
      · rw [if_neg hl]
        exact ⟨hp, leaf d pos h (by omega)⟩

theorem siftDownToBottom_perm (d : List SigExpiration) : (siftDownToBottom d).Perm d :=
  (siftUp_perm _ _ _).trans (descend_perm _ _ _)

theorem siftDownToBottom_ok {item : SigExpiration} {rest : List SigExpiration} {top : SigExpiration}
    (h : HeapOk (top :: rest)) : HeapOk (siftDownToBottom (item :: rest)) := by
  have hs : ∀ i, 0 < i → slot (item :: rest) i = slot (top :: rest) i := by
    intro i hi
    cases i with
    | zero => omega
    | succ i => rfl
  have := descend_ok (item :: rest).length (item :: rest) 0 (by omega) (by simp)
    ⟨fun i hi hl hne hp => by rw [hs _ (by omega), hs _ hi]; exact h i hi (by simpa using hl), fun h => by omega⟩
  exact siftUp_ok _ _ _ (Nat.le_refl _) this.1 this.2

theorem heapOk_prefix {d d' : List SigExpiration} (h : HeapOk (d ++ d')) : HeapOk d := by
  intro i hi hl
  have := h i hi (by simp; omega)
  rwa [slot_append_left hl, slot_append_left (by omega)] at this

theorem heapOk_nil : HeapOk [] := fun i _ h => by simp at h

/-- `pop` removes the first entry. -/
theorem heapPop_spec {top : SigExpiration} {rest : List SigExpiration} (h : HeapOk (top :: rest)) :
    ∃ q, heapPop (top :: rest) = some (top, q) ∧ q.Perm rest ∧ HeapOk q := by
  rcases List.eq_nil_or_concat rest with rfl | ⟨init, last, rfl⟩
  · exact ⟨[], rfl, .refl _, heapOk_nil⟩
  · have e1 : (top :: init.concat last).getLast? = some last := by
      rw [List.concat_eq_append, ← List.cons_append, List.getLast?_append]; simp
    have e2 : (top :: init.concat last).dropLast = top :: init := by
      rw [List.concat_eq_append, ← List.cons_append, List.dropLast_concat]
    refine ⟨siftDownToBottom (last :: init), by simp only [heapPop, e1, e2], ?_, ?_⟩
    · rw [List.concat_eq_append]
      exact (siftDownToBottom_perm _).trans (List.perm_append_singleton last init).symm
    · apply siftDownToBottom_ok (top := top)
      rw [List.concat_eq_append, ← List.cons_append] at h
      exact heapOk_prefix h

/-- The first entry expires first. -/
theorem heap_min {top : SigExpiration} {rest : List SigExpiration} (h : HeapOk (top :: rest)) :
    ∀ e ∈ rest, top.expiresAt.toNat ≤ e.expiresAt.toNat := by
  have key : ∀ n i, i ≤ n → i < (top :: rest).length → slot (top :: rest) 0 ≤ slot (top :: rest) i := by
    intro n
    induction n with
    | zero => intro i hi _; have : i = 0 := by omega
              subst this; exact Nat.le_refl _
    | succ n ih =>
      intro i hi hl
      by_cases h0 : i = 0
      · subst h0; exact Nat.le_refl _
      · exact Nat.le_trans (ih ((i - 1) / 2) (by omega) (by omega)) (h i (by omega) hl)
  intro e he
  obtain ⟨i, hi, rfl⟩ := List.mem_iff_getElem.mp he
  have := key (i + 1) (i + 1) (Nat.le_refl _) (by simp; omega)
  simpa [slot, hi] using this

end Siwe
