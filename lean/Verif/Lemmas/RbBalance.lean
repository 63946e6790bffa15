import Verif.Spec.SigMap
/- Left-leaning red-black invariants and the effect of the local operations. -/
namespace Siwe.RbTree
variable {K V : Type}

/-- Black height `n`, no red right child, no two red links in a row. -/
def Inv : RbTree K V → Nat → Prop
  | nil, n => n = 0
  | node .red l _ _ r, n => l.isRed = false ∧ r.isRed = false ∧ Inv l n ∧ Inv r n
  | node .black _ _ _ _, 0 => False
  | node .black l _ _ r, n + 1 => r.isRed = false ∧ Inv l n ∧ Inv r n

/-- As `Inv` with a red root, but its left child may be red too. -/
def RInv (t : RbTree K V) (n : Nat) : Prop :=
  ∃ l k v r, t = node .red l k v r ∧ Inv l n ∧ Inv r n ∧ r.isRed = false

@[simp] theorem toList_nil : (nil : RbTree K V).toList = [] := rfl
@[simp] theorem toList_node (c : Color) (l : RbTree K V) (k : K) (v : V) (r : RbTree K V) :
    (node c l k v r).toList = l.toList ++ (k, v) :: r.toList := rfl
@[simp] theorem isRed_red (l : RbTree K V) (k : K) (v : V) (r : RbTree K V) : (node .red l k v r).isRed = true := rfl
@[simp] theorem isRed_black (l : RbTree K V) (k : K) (v : V) (r : RbTree K V) :
    (node .black l k v r).isRed = false := rfl
@[simp] theorem isRed_nil : (nil : RbTree K V).isRed = false := rfl

theorem isRed_iff {t : RbTree K V} : t.isRed = true ↔ ∃ l k v r, t = node .red l k v r := by
  cases t with
  | nil => simp
  | node c l k v r => cases c <;> simp

theorem size_toList (t : RbTree K V) : t.size = t.toList.length := by
  induction t with
  | nil => rfl
  | node c l k v r ih1 ih2 => simp [size, ih1, ih2]; omega

@[simp] theorem toList_setColor (c : Color) (t : RbTree K V) : (setColor c t).toList = t.toList := by
  cases t <;> rfl

@[simp] theorem toList_rotateLeft (t : RbTree K V) : (rotateLeft t).toList = t.toList := by
  unfold rotateLeft; split <;> simp

@[simp] theorem toList_rotateRight (t : RbTree K V) : (rotateRight t).toList = t.toList := by
  unfold rotateRight; split <;> simp

theorem toList_flipColors {t t' : RbTree K V} (h : flipColors t = some t') : t'.toList = t.toList := by
  unfold flipColors at h; split at h <;> simp at h; subst h; simp

@[simp] theorem toList_balance (t : RbTree K V) : (balance t).toList = t.toList := by
  have h1 : ∀ t : RbTree K V, (balance1 t).toList = t.toList := by
    intro t; unfold balance1; split
    · split <;> simp
    · rfl
  have h2 : ∀ t : RbTree K V, (balance2 t).toList = t.toList := by
    intro t; unfold balance2; split
    · split <;> simp
    · rfl
  have h3 : ∀ t : RbTree K V, (balance3 t).toList = t.toList := by
    intro t; unfold balance3; split <;> simp
  rw [balance, h3, h2, h1]

/-- `balance` of a red node with at most one red child. -/
theorem balance_red {l r : RbTree K V} {k : K} {v : V} {n : Nat} (hl : Inv l n) (hr : Inv r n)
    (h : ¬(l.isRed = true ∧ r.isRed = true)) : RInv (balance (node .red l k v r)) n := by
  cases l with
  | nil =>
    cases r with
    | nil => exact ⟨_, _, _, _, rfl, hl, hr, rfl⟩
    | node c rl rk rv rr =>
      cases c with
      | black => exact ⟨_, _, _, _, rfl, hl, hr, rfl⟩
      | red =>
        have h1 := hr.1; have h2 := hr.2.1
        refine ⟨node .red nil k v rl, rk, rv, rr, ?_, ⟨rfl, h1, hl, hr.2.2.1⟩, hr.2.2.2, h2⟩
        cases rr with
        | nil => rfl
        | node c _ _ _ _ => cases c <;> first | rfl | simp at h2
  | node c ll lk lv lr =>
    cases c with
    | black =>
      cases r with
      | nil => exact ⟨_, _, _, _, rfl, hl, hr, rfl⟩
      | node c rl rk rv rr =>
        cases c with
        | black => exact ⟨_, _, _, _, rfl, hl, hr, rfl⟩
        | red =>
          have h1 := hr.1; have h2 := hr.2.1
          refine ⟨node .red (node .black ll lk lv lr) k v rl, rk, rv, rr, ?_, ⟨rfl, h1, hl, hr.2.2.1⟩, hr.2.2.2, h2⟩
          cases rr with
          | nil => rfl
          | node c _ _ _ _ => cases c <;> first | rfl | simp at h2
    | red =>
      have h1 := hl.1
      have hrr : r.isRed = false := by simpa using h
      refine ⟨node .red ll lk lv lr, k, v, r, ?_, hl, hr, hrr⟩
      have e1 : balance1 (node .red (node .red ll lk lv lr) k v r) = node .red (node .red ll lk lv lr) k v r := by
        simp [balance1]
      have e2 : balance2 (node .red (node .red ll lk lv lr) k v r) = node .red (node .red ll lk lv lr) k v r := by
        simp [balance2, h1]
      rw [balance, e1, e2]
      cases r with
      | nil => rfl
      | node c _ _ _ _ => cases c <;> first | rfl | simp at hrr

/-- `balance` of a red node with black children changes nothing. -/
theorem balance_id {c : Color} {l r : RbTree K V} {k : K} {v : V} (hl : l.isRed = false) (hr : r.isRed = false) :
    balance (node c l k v r) = node c l k v r := by
  have e1 : balance1 (node c l k v r) = node c l k v r := by simp [balance1, hr]
  rw [balance, e1]
  cases l with
  | nil => cases r <;> rfl
  | node c' _ _ _ _ => cases c' with
    | red => simp at hl
    | black => cases r <;> rfl

theorem inv_blacken {l r : RbTree K V} {k : K} {v : V} {n : Nat} (h : Inv (node .red l k v r) n) :
    Inv (node .black l k v r) (n + 1) := ⟨h.2.1, h.2.2⟩

/-- `balance` of a black node whose children satisfy the invariant. -/
theorem balance_black {l r : RbTree K V} {k : K} {v : V} {n : Nat} (hl : Inv l n) (hr : Inv r n) :
    Inv (balance (node .black l k v r)) (n + 1) ∧
      (¬(l.isRed = true ∧ r.isRed = true) → (balance (node .black l k v r)).isRed = false) := by
  by_cases hrr : r.isRed = true
  · obtain ⟨rl, rk, rv, rr, rfl⟩ := isRed_iff.mp hrr
    by_cases hlr : l.isRed = true
    · obtain ⟨ll, lk, lv, lr, rfl⟩ := isRed_iff.mp hlr
      have h1 := hl.1
      have e : balance (node .black (node .red ll lk lv lr) k v (node .red rl rk rv rr)) =
          node .red (node .black ll lk lv lr) k v (node .black rl rk rv rr) := by
        simp [balance, balance1, balance2, h1, balance3, Color.flip]
      rw [e]
      exact ⟨⟨rfl, rfl, inv_blacken hl, inv_blacken hr⟩, by simp⟩
    · have hlr : l.isRed = false := by simpa using hlr
      have h1 := hr.1; have h2 := hr.2.1
      have e : balance (node .black l k v (node .red rl rk rv rr)) =
          node .black (node .red l k v rl) rk rv rr := by
        simp only [balance, balance1, isRed_red, hlr, Bool.not_false, Bool.and_self, if_true, rotateLeft, balance2,
          Bool.false_eq_true, if_false]
        cases rr with
        | nil => rfl
        | node c _ _ _ _ => cases c <;> first | rfl | simp at h2
      rw [e]
      exact ⟨⟨h2, ⟨hlr, h1, hl, hr.2.2.1⟩, hr.2.2.2⟩, by simp⟩
  · have hrr : r.isRed = false := by simpa using hrr
    by_cases hlr : l.isRed = true
    · obtain ⟨ll, lk, lv, lr, rfl⟩ := isRed_iff.mp hlr
      have h1 := hl.1
      have e : balance (node .black (node .red ll lk lv lr) k v r) = node .black (node .red ll lk lv lr) k v r := by
        simp only [balance, balance1, hrr, Bool.false_and, Bool.false_eq_true, if_false, balance2, h1]
        cases r with
        | nil => rfl
        | node c _ _ _ _ => cases c <;> first | rfl | simp at hrr
      rw [e]
      exact ⟨⟨hrr, hl, hr⟩, by simp⟩
    · have hlr : l.isRed = false := by simpa using hlr
      rw [balance_id hlr hrr]
      exact ⟨⟨hrr, hl, hr⟩, by simp⟩

/-- `balance` of a black node whose left child is red with a possibly red left child. -/
theorem balance_black_r {l r : RbTree K V} {k : K} {v : V} {n : Nat} (hl : RInv l n) (hr : Inv r n)
    (hrr : r.isRed = false) : Inv (balance (node .black l k v r)) (n + 1) := by
  obtain ⟨ll, lk, lv, lr, rfl, h1, h2, h3⟩ := hl
  by_cases hll : ll.isRed = true
  · obtain ⟨a, b, c, d, rfl⟩ := isRed_iff.mp hll
    have e : balance (node .black (node .red (node .red a b c d) lk lv lr) k v r) =
        node .red (node .black a b c d) lk lv (node .black lr k v r) := by
      simp [balance, balance1, balance2, hrr, rotateRight, balance3, Color.flip]
    rw [e]
    exact ⟨rfl, rfl, inv_blacken h1, ⟨hrr, h2, hr⟩⟩
  · have hll : ll.isRed = false := by simpa using hll
    exact (balance_black (l := node .red ll lk lv lr) ⟨hll, h3, h1, h2⟩ hr).1

end Siwe.RbTree
