import Verif.Spec.Ecdsa
import Mathlib.FieldTheory.Finite.Basic
import Mathlib.GroupTheory.Perm.Cycle.Type
import Mathlib.GroupTheory.OrderOfElement
import Mathlib.Tactic.FieldSimp
import Mathlib.Tactic.LinearCombination
/-
The arithmetic of Model/Secp256k1.lean computes in the group of the curve.
-/
namespace Siwe.Secp
open Siwe.Spec WeierstrassCurve.Affine

/-- The field of the curve. -/
abbrev F := ZMod fieldP

theorem mulP_cast (a b : Nat) : ((mulP a b : Nat) : F) = a * b := by
  simp [mulP, ZMod.natCast_mod]

theorem subP_cast (a b : Nat) (h : b ≤ fieldP) : ((subP a b : Nat) : F) = a - b := by
  rw [subP, ZMod.natCast_mod, Nat.cast_add, Nat.cast_sub h, ZMod.natCast_self]
  ring

theorem fieldP_pos : 0 < fieldP := by decide +kernel

theorem mulP_lt (a b : Nat) : mulP a b < fieldP := Nat.mod_lt _ fieldP_pos
theorem subP_lt (a b : Nat) : subP a b < fieldP := Nat.mod_lt _ fieldP_pos

theorem cast_eq_iff (a b : Nat) (ha : a < fieldP) (hb : b < fieldP) : (a : F) = b ↔ a = b := by
  rw [ZMod.natCast_eq_natCast_iff', Nat.mod_eq_of_lt ha, Nat.mod_eq_of_lt hb]

theorem cast_zero_iff (a : Nat) (ha : a < fieldP) : (a : F) = 0 ↔ a = 0 := by
  rw [← cast_eq_iff a 0 ha fieldP_pos, Nat.cast_zero]

theorem two_ne_zero_F : (2 : F) ≠ 0 := by
  have := (cast_zero_iff 2 (by decide +kernel)).not.2 (by decide)
  exact_mod_cast this

/-- A point in Jacobian coordinates stands for a point of the curve. -/
def Rep (P : Point) (Q : CurvePoint) : Prop :=
  P.z < fieldP ∧
  ((P.z = 0 ∧ Q = 0) ∨
   ∃ (x y : F) (h : secp256k1.Nonsingular x y), P.z ≠ 0 ∧ Q = .some x y h ∧
     (P.x : F) = x * P.z ^ 2 ∧ (P.y : F) = y * P.z ^ 3)

theorem negY_secp (x y : F) : secp256k1.negY x y = -y := by
  simp [negY, secp256k1]

/-- Doubling in affine coordinates. -/
theorem double_some (x y : F) (h : secp256k1.Nonsingular x y) (hy : y ≠ 0) :
    ∃ (x' y' : F) (h' : secp256k1.Nonsingular x' y'), (Point.some x y h : CurvePoint) + .some x y h = .some x' y' h' ∧
      x' = (3 * x ^ 2 / (2 * y)) ^ 2 - 2 * x ∧ y' = 3 * x ^ 2 / (2 * y) * (x - x') - y := by
  have hy' : y ≠ secp256k1.negY x y := by
    rw [negY_secp]
    intro hc
    have : 2 * y = 0 := by linear_combination hc
    rcases mul_eq_zero.1 this with h2 | h2
    · exact two_ne_zero_F h2
    · exact hy h2
  refine ⟨_, _, _, Point.add_self_of_Y_ne hy', ?_, ?_⟩
  · rw [addX, slope_of_Y_ne rfl hy', negY_secp]
    simp only [secp256k1]
    ring_nf
  · rw [addY, negAddY, addX, slope_of_Y_ne rfl hy', negY_secp, negY_secp]
    simp only [secp256k1]
    ring_nf

/-- Addition of different points in affine coordinates. -/
theorem add_some_ne (x y u v : F) (h : secp256k1.Nonsingular x y) (h2 : secp256k1.Nonsingular u v) (hx : x ≠ u) :
    ∃ (x' y' : F) (h' : secp256k1.Nonsingular x' y'), (Point.some x y h : CurvePoint) + .some u v h2 = .some x' y' h' ∧
      x' = ((v - y) / (u - x)) ^ 2 - x - u ∧ y' = (v - y) / (u - x) * (x - x') - y := by
  have e : (y - v) / (x - u) = (v - y) / (u - x) := by
    rw [← neg_sub v y, ← neg_sub u x, neg_div_neg_eq]
  refine ⟨_, _, _, Point.add_of_X_ne hx, ?_, ?_⟩
  · rw [addX, slope_of_X_ne hx, e]
    simp only [secp256k1]
    ring
  · rw [addY, negAddY, addX, slope_of_X_ne hx, negY_secp, e]
    simp only [secp256k1]
    ring

theorem Rep.double {P : Point} {Q : CurvePoint} (h : Rep P Q) : Rep P.double (Q + Q) := by
  obtain ⟨hz, ⟨h0, rfl⟩ | ⟨x, y, hn, h0, rfl, hx, hy⟩⟩ := h
  · refine ⟨mulP_lt _ _, Or.inl ⟨?_, by simp⟩⟩
    simp [Point.double, mkPoint, mulP, h0]
  · refine ⟨mulP_lt _ _, ?_⟩
    have hz' : (P.z : F) ≠ 0 := (cast_zero_iff _ hz).not.2 h0
    have hzz : ((P.double.z : Nat) : F) = 2 * (y * P.z ^ 3 * P.z) := by
      simp only [Point.double, mkPoint, mulP_cast, hy, Nat.cast_ofNat]
    by_cases hy0 : y = 0
    · refine Or.inl ⟨?_, ?_⟩
      · exact (cast_zero_iff _ (mulP_lt _ _)).1 (hzz.trans (by rw [hy0]; ring))
      · exact Point.add_self_of_Y_eq (by rw [negY_secp, hy0, neg_zero])
    · obtain ⟨x', y', h', e, ex, ey⟩ := double_some x y hn hy0
      have h2 := two_ne_zero_F
      refine Or.inr ⟨x', y', h', ?_, e, ?_, ?_⟩
      · intro hc
        have := hzz.symm.trans ((cast_zero_iff _ (mulP_lt _ _)).2 hc)
        simp [h2, hy0, hz'] at this
      · rw [hzz]
        simp only [Point.double, mkPoint, mulP_cast, subP_cast _ _ (le_of_lt (mulP_lt _ _)), hy, hx, Nat.cast_ofNat]
        rw [ex]; field_simp; ring
      · rw [hzz]
        simp only [Point.double, mkPoint, mulP_cast, subP_cast _ _ (le_of_lt (mulP_lt _ _)),
          subP_cast _ _ (le_of_lt (subP_lt _ _)), hy, hx, Nat.cast_ofNat]
        rw [ey, ex]; field_simp; ring

theorem Rep.add {P P' : Point} {Q Q' : CurvePoint} (h : Rep P Q) (h' : Rep P' Q') : Rep (P.add P') (Q + Q') := by
  have hd := h.double
  obtain ⟨hz, ⟨h0, rfl⟩ | ⟨x, y, hn, h0, rfl, hx, hy⟩⟩ := id h
  · simpa [Point.add, h0] using h'
  obtain ⟨hz', ⟨h0', rfl⟩ | ⟨u, v, hn', h0', rfl, hu, hv⟩⟩ := id h'
  · simpa [Point.add, h0, h0'] using h
  have k : (P.z : F) ≠ 0 := (cast_zero_iff _ hz).not.2 h0
  have k' : (P'.z : F) ≠ 0 := (cast_zero_iff _ hz').not.2 h0'
  have hU : mulP P.x (mulP P'.z P'.z) = mulP P'.x (mulP P.z P.z) ↔ x = u := by
    rw [← cast_eq_iff _ _ (mulP_lt _ _) (mulP_lt _ _)]
    simp only [mulP_cast, hx, hu]
    constructor
    · intro hc
      have : (x - u) * (P.z * P'.z) ^ 2 = 0 := by linear_combination hc
      have := (mul_eq_zero.1 this).resolve_right (pow_ne_zero _ (mul_ne_zero k k'))
      linear_combination this
    · rintro rfl; ring
  have hS : mulP P.y (mulP P'.z (mulP P'.z P'.z)) = mulP P'.y (mulP P.z (mulP P.z P.z)) ↔ y = v := by
    rw [← cast_eq_iff _ _ (mulP_lt _ _) (mulP_lt _ _)]
    simp only [mulP_cast, hy, hv]
    constructor
    · intro hc
      have : (y - v) * (P.z * P'.z) ^ 3 = 0 := by linear_combination hc
      have := (mul_eq_zero.1 this).resolve_right (pow_ne_zero _ (mul_ne_zero k k'))
      linear_combination this
    · rintro rfl; ring
  simp only [Point.add, if_neg h0, if_neg h0']
  by_cases hxu : x = u
  · rw [if_pos (hU.2 hxu)]
    by_cases hyv : y = v
    · rw [if_pos (hS.2 hyv)]
      subst hxu hyv
      exact hd
    · rw [if_neg (hS.not.2 hyv)]
      refine ⟨fieldP_pos, Or.inl ⟨rfl, ?_⟩⟩
      refine Point.add_of_Y_eq hxu ?_
      rw [negY_secp]
      have e1 := (equation_iff _ _).1 hn.1
      have e2 := (equation_iff _ _).1 hn'.1
      simp only [secp256k1] at e1 e2
      have : (y - v) * (y + v) = 0 := by rw [← hxu] at e2; linear_combination e1 - e2
      have := (mul_eq_zero.1 this).resolve_left (sub_ne_zero.2 hyv)
      linear_combination this
  · rw [if_neg (hU.not.2 hxu)]
    obtain ⟨x', y', hh, e, ex, ey⟩ := add_some_ne x y u v hn hn' hxu
    have hux : u - x ≠ 0 := sub_ne_zero.2 (Ne.symm hxu)
    have hzz : ((mulP (subP (mulP P'.x (mulP P.z P.z)) (mulP P.x (mulP P'.z P'.z))) (mulP P.z P'.z) : Nat) : F) =
        (u - x) * (P.z * P'.z) ^ 2 * (P.z * P'.z) := by
      simp only [mulP_cast, subP_cast _ _ (le_of_lt (mulP_lt _ _)), hx, hu]; ring
    refine ⟨mulP_lt _ _, Or.inr ⟨x', y', hh, ?_, e, ?_, ?_⟩⟩
    · intro hc
      have := hzz.symm.trans ((cast_zero_iff _ (mulP_lt _ _)).2 hc)
      simp [hux, k, k'] at this
    · simp only [mkPoint]
      rw [hzz]
      simp only [mulP_cast, subP_cast _ _ (le_of_lt (mulP_lt _ _)), subP_cast _ _ (le_of_lt (subP_lt _ _)), hy, hx, hu, hv,
        Nat.cast_ofNat]
      rw [ex]; field_simp; ring
    · simp only [mkPoint]
      rw [hzz]
      simp only [mulP_cast, subP_cast _ _ (le_of_lt (mulP_lt _ _)), subP_cast _ _ (le_of_lt (subP_lt _ _)), hy, hx, hu, hv,
        Nat.cast_ofNat]
      rw [ey, ex]; field_simp; ring

theorem Rep.infinity : Rep ⟨1, 1, 0⟩ 0 := ⟨fieldP_pos, Or.inl ⟨rfl, rfl⟩⟩

theorem Rep.mul {P : Point} {Q : CurvePoint} (h : Rep P Q) (k : Nat) (hk : k < 2 ^ 256) : Rep (P.mul k) (k • Q) := by
  have key : ∀ e : List Bool, Rep (e.foldl (fun acc bit => if bit then acc.double.add P else acc.double) ⟨1, 1, 0⟩)
      (valBits e • Q) := by
    intro e
    induction e using List.reverseRecOn with
    | nil => simpa [valBits] using Rep.infinity
    | append_singleton e x ih =>
      rw [List.foldl_append, valBits_append]
      cases x
      · simp only [List.foldl_cons, List.foldl_nil, Bool.false_eq_true, if_false, Nat.add_zero]
        rw [Nat.mul_comm, mul_nsmul, two_nsmul]
        exact ih.double
      · simp only [List.foldl_cons, List.foldl_nil, if_true]
        rw [add_nsmul, one_nsmul, Nat.mul_comm, mul_nsmul, two_nsmul]
        exact ih.double.add h
  have := key (bitsOf 256 k)
  rwa [valBits_bitsOf 256 k hk] at this

/-- `invMod` inverts (and sends 0 to 0, like the inverse of Mathlib). -/
theorem invMod_cast (m a : Nat) [hm : Fact m.Prime] (h2 : 2 < m) (hl : m < 2 ^ 256) :
    ((invMod m a : Nat) : ZMod m) = (a : ZMod m)⁻¹ := by
  rw [invMod, powMod_cast, valBits_bitsOf 256 _ (by omega), ZMod.natCast_mod]
  by_cases h0 : (a : ZMod m) = 0
  · rw [h0, inv_zero, zero_pow (by omega)]
  · refine eq_inv_of_mul_eq_one_left ?_
    rw [← pow_succ, show m - 2 + 1 = m - 1 by omega]
    exact ZMod.pow_card_sub_one_eq_one h0

theorem fieldP_lt : fieldP < 2 ^ 256 := by decide +kernel
theorem orderN_lt : orderN < 2 ^ 256 := by decide +kernel
theorem one_lt_fieldP : 1 < fieldP := by decide +kernel
theorem two_lt_fieldP : 2 < fieldP := by decide +kernel
theorem two_lt_orderN : 2 < orderN := by decide +kernel

theorem val_cast_of_lt (a : Nat) (x : F) (h : (a : F) = x) (ha : a < fieldP) : a = x.val := by
  rw [← h, ZMod.val_natCast_of_lt ha]

theorem Rep.affine {P : Point} {Q : CurvePoint} (h : Rep P Q) :
    (P.affine = none ∧ Q = 0) ∨
    ∃ (x y : F) (hn : secp256k1.Nonsingular x y), P.affine = some (x.val, y.val) ∧ Q = .some x y hn := by
  obtain ⟨hz, ⟨h0, rfl⟩ | ⟨x, y, hn, h0, rfl, hx, hy⟩⟩ := h
  · exact Or.inl ⟨by simp [Point.affine, h0], rfl⟩
  · have k : (P.z : F) ≠ 0 := (cast_zero_iff _ hz).not.2 h0
    refine Or.inr ⟨x, y, hn, ?_, rfl⟩
    simp only [Point.affine, if_neg h0]
    rw [← val_cast_of_lt _ x _ (mulP_lt _ _), ← val_cast_of_lt _ y _ (mulP_lt _ _)]
    · simp only [mulP_cast, invMod_cast fieldP _ two_lt_fieldP fieldP_lt, hy]
      field_simp
    · simp only [mulP_cast, invMod_cast fieldP _ two_lt_fieldP fieldP_lt, hx]
      field_simp

/-- A pair of coordinates stands for its point. -/
theorem Rep.ofAffine (x y : F) (h : secp256k1.Nonsingular x y) : Rep ⟨x.val, y.val, 1⟩ (.some x y h) := by
  refine ⟨one_lt_fieldP, Or.inr ⟨x, y, h, one_ne_zero, rfl, ?_, ?_⟩⟩ <;> simp

theorem Rep.gen : Rep Secp.gen generator := by
  refine ⟨by decide +kernel, Or.inr ⟨_, _, _, one_ne_zero, rfl, ?_, ?_⟩⟩ <;> simp [Secp.gen]

theorem Rep.eq_zero {P : Point} {Q : CurvePoint} (h : Rep P Q) (h0 : P.z = 0) : Q = 0 := by
  obtain ⟨_, ⟨_, rfl⟩ | ⟨_, _, _, h1, _⟩⟩ := h
  · rfl
  · exact absurd h0 h1

/-- The order of the generator. -/
theorem order_smul_generator : orderN • generator = 0 :=
  (Rep.gen.mul orderN orderN_lt).eq_zero (by decide +kernel)

theorem generator_ne_zero : generator ≠ 0 := Point.some_ne_zero _

theorem addOrderOf_generator : addOrderOf generator = orderN :=
  addOrderOf_eq_prime order_smul_generator generator_ne_zero

/-- The right side of the curve equation, as `decompress` computes it. -/
theorem rhs_cast (x : Nat) : (((x * x % fieldP * x + 7) % fieldP : Nat) : F) = (x : F) ^ 3 + 7 := by
  rw [ZMod.natCast_mod, Nat.cast_add, Nat.cast_mul, ZMod.natCast_mod, Nat.cast_mul]
  push_cast; ring

theorem equation_secp (x y : F) : secp256k1.Equation x y ↔ y ^ 2 = x ^ 3 + 7 := by
  rw [equation_iff]; simp [secp256k1]

/-- The curve has no singular points. -/
theorem nonsingular_secp (x y : F) : secp256k1.Nonsingular x y ↔ y ^ 2 = x ^ 3 + 7 := by
  rw [← equation_secp, nonsingular_iff]
  refine ⟨fun h => h.1, fun h => ⟨h, ?_⟩⟩
  simp only [secp256k1]
  have e := (equation_secp x y).1 h
  by_cases hy : y = 0
  · left
    subst hy
    intro hc
    have h3 : (3 : F) ≠ 0 := by
      have := (cast_zero_iff 3 (by decide +kernel)).not.2 (by decide)
      exact_mod_cast this
    have h7 : (7 : F) ≠ 0 := by
      have := (cast_zero_iff 7 (by decide +kernel)).not.2 (by decide)
      exact_mod_cast this
    have hx : 3 * x ^ 2 = 0 := by linear_combination -hc
    have hx0 : x = 0 := by simpa [h3] using hx
    rw [hx0] at e
    exact h7 (by linear_combination -e)
  · right
    intro hc
    have : 2 * y = 0 := by linear_combination hc
    rcases mul_eq_zero.1 this with h2 | h2
    · exact two_ne_zero_F h2
    · exact hy h2

/-- Square roots modulo the field prime. -/
theorem sqrt_cast (a : Nat) (y : F) (h : y ^ 2 = a) :
    ((powMod fieldP a (bitsOf 256 ((fieldP + 1) / 4)) : Nat) : F) ^ 2 = a := by
  rw [powMod_cast, valBits_bitsOf 256 _ (by decide +kernel), ← h, ← pow_mul, ← pow_mul,
    show 2 * ((fieldP + 1) / 4 * 2) = fieldP - 1 + 2 by decide +kernel, pow_add]
  by_cases hy : y = 0
  · simp [hy]
  · rw [ZMod.pow_card_sub_one_eq_one hy, one_mul]

theorem powMod_lt (m b : Nat) (e : List Bool) (h : 1 < m) : powMod m b e < m := by
  induction e using List.reverseRecOn with
  | nil => simpa [powMod] using h
  | append_singleton e x _ =>
    rw [powMod_append]
    split <;> exact Nat.mod_lt _ (by omega)

/-- `decompress` finds every point whose y coordinate is not zero. -/
theorem decompress_some (x y : F) (hn : secp256k1.Nonsingular x y) (hy : y ≠ 0) :
    ∃ P, decompress x.val (y.val % 2 == 1) = some P ∧ Rep P (.some x y hn) := by
  have e := (nonsingular_secp x y).1 hn
  unfold decompress
  rw [if_pos (ZMod.val_lt x)]
  have hc := rhs_cast x.val
  rw [ZMod.natCast_zmod_val] at hc
  have hl : (x.val * x.val % fieldP * x.val + 7) % fieldP < fieldP := Nat.mod_lt _ fieldP_pos
  generalize (x.val * x.val % fieldP * x.val + 7) % fieldP = a at *
  have sq := sqrt_cast a y (by rw [e, hc])
  have l := powMod_lt fieldP a (bitsOf 256 ((fieldP + 1) / 4)) (by decide +kernel)
  simp only
  generalize powMod fieldP a (bitsOf 256 ((fieldP + 1) / 4)) = b at *
  rw [if_pos ((cast_eq_iff _ _ (mulP_lt _ _) hl).1 (by rw [mulP_cast, ← pow_two]; exact sq))]
  refine ⟨_, rfl, ?_⟩
  have hb : (b : F) = y ∨ (b : F) = -y := by
    apply sq_eq_sq_iff_eq_or_eq_neg.1
    rw [sq, hc, e]
  have hp : fieldP % 2 = 1 := by decide +kernel
  have hyl := ZMod.val_lt y
  have hy0 : y.val ≠ 0 := by rwa [Ne, ZMod.val_eq_zero]
  rcases hb with hb | hb
  · have hbv := val_cast_of_lt b y hb l
    rw [if_pos (by rw [hbv]; simp)]
    rw [hbv]
    exact Rep.ofAffine x y hn
  · have hbv : b = fieldP - y.val := by
      rw [← cast_eq_iff _ _ l (by omega), hb, Nat.cast_sub (le_of_lt hyl)]
      simp
    have hpar : ¬((b % 2 == 1) == (y.val % 2 == 1)) = true := by
      rw [hbv]
      have : (fieldP - y.val) % 2 ≠ y.val % 2 := by omega
      rcases Nat.mod_two_eq_zero_or_one y.val with h1 | h1 <;>
        rcases Nat.mod_two_eq_zero_or_one (fieldP - y.val) with h2 | h2 <;> simp [h1, h2] <;> omega
    rw [if_neg hpar, hbv, show fieldP - (fieldP - y.val) = y.val by omega]
    exact Rep.ofAffine x y hn

/-- A point is determined by its x coordinate and the parity of its y coordinate. -/
def coordinates : CurvePoint → Option (F × Bool)
  | .zero => none
  | .some x y _ => some (x, y.val % 2 == 1)

theorem coordinates_injective : Function.Injective coordinates := by
  rintro (_ | ⟨x, y, h⟩) (_ | ⟨u, v, w⟩) e
  · rfl
  · exact nomatch e
  · exact nomatch e
  · simp only [coordinates, Option.some.injEq, Prod.mk.injEq] at e
    obtain ⟨rfl, e⟩ := e
    rw [Point.some.injEq]
    refine ⟨rfl, ?_⟩
    have e1 := (nonsingular_secp x y).1 h
    have e2 := (nonsingular_secp x v).1 w
    rcases sq_eq_sq_iff_eq_or_eq_neg.1 (e1.trans e2.symm) with hy | hy
    · exact hy
    · by_cases hv : v = 0
      · rw [hy, hv, neg_zero]
      · exfalso
        have hp : fieldP % 2 = 1 := by decide +kernel
        have hvl := ZMod.val_lt v
        have hv0 : v.val ≠ 0 := by rwa [Ne, ZMod.val_eq_zero]
        have : y.val = fieldP - v.val := by
          rw [← val_cast_of_lt (fieldP - v.val) y _ (by omega)]
          rw [Nat.cast_sub (le_of_lt hvl), hy]
          simp
        rw [this] at e
        rcases Nat.mod_two_eq_zero_or_one v.val with h1 | h1 <;>
          rcases Nat.mod_two_eq_zero_or_one (fieldP - v.val) with h2 | h2 <;> simp [h1, h2] at e <;> omega

instance : Finite CurvePoint := Finite.of_injective _ coordinates_injective

theorem card_le : Nat.card CurvePoint ≤ 2 * fieldP + 1 := by
  refine (Nat.card_le_card_of_injective _ coordinates_injective).trans (le_of_eq ?_)
  rw [Nat.card_eq_fintype_card, Fintype.card_option, Fintype.card_prod, ZMod.card, Fintype.card_bool]
  omega

/-- -7 is not a cube, so no point has y coordinate 0. -/
theorem no_two_torsion (x y : F) (h : secp256k1.Nonsingular x y) : y ≠ 0 := by
  intro hy
  have e := (nonsingular_secp x y).1 h
  rw [hy] at e
  have h7 : x ^ 3 = ((fieldP - 7 : Nat) : F) := by
    rw [Nat.cast_sub (by decide +kernel), ZMod.natCast_self]
    push_cast
    linear_combination -e
  have hx : x ≠ 0 := by
    rintro rfl
    have : ((fieldP - 7 : Nat) : F) ≠ 0 := (cast_zero_iff _ (by decide +kernel)).not.2 (by decide +kernel)
    rw [← h7] at this
    exact this (by ring)
  have hp : x ^ (fieldP - 1) = 1 := ZMod.pow_card_sub_one_eq_one hx
  rw [show fieldP - 1 = 3 * ((fieldP - 1) / 3) by decide +kernel, pow_mul, h7,
    ← valBits_bitsOf 256 ((fieldP - 1) / 3) (by decide +kernel), ← powMod_cast] at hp
  have hp' := (cast_eq_iff _ 1 (powMod_lt _ _ _ one_lt_fieldP) one_lt_fieldP).1 (hp.trans Nat.cast_one.symm)
  revert hp'
  decide +kernel

/-- The parity of the y coordinate of the opposite point. -/
theorem neg_val (y : F) (hy : y ≠ 0) : (-y).val = fieldP - y.val ∧ (-y).val % 2 = 1 - y.val % 2 := by
  have hp : fieldP % 2 = 1 := by decide +kernel
  have hyl := ZMod.val_lt y
  have hy0 : y.val ≠ 0 := by rwa [Ne, ZMod.val_eq_zero]
  have : (-y).val = fieldP - y.val := by
    rw [← val_cast_of_lt (fieldP - y.val) (-y) _ (by omega)]
    rw [Nat.cast_sub (le_of_lt hyl)]
    simp
  exact ⟨this, by omega⟩

/-- What `decompress` returns is a point of the curve with the given coordinate and parity. -/
theorem decompress_rep (x : Nat) (odd : Bool) (P : Point) (h : decompress x odd = some P) :
    ∃ (u v : F) (hn : secp256k1.Nonsingular u v), Rep P (.some u v hn) ∧ u.val = x ∧ (v.val % 2 == 1) = odd := by
  unfold decompress at h
  split at h
  · simp only at h
    split at h
    · rename_i hx hy
      have e : ((powMod fieldP ((x * x % fieldP * x + 7) % fieldP) (bitsOf 256 ((fieldP + 1) / 4)) : Nat) : F) ^ 2 =
          (x : F) ^ 3 + 7 := by
        rw [pow_two, ← mulP_cast, hy, rhs_cast]
      have l := powMod_lt fieldP ((x * x % fieldP * x + 7) % fieldP) (bitsOf 256 ((fieldP + 1) / 4)) (by decide +kernel)
      generalize powMod fieldP ((x * x % fieldP * x + 7) % fieldP) (bitsOf 256 ((fieldP + 1) / 4)) = y at *
      rw [Option.some.injEq] at h
      have hv := ZMod.val_natCast_of_lt l
      split at h
      · rename_i hpar
        subst h
        refine ⟨x, y, (nonsingular_secp _ _).2 e, ⟨one_lt_fieldP, Or.inr ⟨_, _, _, one_ne_zero, rfl, ?_, ?_⟩⟩,
          ZMod.val_natCast_of_lt hx, ?_⟩
        · simp
        · simp
        · rw [hv]; exact eq_of_beq hpar
      · rename_i hpar
        subst h
        have hn := (nonsingular_secp (x : F) (y : F)).2 e
        have hneg := neg_val (y : F) (no_two_torsion _ _ hn)
        refine ⟨x, -y, (nonsingular_secp _ _).2 (by rw [neg_sq]; exact e),
          ⟨one_lt_fieldP, Or.inr ⟨_, _, _, one_ne_zero, rfl, ?_, ?_⟩⟩, ZMod.val_natCast_of_lt hx, ?_⟩
        · simp
        · simp [Nat.cast_sub (le_of_lt l)]
        · rw [hneg.2, hv]
          have hpar' : ¬(y % 2 == 1) = odd := fun hc => hpar (by rw [hc]; exact beq_self_eq_true _)
          rcases Nat.mod_two_eq_zero_or_one y with h1 | h1 <;> rw [h1] at hpar' ⊢ <;> cases odd <;> simp_all
    · exact nomatch h
  · exact nomatch h

/-- The number of points of the curve. -/
theorem card_curve : Nat.card CurvePoint = orderN := by
  have hd : orderN ∣ Nat.card CurvePoint := by
    rw [← addOrderOf_generator]
    exact addOrderOf_dvd_natCard _
  obtain ⟨c, hc⟩ := hd
  have hle := card_le
  have hpos : 0 < Nat.card CurvePoint := Nat.card_pos
  have h3 : 2 * fieldP + 1 < orderN * 3 := by decide +kernel
  have hc3 : c < 3 := by
    by_contra hcc
    have : orderN * 3 ≤ orderN * c := Nat.mul_le_mul_left _ (by omega)
    omega
  have hc0 : c ≠ 0 := by
    rintro rfl
    omega
  have hc2 : c ≠ 2 := by
    rintro rfl
    have : Fact (Nat.Prime 2) := ⟨Nat.prime_two⟩
    obtain ⟨Q, hQ⟩ := exists_prime_addOrderOf_dvd_card' (G := CurvePoint) 2 ⟨orderN, by rw [hc, Nat.mul_comm]⟩
    have h2 : 2 • Q = 0 := by rw [← hQ]; exact addOrderOf_nsmul_eq_zero Q
    rcases Q with _ | ⟨x, y, h⟩
    · rw [← Point.zero_def, addOrderOf_zero] at hQ
      omega
    · have hy := no_two_torsion x y h
      obtain ⟨_, _, h', e, _⟩ := double_some x y h hy
      rw [two_nsmul, e] at h2
      exact Point.some_ne_zero h' h2
  rw [hc, show c = 1 by omega, Nat.mul_one]

theorem order_smul (Q : CurvePoint) : orderN • Q = 0 := by
  rw [← card_curve]
  exact card_nsmul_eq_zero'

/-- Every point is a multiple of the generator. -/
theorem exists_smul_generator (Q : CurvePoint) : ∃ d, d < orderN ∧ d • generator = Q := by
  have htop : AddSubgroup.zmultiples generator = ⊤ := by
    apply AddSubgroup.eq_top_of_card_eq
    rw [Nat.card_zmultiples, addOrderOf_generator, card_curve]
  have hQ : Q ∈ AddSubgroup.zmultiples generator := by rw [htop]; trivial
  rw [← mem_multiples_iff_mem_zmultiples] at hQ
  obtain ⟨d, hd⟩ := hQ
  refine ⟨d % orderN, Nat.mod_lt _ (by decide +kernel), ?_⟩
  rw [← addOrderOf_generator, mod_addOrderOf_nsmul]
  exact hd

end Siwe.Secp
