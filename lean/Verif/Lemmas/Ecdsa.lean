import Verif.Lemmas.Secp256k1
/-
Recovery of a key from an ECDSA signature.
-/
namespace Siwe.Secp
open Siwe.Spec WeierstrassCurve.Affine

theorem smul_generator_eq_iff (a b : Nat) : a • generator = b • generator ↔ (a : ZMod orderN) = b := by
  rw [nsmul_eq_nsmul_iff_modEq, addOrderOf_generator, ZMod.natCast_eq_natCast_iff]

theorem smul_generator_eq_zero_iff (a : Nat) : a • generator = 0 ↔ (a : ZMod orderN) = 0 := by
  have := smul_generator_eq_iff a 0
  rwa [zero_nsmul, Nat.cast_zero] at this

theorem cast_orderN_ne_zero (a : Nat) (h0 : a ≠ 0) (h : a < orderN) : (a : ZMod orderN) ≠ 0 := by
  rw [Ne, ZMod.natCast_eq_zero_iff]
  exact fun hd => absurd (Nat.le_of_dvd (by omega) hd) (by omega)

theorem orderN_pos : 0 < orderN := by decide +kernel

/-- No multiple of the generator has y coordinate 0. -/
theorem y_ne_zero (k : Nat) (x y : F) (h : secp256k1.Nonsingular x y) (hk : k • generator = .some x y h) : y ≠ 0 := by
  intro hy
  have h2 : (2 * k) • generator = 0 := by
    rw [Nat.mul_comm, mul_nsmul, two_nsmul, hk]
    exact Point.add_self_of_Y_eq (by rw [negY_secp, hy, neg_zero])
  rw [smul_generator_eq_zero_iff, Nat.cast_mul] at h2
  rcases mul_eq_zero.1 h2 with h2 | h2
  · exact cast_orderN_ne_zero 2 (by decide) two_lt_orderN h2
  · rw [(smul_generator_eq_zero_iff k).2 h2] at hk
    exact Point.some_ne_zero h hk.symm

theorem verify_iff (z r s : Nat) (x y : F) (h : secp256k1.Nonsingular x y) :
    verify z r s ⟨x.val, y.val, 1⟩ = true ↔
    ∃ (x' y' : F) (h' : secp256k1.Nonsingular x' y'),
      ((z : ZMod orderN) / s).val • generator + ((r : ZMod orderN) / s).val • (Point.some x y h : CurvePoint) = .some x' y' h' ∧
        x'.val % orderN = r := by
  have e1 : z % orderN * invMod orderN s % orderN = ((z : ZMod orderN) / s).val := by
    rw [← ZMod.val_natCast, Nat.cast_mul, invMod_cast orderN _ two_lt_orderN orderN_lt, ZMod.natCast_mod, div_eq_mul_inv]
  have e2 : r * invMod orderN s % orderN = ((r : ZMod orderN) / s).val := by
    rw [← ZMod.val_natCast, Nat.cast_mul, invMod_cast orderN _ two_lt_orderN orderN_lt, div_eq_mul_inv]
  have hl : ∀ a : ZMod orderN, a.val < 2 ^ 256 := fun a => Nat.lt_trans (ZMod.val_lt a) orderN_lt
  have rep := (Rep.gen.mul ((z : ZMod orderN) / s).val (hl _)).add ((Rep.ofAffine x y h).mul ((r : ZMod orderN) / s).val (hl _))
  unfold verify
  simp only [e1, e2]
  rcases rep.affine with ⟨ha, hq⟩ | ⟨x', y', h', ha, hq⟩
  · rw [ha, hq]
    constructor
    · exact (fun hc => nomatch hc)
    · rintro ⟨_, _, h', hc, _⟩
      exact absurd hc.symm (Point.some_ne_zero h')
  · rw [ha, hq]
    simp only [beq_iff_eq]
    constructor
    · exact fun hr => ⟨x', y', h', rfl, hr⟩
    · rintro ⟨u, v, w, hu, hr⟩
      rw [Point.some.injEq] at hu
      rwa [hu.1]

/-- A signature made with the nonce `k` and the key `d` is recovered. -/
theorem recoverPoint_complete (d k z r s : Nat) (v : UInt8) (x y X Y : F) (h : secp256k1.Nonsingular x y)
    (H : secp256k1.Nonsingular X Y) (hk : k • generator = .some x y h) (hd : d • generator = .some X Y H)
    (hr : r = x.val % orderN) (hr0 : r ≠ 0) (hs0 : s ≠ 0) (hs : s ≤ orderN / 2)
    (heq : (s : ZMod orderN) * k = z + r * d) (hodd : v.toNat % 2 = y.val % 2)
    (hhigh : v.toNat < 2 ↔ x.val < orderN) : recoverPoint z r s v = some (X.val, Y.val) := by
  have hx : (if v.toNat < 2 then r else r + orderN) = x.val := by
    have hlt := ZMod.val_lt x
    have h2 : fieldP < 2 * orderN := by decide +kernel
    split
    · rename_i hv
      rw [hr, Nat.mod_eq_of_lt (hhigh.1 hv)]
    · rename_i hv
      have := hhigh.not.1 hv
      rw [hr, Nat.mod_eq_sub_mod (by omega), Nat.mod_eq_of_lt (by omega)]
      omega
  have hrl : r < orderN := by rw [hr]; exact Nat.mod_lt _ orderN_pos
  have hsl : s < orderN := by have := two_lt_orderN; omega
  have cr := cast_orderN_ne_zero r hr0 hrl
  have cs := cast_orderN_ne_zero s hs0 hsl
  obtain ⟨R, hR, repR⟩ := decompress_some x y h (y_ne_zero k x y h hk)
  unfold recoverPoint
  rw [if_neg (by omega), hx, hodd, hR]
  simp only
  have hl : ∀ a : Nat, a % orderN < 2 ^ 256 := fun a => Nat.lt_trans (Nat.mod_lt _ orderN_pos) orderN_lt
  have rep := (Rep.gen.mul _ (hl ((orderN - z % orderN) * invMod orderN r))).add (repR.mul _ (hl (s * invMod orderN r)))
  rw [← hk, ← mul_nsmul, ← add_nsmul] at rep
  have key : (((orderN - z % orderN) * invMod orderN r % orderN + k * (s * invMod orderN r % orderN) : Nat) : ZMod orderN) = d := by
    push_cast
    rw [ZMod.natCast_mod, ZMod.natCast_mod]
    push_cast
    rw [Nat.cast_sub (le_of_lt (Nat.mod_lt _ orderN_pos)), ZMod.natCast_mod, ZMod.natCast_self,
      invMod_cast orderN _ two_lt_orderN orderN_lt]
    field_simp
    linear_combination heq
  rw [(smul_generator_eq_iff _ _).2 key, hd] at rep
  rcases rep.affine with ⟨_, hq⟩ | ⟨X', Y', H', ha, hq⟩
  · exact absurd hq (Point.some_ne_zero H)
  · rw [Point.some.injEq] at hq
    obtain ⟨rfl, rfl⟩ := hq
    rw [ha]
    simp only
    rw [if_pos]
    rw [verify_iff z r s X Y H, ← hd, ← mul_nsmul, ← add_nsmul]
    refine ⟨x, y, h, ?_, hr.symm⟩
    rw [← hk, smul_generator_eq_iff]
    push_cast
    rw [ZMod.natCast_zmod_val, ZMod.natCast_zmod_val]
    field_simp
    linear_combination -heq

theorem cast_div_val (a b : Nat) : ((((a : ZMod orderN) / b).val : Nat) : ZMod orderN) = a / b := ZMod.natCast_zmod_val _

/-- What is recovered is the key under which the signature is valid with this recovery id. -/
theorem recoverPoint_iff (z r s : Nat) (v : UInt8) (a b : Nat) (hr0 : 0 < r) (hrl : r < orderN) (hs0 : 0 < s)
    (hsl : s < orderN) (hv : v.toNat ≤ 3) :
    recoverPoint z r s v = some (a, b) ↔ s ≤ orderN / 2 ∧ ∃ (X Y : F) (H : secp256k1.Nonsingular X Y), a = X.val ∧ b = Y.val ∧
      EcdsaVerifies (.some X Y H) z r s v.toNat := by
  have cr := cast_orderN_ne_zero r (by omega) hrl
  have cs := cast_orderN_ne_zero s (by omega) hsl
  constructor
  · intro h
    unfold recoverPoint at h
    split at h
    · exact nomatch h
    rename_i hs
    refine ⟨by omega, ?_⟩
    split at h
    · exact nomatch h
    rename_i R hR
    obtain ⟨x, y, hn, repR, hx, hy⟩ := decompress_rep _ _ _ hR
    simp only at h
    have hl : ∀ a : Nat, a % orderN < 2 ^ 256 := fun a => Nat.lt_trans (Nat.mod_lt _ orderN_pos) orderN_lt
    obtain ⟨k, hkl, hk⟩ := exists_smul_generator (.some x y hn)
    have rep := (Rep.gen.mul _ (hl ((orderN - z % orderN) * invMod orderN r))).add (repR.mul _ (hl (s * invMod orderN r)))
    rcases rep.affine with ⟨ha, _⟩ | ⟨X, Y, H, ha, hQ⟩
    · rw [ha] at h
      exact nomatch h
    rw [ha] at h
    simp only at h
    split at h
    case isFalse => exact nomatch h
    rename_i hver
    rw [Option.some.injEq, Prod.mk.injEq] at h
    refine ⟨X, Y, H, h.1.symm, h.2.symm, hr0, hrl, hs0, hsl, x, y, hn, ?_, ?_, ?_⟩
    · rw [← hQ, ← hk, ← mul_nsmul, ← add_nsmul, ← mul_nsmul, ← add_nsmul, smul_generator_eq_iff]
      push_cast
      rw [ZMod.natCast_mod, ZMod.natCast_mod, cast_div_val, cast_div_val]
      push_cast
      rw [Nat.cast_sub (le_of_lt (Nat.mod_lt _ orderN_pos)), ZMod.natCast_mod, ZMod.natCast_self,
        invMod_cast orderN _ two_lt_orderN orderN_lt]
      field_simp
      ring
    · rw [hx]
      split
      · exact Nat.mod_eq_of_lt hrl
      · rw [Nat.add_mod_right, Nat.mod_eq_of_lt hrl]
    · rw [hx]
      have hy' : y.val % 2 = v.toNat % 2 := by
        rcases Nat.mod_two_eq_zero_or_one y.val with h1 | h1 <;>
          rcases Nat.mod_two_eq_zero_or_one v.toNat with h2 | h2 <;> rw [h1, h2] at hy <;> first | omega | simp at hy
      rw [hy']
      by_cases h2 : v.toNat < 2
      · rw [if_pos h2, if_neg (by omega)]; omega
      · rw [if_neg h2, if_pos (by omega)]; omega
  · rintro ⟨hs, X, Y, H, rfl, rfl, _, _, _, _, x, y, hn, e, hx, hv'⟩
    obtain ⟨d, hdl, hd⟩ := exists_smul_generator (.some X Y H)
    rw [← hd, ← mul_nsmul, ← add_nsmul] at e
    refine recoverPoint_complete d _ z r s v x y X Y hn H e hd hx.symm (by omega) (by omega) hs ?_ ?_ ?_
    · push_cast
      rw [cast_div_val, cast_div_val]
      field_simp
    · rw [hv']; split <;> omega
    · rw [hv']; split <;> omega

/-- The valid signatures with small `s` are those made with the private key. -/
theorem verifies_iff_signs (Q : CurvePoint) (z r s recid : Nat) (hQ : Q ≠ 0) :
    (EcdsaVerifies Q z r s recid ∧ s ≤ orderN / 2) ↔
      ∃ d k, 0 < d ∧ d < orderN ∧ 0 < k ∧ k < orderN ∧ d • generator = Q ∧ EcdsaSigns d k z r s recid := by
  constructor
  · rintro ⟨⟨hr0, hrl, hs0, hsl, x, y, h, e, hx, hv⟩, hs⟩
    have cs := cast_orderN_ne_zero s (by omega) hsl
    obtain ⟨d, hdl, rfl⟩ := exists_smul_generator Q
    obtain ⟨k, hkl, hk⟩ := exists_smul_generator (.some x y h)
    have hd0 : 0 < d := by
      rcases Nat.eq_zero_or_pos d with rfl | h0
      · exact absurd (zero_nsmul _) hQ
      · exact h0
    have hk0 : 0 < k := by
      rcases Nat.eq_zero_or_pos k with rfl | h0
      · rw [zero_nsmul] at hk
        exact absurd hk.symm (Point.some_ne_zero h)
      · exact h0
    have ck := cast_orderN_ne_zero k (by omega) hkl
    refine ⟨d, k, hd0, hdl, hk0, hkl, rfl, x, y, h, hk, hx.symm, by omega, s, ?_, cs, Or.inl ⟨?_, ?_, hv⟩⟩
    · rw [← hk, ← mul_nsmul, ← add_nsmul, smul_generator_eq_iff] at e
      push_cast at e
      rw [cast_div_val, cast_div_val] at e
      rw [eq_div_iff ck, ← e]
      field_simp
    · rwa [ZMod.val_natCast_of_lt hsl]
    · rw [ZMod.val_natCast_of_lt hsl]
  · rintro ⟨d, k, hd0, hdl, hk0, hkl, rfl, x, y, h, hk, hr, hr0, s₀, hs₀, hs0, hcase⟩
    have ck := cast_orderN_ne_zero k (by omega) hkl
    have hrl : r < orderN := by rw [hr]; exact Nat.mod_lt _ orderN_pos
    have hs₀l := ZMod.val_lt s₀
    have hs₀0 : s₀.val ≠ 0 := by rwa [Ne, ZMod.val_eq_zero]
    have h2 := two_lt_orderN
    have hodd : orderN % 2 = 1 := by decide +kernel
    rw [eq_div_iff ck] at hs₀
    rcases hcase with ⟨hlow, rfl, hv⟩ | ⟨hhigh, rfl, hv⟩
    · refine ⟨⟨by omega, hrl, by omega, hs₀l, x, y, h, ?_, hr.symm, hv⟩, hlow⟩
      rw [← hk, ← mul_nsmul, ← add_nsmul, smul_generator_eq_iff]
      push_cast
      rw [cast_div_val, cast_div_val, ZMod.natCast_zmod_val]
      field_simp
      linear_combination -hs₀
    · have hneg := neg_val y (no_two_torsion x y h)
      refine ⟨⟨by omega, hrl, by omega, by omega, x, -y, (nonsingular_secp _ _).2 (by rw [neg_sq]; exact (nonsingular_secp _ _).1 h),
        ?_, hr.symm, by rw [hneg.2]; exact hv⟩, by omega⟩
      have e : (Point.some x (-y) ((nonsingular_secp _ _).2 (by rw [neg_sq]; exact (nonsingular_secp _ _).1 h)) : CurvePoint) =
          -Point.some x y h := by
        rw [Point.neg_some, Point.some.injEq, negY_secp]
        exact ⟨rfl, rfl⟩
      have hc : ((orderN - s₀.val : Nat) : ZMod orderN) = -s₀ := by
        rw [Nat.cast_sub (le_of_lt hs₀l)]; simp
      rw [e, eq_neg_iff_add_eq_zero, ← hk, ← mul_nsmul, ← add_nsmul, ← add_nsmul, smul_generator_eq_zero_iff]
      push_cast
      rw [cast_div_val, cast_div_val, hc]
      field_simp
      linear_combination hs₀

/-- `r` and the recovery id determine the nonce point. -/
theorem nonce_point_unique (r recid : Nat) (x y x' y' : F) (h : secp256k1.Nonsingular x y) (h' : secp256k1.Nonsingular x' y')
    (hx : x.val % orderN = r) (hx' : x'.val % orderN = r) (hv : recid = (if orderN ≤ x.val then 2 else 0) + y.val % 2)
    (hv' : recid = (if orderN ≤ x'.val then 2 else 0) + y'.val % 2) :
    (Point.some x y h : CurvePoint) = .some x' y' h' := by
  have h2 : fieldP < 2 * orderN := by decide +kernel
  have hl := ZMod.val_lt x
  have hl' := ZMod.val_lt x'
  have hxx : x.val = x'.val := by
    by_cases c : orderN ≤ x.val <;> by_cases c' : orderN ≤ x'.val <;> simp only [c, c', if_true, if_false] at hv hv'
    · rw [Nat.mod_eq_sub_mod c, Nat.mod_eq_of_lt (by omega)] at hx
      rw [Nat.mod_eq_sub_mod c', Nat.mod_eq_of_lt (by omega)] at hx'
      omega
    · omega
    · omega
    · rw [Nat.mod_eq_of_lt (by omega)] at hx hx'
      omega
  have hyy : y.val % 2 = y'.val % 2 := by rw [hxx] at hv; omega
  apply coordinates_injective
  simp only [coordinates, hyy]
  rw [ZMod.val_injective _ hxx]

/-- A signature is valid under one key only. -/
theorem verifies_key_unique (Q Q' : CurvePoint) (z r s recid : Nat) (h : EcdsaVerifies Q z r s recid)
    (h' : EcdsaVerifies Q' z r s recid) : Q = Q' := by
  obtain ⟨hr0, hrl, hs0, hsl, x, y, hn, e, hx, hv⟩ := h
  obtain ⟨_, _, _, _, x', y', hn', e', hx', hv'⟩ := h'
  have cr := cast_orderN_ne_zero r (by omega) hrl
  have cs := cast_orderN_ne_zero s (by omega) hsl
  have hR := nonce_point_unique r recid x y x' y' hn hn' hx hx' hv hv'
  rw [← e, ← e'] at hR
  obtain ⟨d, hd, rfl⟩ := exists_smul_generator Q
  obtain ⟨d', hd', rfl⟩ := exists_smul_generator Q'
  rw [← mul_nsmul, ← add_nsmul, ← mul_nsmul, ← add_nsmul, smul_generator_eq_iff] at hR
  push_cast at hR
  rw [cast_div_val, cast_div_val] at hR
  rw [smul_generator_eq_iff]
  field_simp at hR
  exact mul_left_cancel₀ cr (by linear_combination hR)

/-- A signature is valid for one hash value only, modulo the group order. -/
theorem verifies_hash_unique (Q : CurvePoint) (z z' r s recid : Nat) (h : EcdsaVerifies Q z r s recid)
    (h' : EcdsaVerifies Q z' r s recid) : z % orderN = z' % orderN := by
  obtain ⟨hr0, hrl, hs0, hsl, x, y, hn, e, hx, hv⟩ := h
  obtain ⟨_, _, _, _, x', y', hn', e', hx', hv'⟩ := h'
  have cs := cast_orderN_ne_zero s (by omega) hsl
  have hR := nonce_point_unique r recid x y x' y' hn hn' hx hx' hv hv'
  rw [← e, ← e', add_left_inj, smul_generator_eq_iff, cast_div_val, cast_div_val, div_left_inj' cs,
    ZMod.natCast_eq_natCast_iff'] at hR
  exact hR

/-- Coordinates as numbers give points of the curve. -/
theorem smul_generator_of_affine (k a b : Nat) (hk : k < 2 ^ 256) (h : (gen.mul k).affine = some (a, b)) :
    ∃ (x y : F) (hn : secp256k1.Nonsingular x y), k • generator = .some x y hn ∧ x.val = a ∧ y.val = b := by
  rcases (Rep.gen.mul k hk).affine with ⟨e, _⟩ | ⟨x, y, hn, e, e'⟩
  · rw [e] at h; exact nomatch h
  · rw [e, Option.some.injEq, Prod.mk.injEq] at h
    exact ⟨x, y, hn, e', h.1, h.2⟩

/-- Every hash value can be signed with every key. -/
theorem signs_exists (d z : Nat) (hd0 : 0 < d) (hdl : d < orderN) :
    ∃ k r s recid, 0 < k ∧ k < orderN ∧ EcdsaSigns d k z r s recid := by
  have cd := cast_orderN_ne_zero d (by omega) hdl
  have make : ∀ (k : Nat) (x y : F) (hn : secp256k1.Nonsingular x y), k • generator = .some x y hn → 0 < k → k < orderN →
      x.val % orderN ≠ 0 → (z : ZMod orderN) + (x.val % orderN : Nat) * d ≠ 0 →
      ∃ k r s recid, 0 < k ∧ k < orderN ∧ EcdsaSigns d k z r s recid := by
    intro k x y hn hk hk0 hkl hr hs
    have ck := cast_orderN_ne_zero k (by omega) hkl
    by_cases c : (((z : ZMod orderN) + (x.val % orderN : Nat) * d) / k).val ≤ orderN / 2
    · exact ⟨k, _, _, _, hk0, hkl, x, y, hn, hk, rfl, hr, _, rfl, div_ne_zero hs ck, Or.inl ⟨c, rfl, rfl⟩⟩
    · exact ⟨k, _, _, _, hk0, hkl, x, y, hn, hk, rfl, hr, _, rfl, div_ne_zero hs ck, Or.inr ⟨by omega, rfl, rfl⟩⟩
  have h1 : (gen.mul 1).affine = some (gx, gy) := by decide +kernel
  have h2 : (gen.mul 2).affine = some (0xc6047f9441ed7d6d3045406e95c07cd85c778e4b8cef3ca7abac09b95c709ee5,
      0x1ae168fea63dc339a3c58419466ceaeef7f632653266d0e1236431a950cfe52a) := by decide +kernel
  obtain ⟨x, y, hn, hk, hx, _⟩ := smul_generator_of_affine 1 _ _ (by decide) h1
  obtain ⟨x', y', hn', hk', hx', _⟩ := smul_generator_of_affine 2 _ _ (by decide) h2
  by_cases c : (z : ZMod orderN) + (x.val % orderN : Nat) * d = 0
  · refine make 2 x' y' hn' hk' (by decide) two_lt_orderN (by rw [hx']; decide +kernel) fun c' => ?_
    have : ((x.val % orderN : Nat) : ZMod orderN) = (x'.val % orderN : Nat) :=
      mul_right_cancel₀ cd (by linear_combination c - c')
    rw [ZMod.natCast_eq_natCast_iff', hx, hx'] at this
    revert this
    decide +kernel
  · exact make 1 x y hn hk (by decide) (by decide +kernel) (by rw [hx]; decide +kernel) c

end Siwe.Secp
