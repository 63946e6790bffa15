import Verif.Lemmas.Primes
import Mathlib.AlgebraicGeometry.EllipticCurve.Affine.Point
/-
The textbook: the elliptic curve secp256k1 (SEC 2, section 2.4.1) as a Weierstrass curve of Mathlib with Mathlib's
group law, and ECDSA on it (SEC 1, section 4.1).  Of the model this file uses only the three numbers
`fieldP`, `orderN` and the generator's coordinates; that the first two are prime is proved in Lemmas/Primes.lean.
-/
namespace Siwe.Spec
open Siwe.Secp WeierstrassCurve.Affine

instance : Fact fieldP.Prime := ⟨fieldP_prime⟩
instance : Fact orderN.Prime := ⟨orderN_prime⟩

/-- The curve `y² = x³ + 7` over the integers modulo `fieldP`. -/
def secp256k1 : WeierstrassCurve.Affine (ZMod fieldP) := ⟨0, 0, 0, 0, 7⟩

/-- The points of the curve, with Mathlib's group law. -/
abbrev CurvePoint := secp256k1.Point

/-- The generator. -/
def generator : CurvePoint := .some (gx : ZMod fieldP) (gy : ZMod fieldP) (by
  rw [nonsingular_iff, equation_iff]
  refine ⟨?_, Or.inr ?_⟩ <;> simp only [secp256k1] <;> decide +kernel)

/-- The ECDSA signature `(r, s)` of the hash value `z` with the private key `d` and the nonce `k`, as wallets make it, and
its recovery id: with `k·G = (x, y)`, `r = x mod n` and `s₀ = (z + r d)/k mod n`, both nonzero; `s` is the smaller of
`s₀` and `n - s₀`.  Bit 0 of the recovery id is the parity of `y`, inverted if `s₀` was, and bit 1 tells whether `x` was
reduced. -/
def EcdsaSigns (d k z r s recid : Nat) : Prop :=
  ∃ (x y : ZMod fieldP) (h : secp256k1.Nonsingular x y), k • generator = .some x y h ∧
    r = x.val % orderN ∧ r ≠ 0 ∧
    ∃ s₀ : ZMod orderN, s₀ = (z + r * d) / k ∧ s₀ ≠ 0 ∧
      ((s₀.val ≤ orderN / 2 ∧ s = s₀.val ∧ recid = (if orderN ≤ x.val then 2 else 0) + y.val % 2) ∨
       (orderN / 2 < s₀.val ∧ s = orderN - s₀.val ∧
        recid = (if orderN ≤ x.val then 2 else 0) + (1 - y.val % 2)))

/-- `(r, s)` is a valid ECDSA signature of the hash value `z` under the public key `Q`: `z/s·G + r/s·Q` is a point (the
nonce point) whose x coordinate is `r` modulo `n` (the quotients are modulo `n`).  The recovery id tells which point. -/
def EcdsaVerifies (Q : CurvePoint) (z r s recid : Nat) : Prop :=
  0 < r ∧ r < orderN ∧ 0 < s ∧ s < orderN ∧
  ∃ (x y : ZMod fieldP) (h : secp256k1.Nonsingular x y),
    ((z : ZMod orderN) / s).val • generator + ((r : ZMod orderN) / s).val • Q = .some x y h ∧ x.val % orderN = r ∧
    recid = (if orderN ≤ x.val then 2 else 0) + y.val % 2

end Siwe.Spec
