import Verif.Model.Basic
import Mathlib.Algebra.Polynomial.Basic
import Mathlib.Data.ZMod.Basic
import Mathlib.Data.List.Defs
/-
The texts of principals as the IC interface specification defines them ("Textual representation of principals"):
`Grouped(Base32(CRC32(p) · p))`, with CRC-32 as in ISO 3309 and base 32 as in RFC 4648, section 6.
-/
namespace Siwe.Spec
open Polynomial

/-- The polynomial over the field of two elements with the given coefficients, that of the highest power first. -/
noncomputable def polynomialOf : List Bool → (ZMod 2)[X]
  | [] => 0
  | b :: l => (if b then X ^ l.length else 0) + polynomialOf l

/-- The polynomial of the checksum. -/
noncomputable def crcPolynomial : (ZMod 2)[X] :=
  X ^ 32 + X ^ 26 + X ^ 23 + X ^ 22 + X ^ 16 + X ^ 12 + X ^ 11 + X ^ 10 + X ^ 8 + X ^ 7 + X ^ 5 + X ^ 4 + X ^ 2 + X + 1

/-- The lowest `k` bits of a number, the least significant first. -/
def lowFirst (k n : Nat) : List Bool := (List.range k).map n.testBit

/-- The lowest `k` bits of a number, the most significant first. -/
def highFirst (k n : Nat) : List Bool := (lowFirst k n).reverse

/-- `c` is the checksum of the bytes `m` (ISO 3309; the bits of a byte go least significant first): the complement of the
sum of the remainders of `x^k (x^31 + … + 1)`, with `k` the number of bits, and of `x^32` times the message. -/
def IsCrc32 (m : Bytes) (c : Nat) : Prop :=
  c < 2 ^ 32 ∧
  crcPolynomial ∣ X ^ (8 * m.length) * polynomialOf (List.replicate 32 true) +
    X ^ 32 * polynomialOf (m.flatMap fun b => lowFirst 8 b.toNat) +
    polynomialOf ((lowFirst 32 c).map (! ·))

/-- `bs` are the big-endian bytes of the 32-bit number `n`. -/
def IsBigEndian32 (n : Nat) (bs : Bytes) : Prop := bs.length = 4 ∧ bs.flatMap (fun b => highFirst 8 b.toNat) = highFirst 32 n

/-- The digits of base 32, in lower case. -/
def base32Alphabet : Bytes := ascii "abcdefghijklmnopqrstuvwxyz234567"

/-- `ds` is the base 32 text of the bytes `bs`, without padding: five bits for every digit are, in order, the bits of the
bytes followed by fewer than five zeros. -/
def IsBase32 (bs ds : Bytes) : Prop :=
  ∃ (vs : List Nat) (zeros : Nat), zeros < 5 ∧
    vs.flatMap (highFirst 5) = bs.flatMap (fun b => highFirst 8 b.toNat) ++ List.replicate zeros false ∧
    vs.map (base32Alphabet[·]?) = ds.map some

/-- `t` is `ds` in groups of five characters (the last group may be shorter) separated by dashes. -/
def IsGrouped (ds t : Bytes) : Prop :=
  ∃ (gs : List Bytes) (last : Bytes), (∀ g ∈ gs, g.length = 5) ∧ 1 ≤ last.length ∧ last.length ≤ 5 ∧
    ds = gs.flatten ++ last ∧ t = gs.flatMap (· ++ ascii "-") ++ last

/-- `t` is the text of the principal `p`. -/
def IsPrincipalText (p t : Bytes) : Prop :=
  p.length ≤ 29 ∧ ∃ c cs ds, IsCrc32 p c ∧ IsBigEndian32 c cs ∧ IsBase32 (cs ++ p) ds ∧ IsGrouped ds t

/-- The character `c` is `d`, or `d` as a capital letter. -/
def IsLetterOf (c d : UInt8) : Prop := c = d ∨ (97 ≤ d.toNat ∧ d.toNat ≤ 122 ∧ c.toNat + 32 = d.toNat)

instance (c d : UInt8) : Decidable (IsLetterOf c d) := inferInstanceAs (Decidable (_ ∨ _))

/-- `t` is `u` with letters of either case. -/
def InAnyCase (t u : Bytes) : Prop := List.Forall₂ IsLetterOf t u

/-- `t` is, with letters of either case, the text of the principal `p`. -/
def Names (t p : Bytes) : Prop := ∃ u, IsPrincipalText p u ∧ InAnyCase t u

/-- The number of positions at which `t` has another character than `u`, whatever the case. -/
def misprints (t u : Bytes) : Nat := ((t.zip u).filter fun x => decide (¬IsLetterOf x.1 x.2)).length

end Siwe.Spec
