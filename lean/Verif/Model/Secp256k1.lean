import Verif.Model.Basic
/-
Signatures on secp256k1 as eth.rs:158-162 uses them: `k256::ecdsa::Signature::from_slice` and
`VerifyingKey::recover_from_prehash` of the crates `k256` 0.13 and `ecdsa` 0.16, which are dependencies.  Most of the
model takes these two functions as parameters (`Env.sigOk`, `Env.recoverKey`); here they are written out, as
functions the kernel can evaluate, for the theorems about wallets (C99, C100) and for the tests in Conformance/.

Simplification: the crates work in constant time on limbs; here numbers are natural numbers.  Points are in Jacobian
coordinates as that needs no division.  The definitions are written with `fun` instead of `let` to keep
evaluation by the kernel fast.
-/
namespace Siwe.Secp

/-- The number with the given big-endian bytes (`reduce_bytes` and `decode_field_bytes`, eth.rs:158-162). -/
def beNat (bs : Bytes) : Nat := bs.foldl (fun n b => n * 256 + b.toNat) 0

/-- The big-endian bytes of a number, `k` of them (`to_encoded_point`, eth.rs:200-215). -/
def beBytes : Nat → Nat → Bytes
  | 0, _ => []
  | k + 1, n => beBytes k (n / 256) ++ [UInt8.ofNat (n % 256)]

/-- The field prime. -/
def fieldP : Nat := 0xfffffffffffffffffffffffffffffffffffffffffffffffffffffffefffffc2f
/-- The group order. -/
def orderN : Nat := 0xfffffffffffffffffffffffffffffffebaaedce6af48a03bbfd25e8cd0364141
/-- The generator's coordinates. -/
def gx : Nat := 0x79be667ef9dcbbac55a06295ce870b07029bfcdb2dce28d959f2815b16f81798
/-- See `gx`. -/
def gy : Nat := 0x483ada7726a3c4655da4fbfc0e1108a8fd17b448a68554199c47d08ffb10d4b8

/-- The lowest `k` bits of a number, most significant first. -/
def bitsOf (k n : Nat) : List Bool := (List.range k).reverse.map fun i => Nat.testBit n i

/-- Modular power. -/
def powMod (m b : Nat) (e : List Bool) : Nat :=
  e.foldl (fun acc bit => if bit then acc * acc % m * b % m else acc * acc % m) 1

/-- Inverse modulo a prime. -/
def invMod (m a : Nat) : Nat := powMod m (a % m) (bitsOf 256 (m - 2))

/-- Subtraction modulo the field prime. -/
def subP (a b : Nat) : Nat := (a + (fieldP - b)) % fieldP
/-- Multiplication modulo the field prime. -/
def mulP (a b : Nat) : Nat := a * b % fieldP

/-- A point in Jacobian coordinates; `z = 0` is the point at infinity. -/
structure Point where
  x : Nat
  y : Nat
  z : Nat

/-- Continue with evaluated coordinates. -/
def mkPoint (x y z : Nat) : Point := ⟨x, y, z⟩

/-- Doubling (a = 0). -/
def Point.double (p : Point) : Point :=
  (fun yy =>
    (fun s m =>
      (fun x => mkPoint x (subP (mulP m (subP s x)) (mulP 8 (mulP yy yy))) (mulP 2 (mulP p.y p.z)))
        (subP (mulP m m) (mulP 2 s)))
      (mulP 4 (mulP p.x yy)) (mulP 3 (mulP p.x p.x)))
    (mulP p.y p.y)

/-- Addition. -/
def Point.add (p q : Point) : Point :=
  if p.z = 0 then q
  else if q.z = 0 then p
  else
    (fun zz1 zz2 =>
      (fun u1 u2 s1 s2 =>
        if u1 = u2 then
          if s1 = s2 then p.double else ⟨1, 1, 0⟩
        else
          (fun h r =>
            (fun hh =>
              (fun hhh v =>
                (fun x => mkPoint x (subP (mulP r (subP v x)) (mulP s1 hhh)) (mulP h (mulP p.z q.z)))
                  (subP (subP (mulP r r) hhh) (mulP 2 v)))
                (mulP h hh) (mulP u1 hh))
              (mulP h h))
            (subP u2 u1) (subP s2 s1))
        (mulP p.x zz2) (mulP q.x zz1) (mulP p.y (mulP q.z zz2)) (mulP q.y (mulP p.z zz1)))
      (mulP p.z p.z) (mulP q.z q.z)

/-- Scalar multiplication. -/
def Point.mul (p : Point) (k : Nat) : Point :=
  (bitsOf 256 k).foldl (fun acc bit => if bit then acc.double.add p else acc.double) ⟨1, 1, 0⟩

/-- Affine coordinates. -/
def Point.affine (p : Point) : Option (Nat × Nat) :=
  if p.z = 0 then none
  else (fun zi => (fun zi2 => some (mulP p.x zi2, mulP p.y (mulP zi zi2))) (mulP zi zi)) (invMod fieldP p.z)

/-- The point with the given x coordinate and parity of y. -/
def decompress (x : Nat) (odd : Bool) : Option Point :=
  if x < fieldP then
    (fun y2 =>
      (fun y =>
        if mulP y y = y2 then
          some (if (y % 2 == 1) == odd then ⟨x, y, 1⟩ else ⟨x, fieldP - y, 1⟩)
        else none)
        (powMod fieldP y2 (bitsOf 256 ((fieldP + 1) / 4))))
      ((x * x % fieldP * x + 7) % fieldP)
  else none

/-- `Signature::from_slice` (eth.rs:158-159): both scalars are nonzero and below the group order. -/
def sigOk (bs : Bytes) : Bool :=
  (fun r s => bs.length == 64 && decide (0 < r) && decide (r < orderN) && decide (0 < s) && decide (s < orderN))
    (beNat (bs.take 32)) (beNat (bs.drop 32))

/-- The generator. -/
def gen : Point := ⟨gx, gy, 1⟩

/-- `hazmat::verify_prehashed`: `r` is the x coordinate, modulo the group order, of `z/s` times the generator plus
`r/s` times the key. -/
def verify (z r s : Nat) (key : Point) : Bool :=
  (fun si =>
    match ((gen.mul (z % orderN * si % orderN)).add (key.mul (r * si % orderN))).affine with
    | none => false
    | some (x, _) => x % orderN == r)
    (invMod orderN s)

/-- `VerifyingKey::recover_from_prehash` (called in eth.rs:161-162) on the numbers `z` (the hash), `r`, `s` and the
recovery id: the point whose x coordinate is `r` (plus the group order when bit 1 of the id is set) and whose
y coordinate has the parity of bit 0 is the signer's nonce point `R`; the key is `(s·R - z·G)/r`, which must not be the
point at infinity and must verify the signature.  Like the k256 crate's verification it refuses signatures whose `s`
is in the upper half. -/
def recoverPoint (z r s : Nat) (v : UInt8) : Option (Nat × Nat) :=
  if s > orderN / 2 then none
  else
    match decompress (if v.toNat < 2 then r else r + orderN) (v.toNat % 2 == 1) with
    | none => none
    | some R =>
      (fun ri =>
        match ((gen.mul ((orderN - z % orderN) * ri % orderN)).add (R.mul (s * ri % orderN))).affine with
        | none => none
        | some (x, y) => if verify z r s ⟨x, y, 1⟩ then some (x, y) else none)
        (invMod orderN r)

/-- `VerifyingKey::recover_from_prehash` on bytes (eth.rs:161-162), with the key as the bytes `x‖y` of its
uncompressed encoding. -/
def recoverKey (z : Hash) (rs : Bytes) (v : UInt8) : Option Bytes :=
  match recoverPoint (beNat z.bytes) (beNat (rs.take 32)) (beNat (rs.drop 32)) v with
  | none => none
  | some (x, y) => some (beBytes 32 x ++ beBytes 32 y)

end Siwe.Secp
