import Verif.Model.Basic
/-
The hash functions the code uses, as defined by FIPS 180-4 and the Keccak submission, written so that the kernel can
evaluate them.  They are not part of the model (all theorems hold for arbitrary functions, see Model/Env.lean): they
are used to evaluate the model on the test vectors of the repository and to show that it can be instantiated.
Words are natural numbers below 2^32 (SHA-2) or 2^64 (Keccak).
-/
namespace Siwe.Concrete

/-- FIPS 180-4, section 4.2.2 -/
def k256 : List Nat := [
    0x428a2f98, 0x71374491, 0xb5c0fbcf, 0xe9b5dba5, 0x3956c25b, 0x59f111f1, 0x923f82a4, 0xab1c5ed5,
    0xd807aa98, 0x12835b01, 0x243185be, 0x550c7dc3, 0x72be5d74, 0x80deb1fe, 0x9bdc06a7, 0xc19bf174,
    0xe49b69c1, 0xefbe4786, 0x0fc19dc6, 0x240ca1cc, 0x2de92c6f, 0x4a7484aa, 0x5cb0a9dc, 0x76f988da,
    0x983e5152, 0xa831c66d, 0xb00327c8, 0xbf597fc7, 0xc6e00bf3, 0xd5a79147, 0x06ca6351, 0x14292967,
    0x27b70a85, 0x2e1b2138, 0x4d2c6dfc, 0x53380d13, 0x650a7354, 0x766a0abb, 0x81c2c92e, 0x92722c85,
    0xa2bfe8a1, 0xa81a664b, 0xc24b8b70, 0xc76c51a3, 0xd192e819, 0xd6990624, 0xf40e3585, 0x106aa070,
    0x19a4c116, 0x1e376c08, 0x2748774c, 0x34b0bcb5, 0x391c0cb3, 0x4ed8aa4a, 0x5b9cca4f, 0x682e6ff3,
    0x748f82ee, 0x78a5636f, 0x84c87814, 0x8cc70208, 0x90befffa, 0xa4506ceb, 0xbef9a3f7, 0xc67178f2]
/-- FIPS 180-4, section 5.3.3 -/
def init256 : List Nat := [
    0x6a09e667, 0xbb67ae85, 0x3c6ef372, 0xa54ff53a, 0x510e527f, 0x9b05688c, 0x1f83d9ab, 0x5be0cd19]
/-- FIPS 180-4, section 5.3.2 -/
def init224 : List Nat := [
    0xc1059ed8, 0x367cd507, 0x3070dd17, 0xf70e5939, 0xffc00b31, 0x68581511, 0x64f98fa7, 0xbefa4fa4]

/-- Addition of 32-bit words. -/
def add32 (a b : Nat) : Nat := (a + b) % 4294967296
/-- Rotation of a 32-bit word to the right. -/
def rotr32 (x n : Nat) : Nat := Nat.lor (Nat.shiftRight x n) (Nat.shiftLeft x (32 - n) % 4294967296)
/-- Complement of a 32-bit word. -/
def not32 (x : Nat) : Nat := 4294967295 - x

/-- FIPS 180-4, section 4.1.2 -/
def bigSigma0 (x : Nat) : Nat := Nat.xor (Nat.xor (rotr32 x 2) (rotr32 x 13)) (rotr32 x 22)
/-- See `bigSigma0`. -/
def bigSigma1 (x : Nat) : Nat := Nat.xor (Nat.xor (rotr32 x 6) (rotr32 x 11)) (rotr32 x 25)
/-- See `bigSigma0`. -/
def smallSigma0 (x : Nat) : Nat := Nat.xor (Nat.xor (rotr32 x 7) (rotr32 x 18)) (Nat.shiftRight x 3)
/-- See `bigSigma0`. -/
def smallSigma1 (x : Nat) : Nat := Nat.xor (Nat.xor (rotr32 x 17) (rotr32 x 19)) (Nat.shiftRight x 10)
/-- See `bigSigma0`. -/
def ch (x y z : Nat) : Nat := Nat.xor (Nat.land x y) (Nat.land (not32 x) z)
/-- See `bigSigma0`. -/
def maj (x y z : Nat) : Nat := Nat.xor (Nat.xor (Nat.land x y) (Nat.land x z)) (Nat.land y z)

/-- The working variables. -/
structure Vars where
  a : Nat
  b : Nat
  c : Nat
  d : Nat
  e : Nat
  f : Nat
  g : Nat
  h : Nat

/-- One round, FIPS 180-4, section 6.2.2, step 3. -/
def round (v : Vars) (k w : Nat) : Vars :=
  (fun t1 t2 => ⟨add32 t1 t2, v.a, v.b, v.c, add32 v.d t1, v.e, v.f, v.g⟩)
    (add32 v.h (add32 (bigSigma1 v.e) (add32 (ch v.e v.f v.g) (add32 k w))))
    (add32 (bigSigma0 v.a) (maj v.a v.b v.c))

/-- The rounds; the list holds the next sixteen words of the message schedule. -/
def rounds : List Nat → Vars → List Nat → Vars
  | [], v, _ => v
  | k :: ks, v, w =>
    match w with
    | [w0, w1, w2, w3, w4, w5, w6, w7, w8, w9, w10, w11, w12, w13, w14, w15] =>
      rounds ks (round v k w0) [w1, w2, w3, w4, w5, w6, w7, w8, w9, w10, w11, w12, w13, w14, w15,
        add32 (smallSigma1 w14) (add32 w9 (add32 (smallSigma0 w1) w0))]
    | _ => v

/-- One block. -/
def compress (hs w : List Nat) : List Nat :=
  match hs with
  | [a, b, c, d, e, f, g, h] =>
    (fun v => [add32 a v.a, add32 b v.b, add32 c v.c, add32 d v.d, add32 e v.e, add32 f v.f, add32 g v.g, add32 h v.h])
      (rounds k256 ⟨a, b, c, d, e, f, g, h⟩ w)
  | _ => hs

/-- A big-endian number. -/
def beNat (bs : Bytes) : Nat := bs.foldl (fun n b => n * 256 + b.toNat) 0

/-- The big-endian bytes of a number. -/
def beBytes : Nat → Nat → Bytes
  | 0, _ => []
  | k + 1, n => beBytes k (n / 256) ++ [UInt8.ofNat (n % 256)]

/-- The big-endian 32-bit words of a byte string. -/
def beWords : Bytes → List Nat
  | b0 :: b1 :: b2 :: b3 :: rest => beNat [b0, b1, b2, b3] :: beWords rest
  | _ => []

/-- FIPS 180-4, section 5.1.1 -/
def padded (m : Bytes) : Bytes :=
  m ++ 0x80 :: List.replicate ((119 - m.length % 64) % 64) 0 ++ beBytes 8 (m.length * 8)

/-- All blocks; `n` bounds their number. -/
def blocks : Nat → List Nat → List Nat → List Nat
  | 0, hs, _ => hs
  | n + 1, hs, ws =>
    match ws with
    | [] => hs
    | _ => blocks n (compress hs (ws.take 16)) (ws.drop 16)

/-- SHA-256 and SHA-224 before truncation. -/
def sha2 (init : List Nat) (m : Bytes) : Bytes :=
  (blocks (m.length / 64 + 2) init (beWords (padded m))).flatMap (beBytes 4)

/-- A digest as a `Hash`; the digests below always have 32 bytes, so nothing is cut off or added. -/
def toHash (b : Bytes) : Hash := ⟨(b ++ List.replicate 32 0).take 32, by simp⟩

/-- SHA-256 -/
def sha256 (m : Bytes) : Hash := toHash (sha2 init256 m)

/-- SHA-224 -/
def sha224 (m : Bytes) : Bytes := (sha2 init224 m).take 28

/-- Keccak round constants. -/
def keccakRc : List Nat := [
    0x0000000000000001, 0x0000000000008082, 0x800000000000808a, 0x8000000080008000,
    0x000000000000808b, 0x0000000080000001, 0x8000000080008081, 0x8000000000008009,
    0x000000000000008a, 0x0000000000000088, 0x0000000080008009, 0x000000008000000a,
    0x000000008000808b, 0x800000000000008b, 0x8000000000008089, 0x8000000000008003,
    0x8000000000008002, 0x8000000000000080, 0x000000000000800a, 0x800000008000000a,
    0x8000000080008081, 0x8000000000008080, 0x0000000080000001, 0x8000000080008008]

/-- Rotation of a 64-bit word to the left. -/
def rotl64 (x n : Nat) : Nat :=
  Nat.lor (Nat.shiftLeft x n % 18446744073709551616) (Nat.shiftRight x (64 - n))
/-- Complement of a 64-bit word. -/
def not64 (x : Nat) : Nat := 18446744073709551615 - x

/-- Five lanes with equal y. -/
structure Plane where
  l0 : Nat
  l1 : Nat
  l2 : Nat
  l3 : Nat
  l4 : Nat

/-- The 25 lanes. -/
structure Lanes where
  p0 : Plane
  p1 : Plane
  p2 : Plane
  p3 : Plane
  p4 : Plane

/-- Exclusive or of five lanes. -/
def xor5 (a b c d e : Nat) : Nat := Nat.xor a (Nat.xor b (Nat.xor c (Nat.xor d e)))

/-- Column parities. -/
def parity (s : Lanes) : Plane :=
  ⟨xor5 s.p0.l0 s.p1.l0 s.p2.l0 s.p3.l0 s.p4.l0, xor5 s.p0.l1 s.p1.l1 s.p2.l1 s.p3.l1 s.p4.l1,
    xor5 s.p0.l2 s.p1.l2 s.p2.l2 s.p3.l2 s.p4.l2, xor5 s.p0.l3 s.p1.l3 s.p2.l3 s.p3.l3 s.p4.l3,
    xor5 s.p0.l4 s.p1.l4 s.p2.l4 s.p3.l4 s.p4.l4⟩

/-- What theta adds to each column. -/
def thetaD (c : Plane) : Plane :=
  ⟨Nat.xor c.l4 (rotl64 c.l1 1), Nat.xor c.l0 (rotl64 c.l2 1), Nat.xor c.l1 (rotl64 c.l3 1),
    Nat.xor c.l2 (rotl64 c.l4 1), Nat.xor c.l3 (rotl64 c.l0 1)⟩

/-- Exclusive or of planes. -/
def Plane.xor (a b : Plane) : Plane :=
  ⟨Nat.xor a.l0 b.l0, Nat.xor a.l1 b.l1, Nat.xor a.l2 b.l2, Nat.xor a.l3 b.l3, Nat.xor a.l4 b.l4⟩

/-- Step theta. -/
def theta (s : Lanes) : Lanes :=
  (fun d => ⟨s.p0.xor d, s.p1.xor d, s.p2.xor d, s.p3.xor d, s.p4.xor d⟩) (thetaD (parity s))

/-- Steps rho and pi: the lane at (x, y), rotated, goes to (y, 2x+3y). -/
def rhoPi (s : Lanes) : Lanes :=
  ⟨⟨rotl64 s.p0.l0 0, rotl64 s.p1.l1 44, rotl64 s.p2.l2 43, rotl64 s.p3.l3 21, rotl64 s.p4.l4 14⟩,
    ⟨rotl64 s.p0.l3 28, rotl64 s.p1.l4 20, rotl64 s.p2.l0 3, rotl64 s.p3.l1 45, rotl64 s.p4.l2 61⟩,
    ⟨rotl64 s.p0.l1 1, rotl64 s.p1.l2 6, rotl64 s.p2.l3 25, rotl64 s.p3.l4 8, rotl64 s.p4.l0 18⟩,
    ⟨rotl64 s.p0.l4 27, rotl64 s.p1.l0 36, rotl64 s.p2.l1 10, rotl64 s.p3.l2 15, rotl64 s.p4.l3 56⟩,
    ⟨rotl64 s.p0.l2 62, rotl64 s.p1.l3 55, rotl64 s.p2.l4 39, rotl64 s.p3.l0 41, rotl64 s.p4.l1 2⟩⟩

/-- Step chi on a plane. -/
def Plane.chi (a : Plane) : Plane :=
  ⟨Nat.xor a.l0 (Nat.land (not64 a.l1) a.l2), Nat.xor a.l1 (Nat.land (not64 a.l2) a.l3),
    Nat.xor a.l2 (Nat.land (not64 a.l3) a.l4), Nat.xor a.l3 (Nat.land (not64 a.l4) a.l0),
    Nat.xor a.l4 (Nat.land (not64 a.l0) a.l1)⟩

/-- Steps chi and iota. -/
def chiIota (s : Lanes) (rc : Nat) : Lanes :=
  (fun p => ⟨⟨Nat.xor p.l0 rc, p.l1, p.l2, p.l3, p.l4⟩, s.p1.chi, s.p2.chi, s.p3.chi, s.p4.chi⟩) s.p0.chi

/-- Keccak-f[1600] -/
def keccakF (s : Lanes) : Lanes := keccakRc.foldl (fun s rc => chiIota (rhoPi (theta s)) rc) s

/-- Little-endian 64-bit words of a byte string. -/
def leWords : Bytes → List Nat
  | b0 :: b1 :: b2 :: b3 :: b4 :: b5 :: b6 :: b7 :: rest => beNat [b7, b6, b5, b4, b3, b2, b1, b0] :: leWords rest
  | _ => []

/-- Padding of Keccak (not SHA-3) for a rate of 136 bytes. -/
def keccakPadded (m : Bytes) : Bytes :=
  (fun n => if n = 1 then m ++ [0x81] else m ++ 0x01 :: List.replicate (n - 2) 0 ++ [0x80]) (136 - m.length % 136)

/-- Add a block of 17 words to the state. -/
def absorb (s : Lanes) (w : List Nat) : Lanes :=
  match w with
  | [w0, w1, w2, w3, w4, w5, w6, w7, w8, w9, w10, w11, w12, w13, w14, w15, w16] =>
    ⟨s.p0.xor ⟨w0, w1, w2, w3, w4⟩, s.p1.xor ⟨w5, w6, w7, w8, w9⟩, s.p2.xor ⟨w10, w11, w12, w13, w14⟩,
      s.p3.xor ⟨w15, w16, 0, 0, 0⟩, s.p4⟩
  | _ => s

/-- All blocks; `n` bounds their number. -/
def keccakBlocks : Nat → Lanes → List Nat → Lanes
  | 0, s, _ => s
  | n + 1, s, ws =>
    match ws with
    | [] => s
    | _ => keccakBlocks n (keccakF (absorb s (ws.take 17))) (ws.drop 17)

/-- The state before the first block. -/
def keccakStart : Lanes :=
  ⟨⟨0, 0, 0, 0, 0⟩, ⟨0, 0, 0, 0, 0⟩, ⟨0, 0, 0, 0, 0⟩, ⟨0, 0, 0, 0, 0⟩, ⟨0, 0, 0, 0, 0⟩⟩

/-- Keccak-256 -/
def keccak (m : Bytes) : Hash :=
  (fun s => toHash ([s.p0.l0, s.p0.l1, s.p0.l2, s.p0.l3].flatMap fun l => (beBytes 8 l).reverse))
    (keccakBlocks (m.length / 136 + 1) keccakStart (leWords (keccakPadded m)))

end Siwe.Concrete
