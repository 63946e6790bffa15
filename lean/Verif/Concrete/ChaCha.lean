import Verif.Concrete.Hashes
/-
The ChaCha20 generator of the rand_chacha crate: key = seed, 64-bit block counter from 0, stream 0; `fill_bytes` takes whole
32-bit words, dropping what is left of the last one.  Not part of the model (see Concrete/Hashes.lean); it instantiates
`Env.rngFromSeed` and `Env.rngFill10`.
-/
namespace Siwe.Concrete

/-- Rotation of a 32-bit word to the left. -/
def rotl32 (x n : Nat) : Nat := Nat.lor (Nat.shiftLeft x n % 4294967296) (Nat.shiftRight x (32 - n))

/-- Four words. -/
structure Quad where
  a : Nat
  b : Nat
  c : Nat
  d : Nat

/-- RFC 8439, section 2.1 -/
def quarterRound (q : Quad) : Quad :=
  (fun a => (fun d => (fun c => (fun b =>
    (fun a => (fun d => (fun c => (fun b => (⟨a, b, c, d⟩ : Quad))
      (rotl32 (Nat.xor b c) 7)) (add32 c d)) (rotl32 (Nat.xor d a) 8)) (add32 a b))
    (rotl32 (Nat.xor q.b c) 12)) (add32 q.c d)) (rotl32 (Nat.xor q.d a) 16)) (add32 q.a q.b)

/-- The 16 words, by rows. -/
structure Rows where
  r0 : Quad
  r1 : Quad
  r2 : Quad
  r3 : Quad

/-- A column round and a diagonal round. -/
def doubleRound (s : Rows) : Rows :=
  (fun p q r t =>
    (fun p' q' r' t' =>
      (⟨⟨p'.a, q'.a, r'.a, t'.a⟩, ⟨t'.b, p'.b, q'.b, r'.b⟩, ⟨r'.c, t'.c, p'.c, q'.c⟩, ⟨q'.d, r'.d, t'.d, p'.d⟩⟩ : Rows))
      (quarterRound ⟨p.a, q.b, r.c, t.d⟩) (quarterRound ⟨q.a, r.b, t.c, p.d⟩)
      (quarterRound ⟨r.a, t.b, p.c, q.d⟩) (quarterRound ⟨t.a, p.b, q.c, r.d⟩))
    (quarterRound ⟨s.r0.a, s.r1.a, s.r2.a, s.r3.a⟩) (quarterRound ⟨s.r0.b, s.r1.b, s.r2.b, s.r3.b⟩)
    (quarterRound ⟨s.r0.c, s.r1.c, s.r2.c, s.r3.c⟩) (quarterRound ⟨s.r0.d, s.r1.d, s.r2.d, s.r3.d⟩)

/-- The words of a row of the output. -/
def Quad.sum (a b : Quad) : List Nat := [add32 a.a b.a, add32 a.b b.b, add32 a.c b.c, add32 a.d b.d]

/-- Twenty rounds and the final addition. -/
def chachaCore (s : Rows) : List Nat :=
  (fun f => s.r0.sum f.r0 ++ s.r1.sum f.r1 ++ s.r2.sum f.r2 ++ s.r3.sum f.r3)
    (doubleRound (doubleRound (doubleRound (doubleRound (doubleRound (doubleRound (doubleRound (doubleRound
      (doubleRound (doubleRound s))))))))))

/-- Little-endian 32-bit words. -/
def leWords32 : Bytes → List Nat
  | b0 :: b1 :: b2 :: b3 :: rest => beNat [b3, b2, b1, b0] :: leWords32 rest
  | _ => []

/-- The block with the given number: 64 bytes. -/
def chachaBlock (key : Bytes) (counter : Nat) : Bytes :=
  match leWords32 key with
  | [k0, k1, k2, k3, k4, k5, k6, k7] =>
    (chachaCore ⟨⟨0x61707865, 0x3320646e, 0x79622d32, 0x6b206574⟩, ⟨k0, k1, k2, k3⟩, ⟨k4, k5, k6, k7⟩,
      ⟨counter % 4294967296, counter / 4294967296 % 4294967296, 0, 0⟩⟩).flatMap fun w => (beBytes 4 w).reverse
  | _ => []

/-- The generator: its key and the number of words used. -/
structure ChaChaRng where
  key : Bytes
  words : Nat

/-- `fill_bytes` of ten bytes: three words, of which two bytes are dropped. -/
def ChaChaRng.fill10 (r : ChaChaRng) : { b : Bytes // b.length = 10 } × ChaChaRng :=
  (⟨((((chachaBlock r.key (r.words / 16) ++ chachaBlock r.key (r.words / 16 + 1)).drop (r.words % 16 * 4)).take 10) ++
      List.replicate 10 0).take 10, by simp⟩, ⟨r.key, r.words + 3⟩)

end Siwe.Concrete
