import Verif.Model.Env
/-
A small computable instantiation of the parameters, used only to exhibit concrete non-trivial cases that meet
the theorems' hypotheses.  The "hashes" keep the last (SHA) or first (Keccak) bytes of their input.
-/
namespace Siwe.Toy

/-- pad or cut to `n` bytes -/
def fit (n : Nat) (b : Bytes) : Bytes := (b ++ List.replicate n 0).take n

theorem fit_len (n : Nat) (b : Bytes) : (fit n b).length = n := by
  simp [fit]

/-- byte sum and length (mod 256), then the last bytes: distinguishes all inputs used in the examples -/
def digest (b : Bytes) : Bytes :=
  UInt8.ofNat (b.foldl (fun a c => 31 * a + c.toNat) 7) :: UInt8.ofNat (b.foldl (fun a c => 7 * a + c.toNat) 3 / 256) ::
    UInt8.ofNat b.length :: b.reverse

/-- Toy parameters: the recovered key is the signature itself, every non-empty session key is DER, every URL
containing a byte parses with a host. -/
def env : Env where
  sha256 b := ⟨fit 32 (digest b), fit_len _ _⟩
  sha224 b := ⟨fit 28 (digest b), fit_len _ _⟩
  keccak b := ⟨fit 32 b, fit_len _ _⟩
  sigOk b := b.any (· ≠ 0)
  recoverKey _ s _ := some s
  derOk b := b.head? = some 48
  urlParse b := if b.isEmpty then none else some ⟨true, some b⟩
  principalFromText b := if b.length ≤ 29 then some b else none
  Rng := Nat
  rngFromSeed b := b.length
  rngFill10 n := (⟨List.replicate 9 0 ++ [UInt8.ofNat n], by simp⟩, n + 1)
  canisterId := [0, 0, 0, 0, 0, 0, 0, 1, 1, 1]
  canisterId_len := by decide

end Siwe.Toy
