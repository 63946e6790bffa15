import Verif.Spec.Ecdsa
import Verif.Spec.Trace
/-
What an Ethereum wallet does when it is asked to sign a text (`personal_sign`): EIP-191 and ECDSA on secp256k1.
-/
namespace Siwe.Spec
open Siwe.Secp

/-- The canister's signature functions are the real ones (Model/Secp256k1.lean). Hash functions, random numbers and all
else stay arbitrary. -/
structure UsesSecp256k1 (E : Env) : Prop where
  sigOk : E.sigOk = Secp.sigOk
  recoverKey : E.recoverKey = Secp.recoverKey

/-- The number with the given digits to the base 256, most significant first. -/
def bigEndian : Bytes → Nat
  | [] => 0
  | b :: bs => b.toNat * 256 ^ bs.length + bigEndian bs

/-- The 32-byte notation of a number. -/
def Bytes32 (n : Nat) (bs : Bytes) : Prop := bs.length = 32 ∧ bigEndian bs = n

/-- The address of a public key: the last 20 bytes of the hash of its coordinates, in hex. -/
def IsAddressOf (E : Env) (Q : CurvePoint) (addr : Bytes) : Prop :=
  ∃ x y h bx by', Q = .some x y h ∧ Bytes32 x.val bx ∧ Bytes32 y.val by' ∧
    Spells (addr.drop 2) ((E.keccak (bx ++ by')).bytes.drop 12)

/-- The signature (65 bytes in hex, after `0x`) is one that a wallet with the private key `d` makes for the text: `r`, `s` and a
byte that is the recovery id modulo 27 (wallets write the recovery id or 27 more). -/
def WalletSigns (E : Env) (d : Nat) (text sig : Bytes) : Prop :=
  ∃ k r s recid signed br bs v, 0 < k ∧ k < orderN ∧ IsPersonalMessage text signed ∧
    EcdsaSigns d k (bigEndian (E.keccak signed).bytes) r s recid ∧ Bytes32 r br ∧ Bytes32 s bs ∧
    v.toNat % 27 = recid ∧ HexString 130 sig ∧ Spells (sig.drop 2) (br ++ bs ++ [v])

/-- A private key. -/
def IsPrivateKey (d : Nat) : Prop := 0 < d ∧ d < orderN

end Siwe.Spec
