import Verif.Spec.Reload
import Verif.Spec.Eth
/- Which texts in local storage @dfinity/identity takes for a session identity and for a delegation chain. -/
namespace Siwe.Spec

/-- Hex digits, in any letter case, two for a byte; an odd one at the end is a byte of its own. -/
def HexBytes (s bs : Bytes) : Prop :=
  Spells s bs ∨ ∃ s' bs' c, s = s' ++ [c] ∧ Spells s' bs' ∧ isHexDigit c = true ∧ bs = bs' ++ [UInt8.ofNat (digitValue c)]

/-- The number with these hex digits, most significant first. -/
def hexNumber (s : Bytes) : Nat := s.foldl (fun n c => 16 * n + digitValue c) 0

/-- A string of at least 64 hex digits for these bytes. -/
def IsBlob (j : Json) (bs : Bytes) : Prop := ∃ s, j = .str s ∧ 64 ≤ s.length ∧ HexBytes s bs

/-- The JSON value is a delegation chain with one delegation. -/
def IsChainJson (j : Json) (c : Chain) : Prop :=
  ∃ signed d key sig pub exp, j.field (ascii "delegations") = some (.arr [signed]) ∧ signed.field (ascii "delegation") = some d ∧
    d.field (ascii "pubkey") = some key ∧ IsBlob key c.delegation.pubkey ∧
    signed.field (ascii "signature") = some sig ∧ IsBlob sig c.signature ∧
    j.field (ascii "publicKey") = some pub ∧ IsBlob pub c.publicKey ∧
    d.field (ascii "expiration") = some (.str exp) ∧ exp ≠ [] ∧ (∀ x ∈ exp, isHexDigit x = true) ∧
    hexNumber exp = c.delegation.expiration.toNat ∧
    ((d.field (ascii "targets") = none ∧ c.delegation.targets = none) ∨
      ∃ l ts, d.field (ascii "targets") = some (.arr l) ∧ c.delegation.targets = some ts ∧
        List.Forall₂ (fun x t => ∃ s, x = Json.str s ∧ HexBytes s t) l ts)

/-- A length in DER, of up to three bytes; superfluous zeros are let pass. -/
def DerLength (l : Bytes) (n : Nat) : Prop :=
  (∃ b : UInt8, l = [b] ∧ b < 0x80 ∧ n = b.toNat) ∨ (∃ x : UInt8, l = [0x81, x] ∧ n = x.toNat) ∨
    (∃ x y : UInt8, l = [0x82, x, y] ∧ n = 256 * x.toNat + y.toNat) ∨
    ∃ x y z : UInt8, l = [0x83, x, y, z] ∧ n = 65536 * x.toNat + 256 * y.toNat + z.toNat

/-- RFC 8410, a public key for Ed25519: a sequence of the algorithm's identifier and the key as a bit string. What the sequence's own length
says is let pass. -/
def IsEd25519Der (der pub : Bytes) : Prop :=
  ∃ l n l', DerLength l n ∧ DerLength l' (pub.length + 1) ∧
    der = [0x30] ++ l ++ [0x30, 0x05, 0x06, 0x03, 0x2b, 0x65, 0x70] ++ [0x03] ++ l' ++ [0x00] ++ pub

end Siwe.Spec
