import Verif.Spec.Time
import Verif.Spec.Eth
import Verif.Model.Message
/-
Independent specification of the ERC-4361 message text and of hash collisions.
-/
namespace Siwe.Spec

/-- Two different byte strings with the same hash. -/
def Collision {H : Type} (hash : Bytes → H) (x y : Bytes) : Prop := x ≠ y ∧ hash x = hash y

/-- `txt` is an RFC 3339 UTC timestamp of exactly the nanosecond `t`. -/
def IsInstant (t : Nat) (txt : Bytes) : Prop := ∃ c : Civil, IsTimestamp txt c ∧ c.Valid ∧ c.toNanos = t

/-- The fields shown in a sign-in message. -/
structure Shown where
  domain : Bytes
  address : Bytes
  statement : Bytes
  uri : Bytes
  version : Nat
  chainId : Nat
  nonce : Bytes
  issuedAt : Nat
  expirationTime : Nat
  deriving DecidableEq

/-- `txt` is the ERC-4361 text with these fields. -/
def IsSiweText (f : Shown) (txt : Bytes) : Prop :=
  ∃ version chainId issued expires,
    IsDecimal f.version version ∧ IsDecimal f.chainId chainId ∧
    IsInstant f.issuedAt issued ∧ IsInstant f.expirationTime expires ∧
    txt = f.domain ++ ascii " wants you to sign in with your Ethereum account:\n"
      ++ f.address ++ ascii "\n\n"
      ++ f.statement ++ ascii "\n\n"
      ++ ascii "URI: " ++ f.uri ++ ascii "\n"
      ++ ascii "Version: " ++ version ++ ascii "\n"
      ++ ascii "Chain ID: " ++ chainId ++ ascii "\n"
      ++ ascii "Nonce: " ++ f.nonce ++ ascii "\n"
      ++ ascii "Issued At: " ++ issued ++ ascii "\n"
      ++ ascii "Expiration Time: " ++ expires

/-- The fields a message shows (all but its scheme). -/
def shown (m : SiweMessage) : Shown :=
  ⟨m.domain, m.address, m.statement, m.uri, m.version.toNat, m.chainId.toNat, m.nonce, m.issuedAt.toNat,
    m.expirationTime.toNat⟩

/-- The string under whose hash a pending sign-in of a 20-byte address is stored. -/
def pendingKey (addressBytes nonce : Bytes) : Bytes :=
  [20] ++ addressBytes ++ [UInt8.ofNat nonce.length] ++ nonce

/-- No line feed. -/
def OneLine (b : Bytes) : Prop := (10 : UInt8) ∉ b

end Siwe.Spec
