import Verif.Spec.Mapping
/-
The kinds of principals, by the IC interface specification ("Principals"): the last byte of an id tells its class.
-/
namespace Siwe.Spec

/-- Whom a principal stands for: the management canister, a canister (an opaque id), the holder of a key (a self-authenticating id), a
principal derived by another canister, or everybody who does not sign. -/
inductive PrincipalKind where
  | management
  | canister
  | keyHolder
  | derived
  | anonymous
  | reserved
  deriving DecidableEq

/-- The class of an id. -/
def principalKind (p : Bytes) : PrincipalKind :=
  match p.getLast? with
  | none => .management
  | some 0x01 => .canister
  | some 0x02 => .keyHolder
  | some 0x03 => .derived
  | some 0x04 => .anonymous
  | some _ => .reserved

end Siwe.Spec
