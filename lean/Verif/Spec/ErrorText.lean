import Verif.Model.Provider
/-
The reasons for which the canister refuses a call.
-/
namespace Siwe.Spec

/-- Why a call was refused, whatever the method and the layer that noticed it. -/
inductive Reason where
  /-- an address or a signature was refused, or no key could be recovered -/
  | eth (e : EthError)
  | messageNotFound
  | otherSigner
  /-- the session key, the expiration or the requested delegation -/
  | delegation (e : DelegationError)
  | invalidPrincipal
  | principalToEthDisabled
  | ethToPrincipalDisabled
  | principalTooLong
  | noAddress
  | noPrincipal
  deriving DecidableEq

/-- The reason behind an error value: `siwe_login` wraps the errors of its parts. -/
def reason : ProviderError → Reason
  | .eth e => .eth e
  | .login (.eth e) => .eth e
  | .login .messageNotFound => .messageNotFound
  | .login .addressMismatch => .otherSigner
  | .login (.delegation e) => .delegation e
  | .delegation e => .delegation e
  | .invalidPrincipal => .invalidPrincipal
  | .principalToEthDisabled => .principalToEthDisabled
  | .ethToPrincipalDisabled => .ethToPrincipalDisabled
  | .notABlob => .principalTooLong
  | .noAddress => .noAddress
  | .noPrincipal => .noPrincipal

/-- The reasons for which an address is refused. -/
def AddressReason (r : Reason) : Prop :=
  r = .eth .addressFormatError ∨ (∃ c i, i < 40 ∧ r = .eth (.decodingError (.invalidHexCharacter c i))) ∨ r = .eth .notEip55

/-- The reasons for which a session key is refused. -/
def SessionKeyReason (r : Reason) : Prop := r = .delegation .sessionKeyEmpty ∨ r = .delegation .sessionKeyNotDer

/-- The reasons for which each method may refuse a call. -/
def MayRefuse (op : Op) (r : Reason) : Prop :=
  match op with
  | .install _ | .upgrade _ | .rngSeeded _ => False
  | .prepareLogin _ => AddressReason r
  | .login _ _ _ _ =>
    AddressReason r ∨ r = .eth .signatureFormatError ∨
    (∃ c i, i < 130 ∧ r = .eth (.decodingError (.invalidHexCharacter c i))) ∨
    r = .messageNotFound ∨
    r = .eth .invalidRecoveryId ∨ r = .eth .invalidSignature ∨ r = .eth .publicKeyRecoveryFailure ∨
    r = .otherSigner ∨ SessionKeyReason r
  | .getDelegation _ _ _ _ =>
    AddressReason r ∨ SessionKeyReason r ∨ r = .delegation .invalidExpiration ∨
    r = .delegation .signatureExpired ∨ r = .delegation .signatureNotFound
  | .getAddress _ | .getCallerAddress _ => r = .principalToEthDisabled ∨ r = .principalTooLong ∨ r = .noAddress
  | .getPrincipal _ => r = .ethToPrincipalDisabled ∨ AddressReason r ∨ r = .noPrincipal

/-- A UTF-8 text of printable characters below U+0100: no control characters (U+0000-U+001F, U+007F-U+009F), no no-break space (U+00A0)
and no soft hyphen (U+00AD). -/
inductive Printable : Bytes → Prop
  | nil : Printable []
  | ascii (c : UInt8) (l : Bytes) : 32 ≤ c → c ≤ 126 → Printable l → Printable (c :: l)
  | twoBytes2 (c : UInt8) (l : Bytes) : 0xa1 ≤ c → c ≤ 0xbf → c ≠ 0xad → Printable l → Printable (0xc2 :: c :: l)
  | twoBytes3 (c : UInt8) (l : Bytes) : 0x80 ≤ c → c ≤ 0xbf → Printable l → Printable (0xc3 :: c :: l)

end Siwe.Spec
