import Verif.Model.Provider
/-
The texts of the errors the canister returns: the `Display` implementations of packages/ic_siwe/src and the literals of
packages/ic_siwe_provider/src/service.  The provider's methods turn every error into its text (`From<…> for String`).
-/
namespace Siwe

/-- Lower-case hexadecimal digits of a number below 256 without a leading zero. -/
def shortHex (n : UInt8) : Bytes := if n < 16 then [hexDigit n] else [hexDigit (n >>> 4), hexDigit (n &&& 0x0f)]

/-- The `Debug` form of a `char` below U+0100 (core::char::escape_debug), without the quotes: the usual escapes, `\u{…}` for
characters that are not printable (controls, no-break space, soft hyphen), otherwise the character itself in UTF-8. -/
def charDebug (c : UInt8) : Bytes :=
  if c = 0 then ascii "\\0"
  else if c = 9 then ascii "\\t"
  else if c = 10 then ascii "\\n"
  else if c = 13 then ascii "\\r"
  else if c = 39 then ascii "\\'"
  else if c = 92 then ascii "\\\\"
  else if c < 32 ∨ (127 ≤ c ∧ c ≤ 160) ∨ c = 173 then ascii "\\u{" ++ shortHex c ++ ascii "}"
  else if c < 128 then [c]
  else [(0xc0 : UInt8) ||| (c >>> 6), (0x80 : UInt8) ||| (c &&& 0x3f)]

/-- `impl Display for hex::FromHexError`; the offending byte is shown as the `char` with that number. -/
def FromHexError.text : FromHexError → Bytes
  | .invalidHexCharacter c index => ascii "Invalid character '" ++ charDebug c ++ ascii "' at position " ++ decimal index
  | .oddLength => ascii "Odd number of digits"

/-- eth.rs:22-36 `impl Display for EthError`, with the payloads of eth.rs:60-62,68,111-113,282-285.  A character outside
ASCII in `Unrecognized hex character` is only given by its first byte (see `eip55Chars`). -/
def EthError.text : EthError → Bytes
  | .addressFormatError => ascii "Address format error: Must start with '0x' and be 42 characters long"
  | .decodingError e => ascii "Decoding error: " ++ e.text
  | .signatureFormatError => ascii "Signature format error: Must start with '0x' and be 132 characters long"
  | .invalidSignature => ascii "Invalid signature"
  | .invalidRecoveryId => ascii "Invalid recovery ID"
  | .publicKeyRecoveryFailure => ascii "Public key recovery failure"
  | .notEip55 => ascii "EIP-55 error: Not EIP-55 encoded"
  | .unrecognizedHexCharacter c i =>
    ascii "EIP-55 error: Unrecognized hex character '" ++ c :: ascii "' at position " ++ decimal i

/-- delegation.rs:29-45 `impl Display for DelegationError`, with the payloads of delegation.rs:115-131.  The text the DER parser
adds is the parameter. -/
def DelegationError.text (derText : Bytes) : DelegationError → Bytes
  | .signatureNotFound => ascii "Signature not found"
  | .witnessHashMismatch w r =>
    ascii "Internal error: signature map computed an invalid hash tree, witness hash is " ++ hexEncode w.bytes ++
      ascii ", root hash is " ++ hexEncode r.bytes
  | .sessionKeyEmpty => ascii "Invalid session key: Session key is empty"
  | .sessionKeyNotDer => ascii "Invalid session key: Session key should be DER-encoded: " ++ derText
  | .invalidExpiration => ascii "Invalid expiration: Expiration is 0"
  | .signatureExpired => ascii "Signature expired"

/-- login.rs:101-111 `impl Display for LoginError`; siwe.rs:18-24 for the message error -/
def LoginError.text (derText : Bytes) : LoginError → Bytes
  | .eth e => e.text
  | .messageNotFound => ascii "Message not found"
  | .addressMismatch => ascii "Recovered address does not match"
  | .delegation e => e.text derText

/-- The `Err` values of the provider's methods: siwe_prepare_login.rs:22-30, siwe_login.rs:31-64, siwe_get_delegation.rs:35-58,
get_address.rs:20-39, get_caller_address.rs:18-20, get_principal.rs:18-31. -/
def ProviderError.text (derText : Bytes) : ProviderError → Bytes
  | .eth e => e.text
  | .login e => e.text derText
  | .delegation e => e.text derText
  | .invalidPrincipal => ascii "Invalid principal: " -- the details follow; does not arise (siwe_login.rs:53-56)
  | .principalToEthDisabled => ascii "Principal to Ethereum address mapping is disabled"
  | .ethToPrincipalDisabled => ascii "Ethereum address to principal mapping is disabled"
  | .notABlob => ascii "Failed to convert ByteBuf to Blob<29>"
  | .noAddress => ascii "No address found for the given principal"
  | .noPrincipal => ascii "No principal found for the given address"

end Siwe
