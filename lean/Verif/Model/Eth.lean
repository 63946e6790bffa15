import Verif.Model.Hex
import Verif.Model.Env
/-
packages/ic_siwe/src/eth.rs
-/
namespace Siwe

/-- eth.rs:5-14 `EthError`.  The constant string payloads are left out; `Eip55Error` is split by its two
messages (eth.rs:68 and eth.rs:282-285). -/
inductive EthError where
  | addressFormatError
  | decodingError (e : FromHexError)
  | signatureFormatError
  | invalidSignature
  | invalidRecoveryId
  | publicKeyRecoveryFailure
  | notEip55
  | unrecognizedHexCharacter (c : UInt8) (pos : Nat)
  deriving DecidableEq, Repr

/-- The prefix `"0x"`. -/
def prefix0x : Bytes := [48, 120]

/-- `str::starts_with("0x")`, eth.rs:59,110,246. -/
def startsWith0x (s : Bytes) : Bool := prefix0x.isPrefixOf s

/-- `str::strip_prefix("0x")`, eth.rs:81,87,127,133,247. -/
def stripPrefix0x (s : Bytes) : Option Bytes :=
  if startsWith0x s then some (s.drop 2) else none

/-- `u8::to_ascii_lowercase`. -/
def toLower (c : UInt8) : UInt8 := if 65 ≤ c ∧ c ≤ 90 then c + 32 else c

/-- `u8::to_ascii_uppercase`. -/
def toUpper (c : UInt8) : UInt8 := if 97 ≤ c ∧ c ≤ 122 then c - 32 else c

/-- eth.rs:263-289, the closure applied to each `(i, c)`, in order, stopping at the first `Err`.
`hash[i / 2]` (eth.rs:269,271) is evaluated only for letters and panics when out of bounds.
A multi-byte character is reported here by its first byte. -/
def eip55Chars (hash : Hash) (i : Nat) : Bytes → Res EthError Bytes
  | [] => .ok []
  | c :: rest => do
    let r ←
      if 48 ≤ c ∧ c ≤ 57 then (.ok c : Res EthError UInt8)
      else if (97 ≤ c ∧ c ≤ 102) ∨ (65 ≤ c ∧ c ≤ 70) then
        match hash.bytes[i / 2]? with
        | none => .panic
        | some hb =>
          let nibble := if i % 2 = 0 then (hb >>> 4) &&& 0x0f else hb &&& 0x0f
          if nibble ≥ 8 then .ok (toUpper c) else .ok (toLower c)
      else .err (.unrecognizedHexCharacter c i)
    let t ← eip55Chars hash (i + 1) rest
    .ok (r :: t)

/-- eth.rs:245-294 `convert_to_eip55`.  `to_lowercase` (eth.rs:252) is Unicode lowercasing; it is modelled by
ASCII lowercasing, which agrees on ASCII input.  On other input the hash is not observable: the outcome
is an error or panic that does not depend on it. -/
def convertToEip55 (E : Env) (address : Bytes) : Res EthError Bytes := do
  let trimmed := if startsWith0x address then address.drop 2 else address
  let hash := E.keccak (trimmed.map toLower)
  let checksummed ← eip55Chars hash 0 trimmed
  .ok (prefix0x ++ checksummed)

/-- eth.rs:49 `EthAddress(String)`; the field is private, values come from `EthAddress.new`. -/
structure EthAddress where
  str : Bytes
  deriving DecidableEq

/-- eth.rs:58-72 `EthAddress::new`. -/
def EthAddress.new (E : Env) (address : Bytes) : Res EthError EthAddress := do
  if !startsWith0x address || address.length ≠ 42 then .err .addressFormatError
  else
    let _ ← (hexDecode (address.drop 2)).mapErr .decodingError
    let c ← (convertToEip55 E address).unwrap
    if address ≠ c then .err .notEip55
    else .ok ⟨address⟩

/-- eth.rs:80-83 `EthAddress::as_bytes` (both unwraps kept). -/
def EthAddress.asBytes (a : EthAddress) : Res EthError Bytes :=
  match stripPrefix0x a.str with
  | none => .panic
  | some s => (hexDecode s).unwrap

/-- eth.rs:86-92 `EthAddress::as_byte_array`: `copy_from_slice` panics unless there are exactly 20 bytes. -/
def EthAddress.asByteArray (a : EthAddress) : Res EthError Bytes := do
  match stripPrefix0x a.str with
  | none => .panic
  | some s =>
    let bytes ← (hexDecode s).unwrap
    if bytes.length = 20 then .ok bytes else .panic

/-- eth.rs:100 `EthSignature(String)`. -/
structure EthSignature where
  str : Bytes
  deriving DecidableEq

/-- eth.rs:109-118 `EthSignature::new`. -/
def EthSignature.new (signature : Bytes) : Res EthError EthSignature := do
  if !startsWith0x signature || signature.length ≠ 132 then .err .signatureFormatError
  else
    let _ ← (hexDecode (signature.drop 2)).mapErr .decodingError
    .ok ⟨signature⟩

/-- eth.rs:126-129 `EthSignature::as_bytes`. -/
def EthSignature.asBytes (s : EthSignature) : Res EthError Bytes :=
  match stripPrefix0x s.str with
  | none => .panic
  | some t => (hexDecode t).unwrap

/-- eth.rs:132-138 `EthSignature::as_byte_array`. -/
def EthSignature.asByteArray (s : EthSignature) : Res EthError Bytes := do
  match stripPrefix0x s.str with
  | none => .panic
  | some t =>
    let bytes ← (hexDecode t).unwrap
    if bytes.length = 65 then .ok bytes else .panic

/-- Decimal digits, most significant first; the first argument bounds their number. -/
def decimalGo : Nat → Nat → Bytes
  | 0, _ => []
  | fuel + 1, n =>
    if n < 10 then [UInt8.ofNat (48 + n)] else decimalGo fuel (n / 10) ++ [UInt8.ofNat (48 + n % 10)]

/-- `format!("{}")` of a `usize`/`u32`/`u8`, eth.rs:199, siwe.rs:141-142. -/
def decimal (n : Nat) : Bytes := decimalGo (n + 1) n

/-- eth.rs:198-200 `eip191_bytes`; `message.len()` is the UTF-8 length. -/
def eip191Bytes (message : Bytes) : Bytes :=
  ascii "\x19Ethereum Signed Message:\n" ++ decimal message.length ++ message

/-- eth.rs:179-186 `eip191_hash`. -/
def eip191Hash (E : Env) (message : Bytes) : Hash := E.keccak (eip191Bytes message)

/-- eth.rs:208-214 `bytes_to_eth_address`. -/
def bytesToEthAddress (b : Bytes) : Bytes := prefix0x ++ hexEncode b

/-- eth.rs:225-233 `derive_eth_address_from_public_key`; the key is given as the 64 bytes x‖y. -/
def deriveEthAddressFromPublicKey (E : Env) (key : Bytes) : Res EthError Bytes :=
  convertToEip55 E ((hexEncode (E.keccak key).bytes).drop 24)

/-- eth.rs:151-167 `recover_eth_address`.  `RecoveryId::try_from(u8)` accepts 0..=3. -/
def recoverEthAddress (E : Env) (message : Bytes) (signature : EthSignature) : Res EthError Bytes := do
  let messageHash := eip191Hash E message
  let bytes ← signature.asBytes
  match bytes[64]? with
  | none => .panic
  | some v =>
    let recid := v % 27
    if recid > 3 then .err .invalidRecoveryId
    else if !E.sigOk (bytes.take 64) then .err .invalidSignature
    else
      match E.recoverKey messageHash (bytes.take 64) recid with
      | none => .err .publicKeyRecoveryFailure
      | some key => deriveEthAddressFromPublicKey E key

end Siwe
