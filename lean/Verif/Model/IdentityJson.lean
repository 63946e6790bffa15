import Verif.Model.Storage
/-
The JSON forms of @dfinity/identity 2.2.0 (with @dfinity/agent and @dfinity/principal 2.2.0), which
packages/ic_siwe_js/src/local-storage.ts:26-28,46-47 writes to and reads from local storage: `Ed25519KeyIdentity.toJSON` and
`fromJSON`, `DelegationChain.toJSON` and `fromJSON`.  Dependency modelled from its published source.

Simplifications: a session identity is a number (Model/Client.lean), so `fromJSON` of a pair of keys the page has not generated gives
none; a delegation chain has one delegation (delegation.ts:30-47 makes no others), so a text with several gives none; of the expirations
`BigInt` accepts, those that are not strings, or have white space behind them, or exceed 64 bits give none.
-/
namespace Siwe.IdentityJson

/-- A digit of `Number.prototype.toString(16)`, for numbers below 16. -/
def digitChar (n : Nat) : UInt8 := if n < 10 then UInt8.ofNat (48 + n) else UInt8.ofNat (87 + n)

/-- The value of a digit of base 16, as `parseInt` and `BigInt` take it. -/
def digit (c : UInt8) : Option Nat :=
  if 48 ≤ c ∧ c ≤ 57 then some (c.toNat - 48)
  else if 97 ≤ c ∧ c ≤ 102 then some (c.toNat - 87)
  else if 65 ≤ c ∧ c ≤ 70 then some (c.toNat - 55)
  else none

/-- @dfinity/agent, `toHex`: each byte `toString(16)`, padded with `0` to two digits. -/
def toHex : Bytes → Bytes
  | [] => []
  | b :: bs => digitChar (b.toNat / 16) :: digitChar (b.toNat % 16) :: toHex bs

/-- `String.prototype.toUpperCase`, for ASCII. -/
def upper (c : UInt8) : UInt8 := if 97 ≤ c ∧ c ≤ 122 then c - 32 else c

/-- @dfinity/principal, `Principal.toHex`. -/
def principalToHex (bs : Bytes) : Bytes := (toHex bs).map upper

/-- The bytes of pairs of digits; an odd digit at the end is a byte of its own. -/
def pairs : Bytes → Option Bytes
  | [] => some []
  | [a] => match digit a with
    | some x => some [UInt8.ofNat x]
    | none => none
  | a :: b :: rest =>
    match digit a, digit b, pairs rest with
    | some x, some y, some bs => some (UInt8.ofNat (16 * x + y) :: bs)
    | _, _, _ => none

/-- @dfinity/agent, `fromHex`: throws unless the text matches `^[0-9a-fA-F]+$`. -/
def fromHex (s : Bytes) : Option Bytes := if s.isEmpty then none else pairs s

/-- @dfinity/principal, `Principal.fromHex`.  It throws at nothing; a text with characters other than digits, for which it would
give a principal with wrong bytes, gives none here. -/
def principalFromHex (s : Bytes) : Option Bytes := pairs s

/-- `BigInt.prototype.toString(16)`; the first argument bounds the number of digits -/
def radix16 : Nat → Nat → Bytes
  | 0, _ => []
  | w + 1, n => if n < 16 then [digitChar n] else radix16 w (n / 16) ++ [digitChar (n % 16)]

/-- The number of digits, read on from `n`. -/
def bigIntDigits (n : Nat) : Bytes → Option Nat
  | [] => some n
  | c :: s => match digit c with
    | some x => bigIntDigits (16 * n + x) s
    | none => none

/-- `BigInt('0x' + s)`; throws if there are no digits. -/
def bigIntHex (s : Bytes) : Option Nat := if s.isEmpty then none else bigIntDigits 0 s

/-- @dfinity/identity, delegation.ts, `_parseBlob`: throws unless the value is a string of at least 64 characters. -/
def parseBlob : Option Json → Option Bytes
  | some (.str s) => if s.length < 64 then none else fromHex s
  | _ => none

/-- The targets of a delegation: `targets.map(t => t.toHex())`. -/
def targetsToJson (ts : List Bytes) : Json := .arr (ts.map fun t => .str (principalToHex t))

/-- An item of `delegations`.  The field `targets` is absent if there are none. -/
def signedToJson (d : Delegation) (signature : Bytes) : Json :=
  .obj [
    (ascii "delegation", .obj ([
      (ascii "expiration", .str (radix16 16 d.expiration.toNat)),
      (ascii "pubkey", .str (toHex d.pubkey))] ++
      match d.targets with
      | none => []
      | some ts => [(ascii "targets", targetsToJson ts)])),
    (ascii "signature", .str (toHex signature))]

/-- @dfinity/identity, delegation.ts, `DelegationChain.toJSON` -/
def chainToJson (c : Chain) : Json :=
  .obj [
    (ascii "delegations", .arr [signedToJson c.delegation c.signature]),
    (ascii "publicKey", .str (toHex c.publicKey))]

/-- The targets read back: each must be a string. -/
def principals : List Json → Option (List Bytes)
  | [] => some []
  | .str s :: l =>
    match principalFromHex s, principals l with
    | some p, some ps => some (p :: ps)
    | _, _ => none
  | _ => none

/-- The field `targets`: absent, or an array. -/
def readTargets : Option Json → Option (Option (List Bytes))
  | none => some none
  | some (.arr l) => match principals l with
    | some ps => some (some ps)
    | none => none
  | _ => none

/-- The field `expiration`. -/
def readExpiration : Option Json → Option UInt64
  | some (.str s) => match bigIntHex s with
    | some n => if n < 2 ^ 64 then some (UInt64.ofNat n) else none
    | none => none
  | _ => none

/-- One item of `delegations`: a delegation and its signature. -/
def readSigned (j : Json) : Option (Delegation × Bytes) :=
  match j.field (ascii "delegation") with
  | none => none
  | some d =>
    match readTargets (d.field (ascii "targets")), parseBlob (d.field (ascii "pubkey")),
        readExpiration (d.field (ascii "expiration")), parseBlob (j.field (ascii "signature")) with
    | some targets, some pubkey, some expiration, some signature => some (⟨pubkey, expiration, targets⟩, signature)
    | _, _, _, _ => none

/-- @dfinity/identity, delegation.ts, `DelegationChain.fromJSON` -/
def chainFromJson (t : Bytes) : Option Chain :=
  match Json.parse t with
  | none => none
  | some j =>
    match j.field (ascii "delegations") with
    | some (.arr [sd]) =>
      match readSigned sd, parseBlob (j.field (ascii "publicKey")) with
      | some (d, signature), some publicKey => some ⟨d, signature, publicKey⟩
      | _, _ => none
    | _ => none

/-- @dfinity/agent, der.ts, `ED25519_OID`: the algorithm identifier -/
def ed25519Oid : Bytes := [0x30, 0x05, 0x06, 0x03, 0x2b, 0x65, 0x70]

/-- @dfinity/agent, der.ts, `wrapDER` with `ED25519_OID`; the lengths of keys are below 128 and take a byte each -/
def wrapDer (key : Bytes) : Bytes :=
  [0x30, UInt8.ofNat (ed25519Oid.length + 3 + key.length)] ++ ed25519Oid ++ [0x03, UInt8.ofNat (key.length + 1), 0x00] ++ key

/-- @dfinity/agent, der.ts, `decodeLen` and `decodeLenBytes`: the length, and the bytes behind it -/
def decodeLen : Bytes → Option (Nat × Bytes)
  | [] => none
  | b :: rest =>
    if b < 0x80 then some (b.toNat, rest)
    else if b = 0x81 then
      match rest with
      | x :: rest => some (x.toNat, rest)
      | _ => none
    else if b = 0x82 then
      match rest with
      | x :: y :: rest => some (256 * x.toNat + y.toNat, rest)
      | _ => none
    else if b = 0x83 then
      match rest with
      | x :: y :: z :: rest => some (65536 * x.toNat + 256 * y.toNat + z.toNat, rest)
      | _ => none
    else none

/-- @dfinity/agent, der.ts, `unwrapDER` with `ED25519_OID`; the outer length is skipped, not compared -/
def unwrapDer : Bytes → Option Bytes
  | 0x30 :: rest =>
    match decodeLen rest with
    | none => none
    | some (_, rest) =>
      if rest.take ed25519Oid.length = ed25519Oid then
        match rest.drop ed25519Oid.length with
        | 0x03 :: rest =>
          match decodeLen rest with
          | some (n, 0x00 :: key) => if n = key.length + 1 then some key else none
          | _ => none
        | _ => none
      else none
  | _ => none

/-- The pairs of keys the page has generated, by number, and the number of a pair. -/
structure KeyPairs where
  pub : Nat → Bytes
  priv : Nat → Bytes
  number : Bytes → Bytes → Option Nat

/-- @dfinity/identity, ed25519.ts, `Ed25519KeyIdentity.toJSON` -/
def keyToJson (P : KeyPairs) (n : Nat) : Json := .arr [.str (toHex (wrapDer (P.pub n))), .str (toHex (P.priv n))]

/-- @dfinity/identity, ed25519.ts, `Ed25519KeyIdentity.fromJSON`, the case of an array, with `fromParsedJson`; `Ed25519PublicKey.fromDer`
refuses keys that are not of 32 bytes -/
def keyFromJson (P : KeyPairs) (t : Bytes) : Option Nat :=
  match Json.parse t with
  | some (.arr (.str pub :: .str priv :: _)) =>
    match fromHex pub, fromHex priv with
    | some der, some priv =>
      match unwrapDer der with
      | some pub => if pub.length = 32 then P.number pub priv else none
      | none => none
    | _, _ => none
  | _ => none

end IdentityJson

open IdentityJson in
/-- @dfinity/identity's JSON forms, see above. -/
def identityLib (P : KeyPairs) : IdentityLib where
  keyToJson := keyToJson P
  keyFromJson := keyFromJson P
  chainToJson := chainToJson
  chainFromJson := chainFromJson

end Siwe
