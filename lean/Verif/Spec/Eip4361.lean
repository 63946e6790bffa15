import Verif.Spec.Message
/-
The message grammar of EIP-4361 ("ABNF Message Format"), written from the EIP and independently of the code:

    [ scheme "://" ] domain " wants you to sign in with your Ethereum account:" LF
    address LF
    LF
    [ statement LF ]
    LF
    "URI: " uri LF
    "Version: " version LF
    "Chain ID: " chain-id LF
    "Nonce: " nonce LF
    "Issued At: " issued-at
    [ LF "Expiration Time: " expiration-time ]
    [ LF "Not Before: " not-before ]
    [ LF "Request ID: " request-id ]
    [ LF "Resources:" *( LF "- " URI ) ]

RFC 3986's `authority` and `URI` are parameters.
-/
namespace Siwe.Spec

/-- The line feed. -/
def LF : Bytes := [10]

/-- `ALPHA` -/
def isAlpha (c : UInt8) : Bool := (65 ≤ c && c ≤ 90) || (97 ≤ c && c ≤ 122)
/-- `DIGIT` -/
def isDigit (c : UInt8) : Bool := 48 ≤ c && c ≤ 57
/-- RFC 3986 `unreserved`: ALPHA / DIGIT / "-" / "." / "_" / "~" -/
def isUnreserved (c : UInt8) : Bool := isAlpha c || isDigit c || (ascii "-._~").contains c
/-- RFC 3986 `reserved`: gen-delims / sub-delims -/
def isReserved (c : UInt8) : Bool := (ascii ":/?#[]@!$&'()*+,;=").contains c
/-- the characters of a `statement`: reserved / unreserved / " " -/
def isStatementChar (c : UInt8) : Bool := isReserved c || isUnreserved c || c == 32
/-- a character of RFC 3986 `pchar`: unreserved / "%" HEXDIG HEXDIG / sub-delims / ":" / "@" -/
def isPchar (c : UInt8) : Bool := isUnreserved c || (ascii "%!$&'()*+,;=:@").contains c

/-- The syntax of an RFC 3339 `date-time`. -/
def IsDateTime (txt : Bytes) : Prop :=
  ∃ y mo d h mi s frac off : Bytes,
    txt = y ++ ascii "-" ++ mo ++ ascii "-" ++ d ++ ascii "T" ++ h ++ ascii ":" ++ mi ++ ascii ":" ++ s ++ frac ++ off ∧
    (∀ x ∈ [y, mo, d, h, mi, s], ∀ c ∈ x, isDigit c = true) ∧ y.length = 4 ∧ (∀ x ∈ [mo, d, h, mi, s], x.length = 2) ∧
    (frac = [] ∨ ∃ ds, ds ≠ [] ∧ (∀ c ∈ ds, isDigit c = true) ∧ frac = ascii "." ++ ds) ∧
    (off = ascii "Z" ∨ ∃ oh om : Bytes, oh.length = 2 ∧ om.length = 2 ∧ (∀ c ∈ oh ++ om, isDigit c = true) ∧
      (off = ascii "+" ++ oh ++ ascii ":" ++ om ∨ off = ascii "-" ++ oh ++ ascii ":" ++ om))

/-- The parts of a message; `none` is an optional part that is left out. -/
structure Parts where
  scheme : Option Bytes
  domain : Bytes
  address : Bytes
  statement : Option Bytes
  uri : Bytes
  version : Bytes
  chainId : Bytes
  nonce : Bytes
  issuedAt : Bytes
  expirationTime : Option Bytes
  notBefore : Option Bytes
  requestId : Option Bytes
  resources : Option (List Bytes)

/-- An optional part: nothing, or the part between the given strings. -/
def optPart (before : Bytes) (part : Option Bytes) (after : Bytes) : Bytes :=
  match part with
  | none => []
  | some x => before ++ x ++ after

/-- The text of the parts. -/
def Parts.text (p : Parts) : Bytes :=
  optPart [] p.scheme (ascii "://") ++ p.domain ++ ascii " wants you to sign in with your Ethereum account:" ++ LF
  ++ p.address ++ LF
  ++ LF
  ++ optPart [] p.statement LF
  ++ LF
  ++ ascii "URI: " ++ p.uri ++ LF
  ++ ascii "Version: " ++ p.version ++ LF
  ++ ascii "Chain ID: " ++ p.chainId ++ LF
  ++ ascii "Nonce: " ++ p.nonce ++ LF
  ++ ascii "Issued At: " ++ p.issuedAt
  ++ optPart (LF ++ ascii "Expiration Time: ") p.expirationTime []
  ++ optPart (LF ++ ascii "Not Before: ") p.notBefore []
  ++ optPart (LF ++ ascii "Request ID: ") p.requestId []
  ++ match p.resources with
    | none => []
    | some rs => LF ++ ascii "Resources:" ++ (rs.map (fun r => LF ++ ascii "- " ++ r)).flatten

/-- Each part is in its syntactic category, for RFC 3986's `authority` and `URI`.  An empty statement is let through here, as
in older revisions of the EIP. -/
structure Parts.WellFormed (authority isUri : Bytes → Prop) (p : Parts) : Prop where
  scheme : ∀ s, p.scheme = some s → (∃ c cs, s = c :: cs ∧ isAlpha c = true) ∧
    ∀ c ∈ s, isAlpha c = true ∨ isDigit c = true ∨ c ∈ ascii "+-."
  domain : authority p.domain
  address : HexString 40 p.address
  statement : ∀ s, p.statement = some s → ∀ c ∈ s, isStatementChar c = true
  uri : isUri p.uri
  version : p.version = ascii "1"
  chainId : p.chainId ≠ [] ∧ ∀ c ∈ p.chainId, isDigit c = true
  nonce : 8 ≤ p.nonce.length ∧ ∀ c ∈ p.nonce, isAlpha c = true ∨ isDigit c = true
  issuedAt : IsDateTime p.issuedAt
  expirationTime : ∀ x, p.expirationTime = some x → IsDateTime x
  notBefore : ∀ x, p.notBefore = some x → IsDateTime x
  requestId : ∀ x, p.requestId = some x → ∀ c ∈ x, isPchar c = true
  resources : ∀ rs, p.resources = some rs → ∀ r ∈ rs, isUri r

/-- `p` is a reading of `txt` as an EIP-4361 message. -/
def Reads (authority isUri : Bytes → Prop) (txt : Bytes) (p : Parts) : Prop := p.WellFormed authority isUri ∧ p.text = txt

/-- `txt` conforms to EIP-4361: it has a reading, whose statement, if present, is not empty. -/
def Conforms (authority isUri : Bytes → Prop) (txt : Bytes) : Prop :=
  ∃ p, Reads authority isUri txt p ∧ p.statement ≠ some []

end Siwe.Spec
