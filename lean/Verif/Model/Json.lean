import Verif.Model.Message
/-
JSON texts, where the code writes or reads them: `serde_json::to_string` in siwe.rs:106 and `JSON.stringify` /
`JSON.parse` in local-storage.ts:21-29, 44-49.
-/
namespace Siwe

/-- A JSON value.  A number is kept as it is written; the fields of an object are kept in the order written. -/
inductive Json where
  | null
  | bool (b : Bool)
  | num (text : Bytes)
  | str (s : Bytes)
  | arr (items : List Json)
  | obj (fields : List (Bytes × Json))

namespace Json

/-- What stands for one byte of a string between the quotes: serde_json's `ESCAPE` table and `write_char_escape`
(serde_json ser.rs), and ECMA-262's QuoteJSONString, which agree on strings of Unicode scalar values: `"` and `\`, the
five control characters with a short form, the other bytes below 32 as `\u00xx` in lower-case hexadecimals. -/
def escape (c : UInt8) : Bytes :=
  if c = 34 then [92, 34]
  else if c = 92 then [92, 92]
  else if c = 8 then [92, 98]
  else if c = 9 then [92, 116]
  else if c = 10 then [92, 110]
  else if c = 12 then [92, 102]
  else if c = 13 then [92, 114]
  else if c < 32 then [92, 117, 48, 48, hexDigit (c >>> 4), hexDigit (c &&& 15)]
  else [c]

/-- A string in quotes. -/
def quote (s : Bytes) : Bytes := 34 :: (s.flatMap escape ++ [34])

mutual
/-- The compact text of a value: `serde_json::to_string` in siwe.rs:106, `JSON.stringify` in local-storage.ts:26, 28
and 46. -/
def text : Json → Bytes
  | .null => ascii "null"
  | .bool true => ascii "true"
  | .bool false => ascii "false"
  | .num t => t
  | .str s => quote s
  | .arr l => 91 :: itemsText l
  | .obj l => 123 :: fieldsText l
/-- The rest of an array, after `[` -/
def itemsText : List Json → Bytes
  | [] => [93]
  | j :: l => j.text ++ moreItems l
/-- The rest of an array, after an item -/
def moreItems : List Json → Bytes
  | [] => [93]
  | j :: l => 44 :: (j.text ++ moreItems l)
/-- The rest of an object, after `{` -/
def fieldsText : List (Bytes × Json) → Bytes
  | [] => [125]
  | (k, j) :: l => quote k ++ 58 :: (j.text ++ moreFields l)
/-- The rest of an object, after a field -/
def moreFields : List (Bytes × Json) → Bytes
  | [] => [125]
  | (k, j) :: l => 44 :: (quote k ++ 58 :: (j.text ++ moreFields l))
end

/-- JSON's white space -/
def skipWs : Bytes → Bytes
  | c :: r => if c = 32 ∨ c = 9 ∨ c = 10 ∨ c = 13 then skipWs r else c :: r
  | [] => []

/-- The value of a hexadecimal digit -/
def hexVal (c : UInt8) : Option Nat :=
  if 48 ≤ c ∧ c ≤ 57 then some (c.toNat - 48)
  else if 97 ≤ c ∧ c ≤ 102 then some (c.toNat - 87)
  else if 65 ≤ c ∧ c ≤ 70 then some (c.toNat - 55)
  else none

/-- The four digits of a `\u` escape -/
def hex4 (a b c d : UInt8) : Option Nat :=
  match hexVal a, hexVal b, hexVal c, hexVal d with
  | some a, some b, some c, some d => some (4096 * a + 256 * b + 16 * c + d)
  | _, _, _, _ => none

/-- The UTF-8 bytes of a code point.  A surrogate that is not part of a pair, which a JavaScript string can hold, is
given the three bytes of its number. -/
def utf8 (n : Nat) : Bytes :=
  if n < 128 then [UInt8.ofNat n]
  else if n < 2048 then [UInt8.ofNat (192 + n / 64), UInt8.ofNat (128 + n % 64)]
  else if n < 65536 then
    [UInt8.ofNat (224 + n / 4096), UInt8.ofNat (128 + n / 64 % 64), UInt8.ofNat (128 + n % 64)]
  else [UInt8.ofNat (240 + n / 262144), UInt8.ofNat (128 + n / 4096 % 64), UInt8.ofNat (128 + n / 64 % 64),
    UInt8.ofNat (128 + n % 64)]

/-- The byte an escape of one letter stands for -/
def shortEscape (c : UInt8) : Option UInt8 :=
  if c = 34 then some 34
  else if c = 92 then some 92
  else if c = 47 then some 47
  else if c = 98 then some 8
  else if c = 116 then some 9
  else if c = 110 then some 10
  else if c = 102 then some 12
  else if c = 114 then some 13
  else none

/-- What a string is written with: bytes as they are, and UTF-16 units given by `\u` escapes -/
inductive Piece where
  | byte (b : UInt8)
  | unit (n : Nat)

/-- The rest of a string, after its opening quote, and what follows its closing quote -/
def readPieces : Bytes → Option (List Piece × Bytes)
  | [] => none
  | c :: r =>
    if c = 34 then some ([], r)
    else if c = 92 then
      match r with
      | [] => none
      | e :: r' =>
        if e = 117 then
          match r' with
          | h₁ :: h₂ :: h₃ :: h₄ :: r'' =>
            match hex4 h₁ h₂ h₃ h₄, readPieces r'' with
            | some n, some (ps, rest) => some (.unit n :: ps, rest)
            | _, _ => none
          | _ => none
        else
          match shortEscape e, readPieces r' with
          | some b, some (ps, rest) => some (.byte b :: ps, rest)
          | _, _ => none
    else if c < 32 then none
    else
      match readPieces r with
      | some (ps, rest) => some (.byte c :: ps, rest)
      | none => none

/-- The string so written: a high surrogate and the low surrogate after it are one code point.  `high` is a high
surrogate just read. -/
def join : Option Nat → List Piece → Bytes
  | none, [] => []
  | some h, [] => utf8 h
  | none, .byte b :: ps => b :: join none ps
  | some h, .byte b :: ps => utf8 h ++ b :: join none ps
  | none, .unit n :: ps =>
    if 0xD800 ≤ n ∧ n < 0xDC00 then join (some n) ps else utf8 n ++ join none ps
  | some h, .unit n :: ps =>
    if 0xDC00 ≤ n ∧ n < 0xE000 then utf8 (0x10000 + 1024 * (h - 0xD800) + (n - 0xDC00)) ++ join none ps
    else if 0xD800 ≤ n ∧ n < 0xDC00 then utf8 h ++ join (some n) ps
    else utf8 h ++ utf8 n ++ join none ps

/-- The rest of a string, after its opening quote: what it stands for, and what follows its closing quote. -/
def readString (t : Bytes) : Option (Bytes × Bytes) :=
  match readPieces t with
  | some (ps, rest) => some (join none ps, rest)
  | none => none

def isDigit (c : UInt8) : Bool := decide (48 ≤ c ∧ c ≤ 57)

/-- The characters numbers are written with: `0`-`9`, `+`, `-`, `.`, `e`, `E` -/
def isNumChar (c : UInt8) : Bool := isDigit c || c == 43 || c == 45 || c == 46 || c == 101 || c == 69

/-- The exponent of a number, or nothing -/
def isExp : Bytes → Bool
  | [] => true
  | e :: r =>
    (e == 101 || e == 69) &&
      match r with
      | s :: r' => if s = 43 ∨ s = 45 then !r'.isEmpty && r'.all isDigit else (s :: r').all isDigit
      | [] => false

/-- What may follow the integer part of a number -/
def isFraction : Bytes → Bool
  | 46 :: c :: r => isDigit c && isExp (r.dropWhile isDigit)
  | r => isExp r

/-- A number without its sign -/
def isUnsigned : Bytes → Bool
  | [] => false
  | c :: r =>
    if c = 48 then isFraction r
    else isDigit c && isFraction (r.dropWhile isDigit)

/-- A number, as JSON's grammar (RFC 8259, section 6) has it -/
def isNumber : Bytes → Bool
  | 45 :: r => isUnsigned r
  | t => isUnsigned t

/-- A number at the start of a text.  Nothing that may follow a number in a JSON text is written with the characters
numbers are written with. -/
def readNumber (t : Bytes) : Option (Bytes × Bytes) :=
  let n := t.takeWhile isNumChar
  if isNumber n then some (n, t.dropWhile isNumChar) else none

mutual
/-- A value at the start of a text, and what follows it.  `fuel` bounds the depth of the recursion. -/
def readValue : Nat → Bytes → Option (Json × Bytes)
  | 0, _ => none
  | fuel + 1, t =>
    match skipWs t with
    | 110 :: 117 :: 108 :: 108 :: r => some (.null, r)
    | 116 :: 114 :: 117 :: 101 :: r => some (.bool true, r)
    | 102 :: 97 :: 108 :: 115 :: 101 :: r => some (.bool false, r)
    | 34 :: r =>
      match readString r with
      | some (s, r') => some (.str s, r')
      | none => none
    | 91 :: r =>
      match skipWs r with
      | 93 :: r' => some (.arr [], r')
      | r' =>
        match readItems fuel r' with
        | some (l, r'') => some (.arr l, r'')
        | none => none
    | 123 :: r =>
      match skipWs r with
      | 125 :: r' => some (.obj [], r')
      | r' =>
        match readFields fuel r' with
        | some (l, r'') => some (.obj l, r'')
        | none => none
    | r =>
      match readNumber r with
      | some (n, r') => some (.num n, r')
      | none => none
/-- The items of an array, from the first one on, and what follows `]` -/
def readItems : Nat → Bytes → Option (List Json × Bytes)
  | 0, _ => none
  | fuel + 1, t =>
    match readValue fuel t with
    | none => none
    | some (j, r) =>
      match skipWs r with
      | 93 :: r' => some ([j], r')
      | 44 :: r' =>
        match readItems fuel r' with
        | some (l, r'') => some (j :: l, r'')
        | none => none
      | _ => none
/-- The fields of an object, from the first one on, and what follows `}` -/
def readFields : Nat → Bytes → Option (List (Bytes × Json) × Bytes)
  | 0, _ => none
  | fuel + 1, t =>
    match skipWs t with
    | 34 :: r =>
      match readString r with
      | none => none
      | some (k, r) =>
        match skipWs r with
        | 58 :: r =>
          match readValue fuel r with
          | none => none
          | some (j, r) =>
            match skipWs r with
            | 125 :: r' => some ([(k, j)], r')
            | 44 :: r' =>
              match readFields fuel r' with
              | some (l, r'') => some ((k, j) :: l, r'')
              | none => none
            | _ => none
        | _ => none
    | _ => none
end

/-- `JSON.parse` (local-storage.ts:21): one value with nothing but white space around it; `none` if it throws. -/
def parse (t : Bytes) : Option Json :=
  match readValue (2 * t.length + 2) t with
  | some (j, r) => if skipWs r = [] then some j else none
  | none => none

end Json

/-- siwe.rs:54-66, `#[derive(Serialize)]` for `SiweMessage`: an object with the fields in the order declared. -/
def SiweMessage.json (m : SiweMessage) : Json :=
  .obj [
    (ascii "scheme", .str m.scheme),
    (ascii "domain", .str m.domain),
    (ascii "address", .str m.address),
    (ascii "statement", .str m.statement),
    (ascii "uri", .str m.uri),
    (ascii "version", .num (decimal m.version.toNat)),
    (ascii "chain_id", .num (decimal m.chainId.toNat)),
    (ascii "nonce", .str m.nonce),
    (ascii "issued_at", .num (decimal m.issuedAt.toNat)),
    (ascii "expiration_time", .num (decimal m.expirationTime.toNat))]

/-- siwe.rs:104-108 `impl fmt::Display for SiweMessage`; `serde_json::to_string` of strings and integers does not
fail, so the `fmt::Error` of line 106 is not returned. -/
def SiweMessage.display (m : SiweMessage) : Bytes := m.json.text

end Siwe
