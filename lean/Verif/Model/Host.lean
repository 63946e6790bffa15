import Verif.Model.Url
/-
`url::Host::parse` and `Host::parse_opaque` (url 2.5.0, src/host.rs), which `Url::parse` (called at packages/ic_siwe/src/settings.rs:182
and 191) applies to the host of a web address and to those of other schemes: the parameter of Model/Url.lean, written out for C105.  A
dependency, modelled from its published source.

Simplifications: domain names that are not ASCII, or have a label that begins with `xn--`, are left to a parameter (`idna`); of an IP
address only whether it is one is computed, and it is written out as it was read (`build` drops the host after the check).
-/
namespace Siwe.Host

/-- `char::to_digit(16)` -/
def hexDigit (c : UInt8) : Option Nat :=
  if 48 ≤ c ∧ c ≤ 57 then some (c.toNat - 48)
  else if 97 ≤ c ∧ c ≤ 102 then some (c.toNat - 87)
  else if 65 ≤ c ∧ c ≤ 70 then some (c.toNat - 55)
  else none

/-- `u8::is_ascii_digit` -/
def isDecDigit (c : UInt8) : Bool := decide (48 ≤ c ∧ c ≤ 57)

/-- `percent_encoding::percent_decode` -/
def percentDecode : Bytes → Bytes
  | [] => []
  | c :: rest =>
    if c = 37 then
      match rest with
      | a :: b :: rest' =>
        match hexDigit a, hexDigit b with
        | some x, some y => UInt8.ofNat (x * 16 + y) :: percentDecode rest'
        | _, _ => 37 :: percentDecode (a :: b :: rest')
      | [a] => [37, a]
      | [] => [37]
    else c :: percentDecode rest

/-- `str::split('.')` -/
def splitDots : Bytes → List Bytes
  | [] => [[]]
  | c :: rest =>
    if c = 46 then [] :: splitDots rest
    else
      match splitDots rest with
      | [] => [[c]]
      | l :: ls => (c :: l) :: ls

/-- the number that digits to a base stand for; `u32::from_str_radix` fails if it does not fit -/
def radixValue (r : Nat) (ds : Bytes) : Nat := (ds.filterMap hexDigit).foldl (fun n d => n * r + d) 0

/-- `parse_ipv4number`: no number, a number that does not fit in 32 bits, or its value -/
def ipv4Number (s : Bytes) : Option (Option Nat) :=
  let fit (n : Nat) : Option Nat := if n < 4294967296 then some n else none
  match s with
  | [] => none
  | c :: rest =>
    if c = 48 ∧ (rest.head? = some 120 ∨ rest.head? = some 88) then
      if rest.tail.all (fun d => (hexDigit d).isSome) then some (fit (radixValue 16 rest.tail)) else none
    else if c = 48 ∧ rest ≠ [] then
      if rest.all (fun d => decide (48 ≤ d ∧ d ≤ 55)) then some (fit (radixValue 8 rest)) else none
    else if s.all isDecDigit then some (fit (radixValue 10 s)) else none

/-- `ends_in_a_number` -/
def endsInANumber (s : Bytes) : Bool :=
  match (splitDots s).reverse with
  | [] => false
  | last :: more =>
    match (if last = [] then more.head? else some last) with
    | none => false
    | some last => (!last.isEmpty && last.all isDecDigit) || (ipv4Number last).isSome

/-- the parts of `parse_ipv4addr`: the last one may be empty -/
def ipv4Parts (s : Bytes) : List Bytes :=
  let parts := splitDots s
  if parts.getLast? = some [] then parts.dropLast else parts

/-- `parse_ipv4addr` succeeds -/
def ipv4Ok (s : Bytes) : Bool :=
  let parts := ipv4Parts s
  if 4 < parts.length then false
  else
    match parts.mapM (fun p => (ipv4Number p).join) with
    | none => false
    | some numbers =>
      match numbers.getLast? with
      | none => false
      | some last => decide (last ≤ 4294967295 / 256 ^ (numbers.length - 1)) && numbers.dropLast.all (fun n => decide (n ≤ 255))

/-- The inner loop of `parse_ipv6addr` over the digits of a group: at most `k` of them, and the rest. -/
def hexRun : Nat → Bytes → Bytes × Bytes
  | 0, s => ([], s)
  | _ + 1, [] => ([], [])
  | k + 1, c :: s =>
    if (hexDigit c).isSome then
      match hexRun k s with
      | (ds, rest) => (c :: ds, rest)
    else ([], c :: s)

/-- The loop of `parse_ipv6addr` over the digits of a number of an IPv4 address: the number, if there is one, and the rest. -/
def octet : Option Nat → Bytes → Option (Option Nat × Bytes)
  | v, [] => some (v, [])
  | v, c :: s =>
    if isDecDigit c then
      match v with
      | none => octet (some (c.toNat - 48)) s
      | some 0 => none
      | some v => if 255 < v * 10 + (c.toNat - 48) then none else octet (some (v * 10 + (c.toNat - 48))) s
    else some (v, c :: s)

/-- The loop of `parse_ipv6addr` over the numbers of an IPv4 address; the first argument bounds its rounds. -/
def ipv4Tail : Nat → Nat → Bytes → Bool
  | _, seen, [] => seen == 4
  | 0, _, _ :: _ => false
  | n + 1, seen, c :: s =>
    match (if seen = 0 then some (c :: s) else if seen < 4 ∧ c = 46 then some s else none) with
    | none => false
    | some r =>
      match octet none r with
      | some (some _, r') => ipv4Tail n (seen + 1) r'
      | _ => false

/-- The main loop of `parse_ipv6addr`, from the number of pieces read and whether there was a `::`; the first argument bounds its
rounds. -/
def ipv6Loop : Nat → Bytes → Nat → Bool → Bool
  | _, [], pieces, compressed => compressed || pieces == 8
  | 0, _ :: _, _, _ => false
  | n + 1, c :: s, pieces, compressed =>
    if pieces = 8 then false
    else if c = 58 then (if compressed then false else ipv6Loop n s (pieces + 1) true)
    else
      match hexRun 4 (c :: s) with
      | (ds, rest) =>
        match rest with
        | [] => ipv6Loop n [] (pieces + 1) compressed
        | e :: rest' =>
          if e = 46 then
            if ds = [] ∨ 6 < pieces then false
            else ipv4Tail (c :: s).length 0 (c :: s) && (compressed || pieces + 2 == 8)
          else if e = 58 then (if rest' = [] then false else ipv6Loop n rest' (pieces + 1) compressed)
          else false

/-- `parse_ipv6addr` succeeds -/
def ipv6Ok (s : Bytes) : Bool :=
  match s with
  | a :: b :: rest =>
    if a = 58 then (if b = 58 then ipv6Loop rest.length rest 1 true else false)
    else ipv6Loop s.length s 0 false
  | _ => false

/-- `idna::domain_to_ascii` (idna 0.5.0): in ASCII without `xn--`, capitals become small and nothing is refused -/
def domainToAscii (idna : Bytes → Option Bytes) (s : Bytes) : Option Bytes :=
  if s.all (fun c => decide (c < 128)) ∧ (splitDots (s.map toLower)).all (fun l => !(ascii "xn--").isPrefixOf l) then some (s.map toLower)
  else idna s

/-- `is_invalid_domain_char` of `Host::parse` -/
def invalidDomainChar (c : UInt8) : Bool := decide (c ≤ 32) || c == 127 || (ascii "#%/:<>?@[\\]^|").contains c

/-- `is_invalid_host_char` of `Host::parse_opaque` -/
def invalidHostChar (c : UInt8) : Bool := c == 0 || c == 9 || c == 10 || c == 13 || (ascii " #/:<>?@[\\]^|").contains c

/-- The address between square brackets, as both functions read it. -/
def bracketed (s : Bytes) : Option Bytes :=
  if s.getLast? = some 93 ∧ ipv6Ok (s.drop 1).dropLast = true then some s else none

/-- `Host::parse` -/
def parse (idna : Bytes → Option Bytes) (s : Bytes) : Option Bytes :=
  if s.head? = some 91 then bracketed s
  else
    match domainToAscii idna (percentDecode s) with
    | none => none
    | some d =>
      if d = [] then none
      else if d.any invalidDomainChar then none
      else if endsInANumber d then (if ipv4Ok d then some d else none)
      else some d

/-- `utf8_percent_encode(input, CONTROLS)` -/
def encodeControls : Bytes → Bytes
  | [] => []
  | c :: s =>
    if c < 32 ∨ 127 ≤ c then 37 :: hexUpper (c.toNat / 16) :: hexUpper (c.toNat % 16) :: encodeControls s else c :: encodeControls s
where
  /-- a digit, in upper case -/
  hexUpper (n : Nat) : UInt8 := UInt8.ofNat (if n < 10 then 48 + n else 55 + n)

/-- `Host::parse_opaque` -/
def parseOpaque (s : Bytes) : Option Bytes :=
  if s.head? = some 91 then bracketed s
  else if s.any invalidHostChar then none
  else some (encodeControls s)

/-- The host parser of `Url::parse`, with the two parts that are left open. -/
def parser (idna : Bytes → Option Bytes) (file : Bytes → Option (Option Bytes)) : HostParser where
  special := parse idna
  other := parseOpaque
  file := file

end Siwe.Host
