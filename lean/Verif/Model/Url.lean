import Verif.Model.Settings
import Verif.Model.Eth
/-
`url::Url::parse` (url 2.5.0, Cargo.lock:4557, without a base URL), called at packages/ic_siwe/src/settings.rs:182 and 191, reduced to
what the code asks of the result: whether there is an authority, and the host.  A dependency, modelled from its published source
(src/parser.rs) and the WHATWG URL standard it implements.

How a host is written (IDNA, IP addresses, percent encoding) is left to a parameter, and so are `file:` URLs that have a host.  The parser
reads characters; all characters it looks for are ASCII, so reading UTF-8 bytes is the same.  The limit of 2^32 bytes is left out.
-/
namespace Siwe

/-- What is left open of the URL parser. -/
structure HostParser where
  /-- `Host::parse`: the host of an `http`-like URL as it is written out (never called for the empty text) -/
  special : Bytes → Option Bytes
  /-- `Host::parse_opaque`, for other schemes (the empty text is an empty host) -/
  other : Bytes → Option Bytes
  /-- the host found in a `file:` URL, from the text after `file://` (not called if no host is written) -/
  file : Bytes → Option (Option Bytes)

/-- `ascii_tab_or_new_line`: `Input::next` skips these -/
def urlSkips (c : UInt8) : Bool := c == 9 || c == 10 || c == 13

/-- `str::trim_matches(c0_control_or_space)` -/
def trimUrl (s : Bytes) : Bytes :=
  ((s.dropWhile fun c => decide (c ≤ 32)).reverse.dropWhile fun c => decide (c ≤ 32)).reverse

/-- `Input::new_trim_c0_control_and_space`, and what the parser reads from it: all reading is done by `Input::next`, and `parse_host`
drops the same characters -/
def urlInput (s : Bytes) : Bytes := (trimUrl s).filter fun c => !urlSkips c

/-- `ascii_alpha` -/
def isAsciiAlpha (c : UInt8) : Bool := (65 ≤ c && c ≤ 90) || (97 ≤ c && c ≤ 122)

/-- the characters of a scheme in `Parser::parse_scheme`: letters, digits, `+`, `-`, `.` -/
def isSchemeChar (c : UInt8) : Bool := isAsciiAlpha c || (48 ≤ c && c ≤ 57) || c == 43 || c == 45 || c == 46

/-- the loop of `Parser::parse_scheme`: the scheme in lower case, and the text after the colon -/
def schemeLoop : Bytes → Option (Bytes × Bytes)
  | [] => none
  | c :: rest =>
    if isSchemeChar c then
      match schemeLoop rest with
      | none => none
      | some (s, r) => some (toLower c :: s, r)
    else if c = 58 then some ([], rest)
    else none

/-- `Parser::parse_scheme` -/
def parseScheme (s : Bytes) : Option (Bytes × Bytes) :=
  match s with
  | [] => none
  | c :: _ => if isAsciiAlpha c then schemeLoop s else none

/-- `SchemeType` -/
inductive SchemeType where
  | file
  | specialNotFile
  | notSpecial
  deriving DecidableEq

/-- `SchemeType::from` -/
def schemeType (s : Bytes) : SchemeType :=
  if s = ascii "http" ∨ s = ascii "https" ∨ s = ascii "ws" ∨ s = ascii "wss" ∨ s = ascii "ftp" then .specialNotFile
  else if s = ascii "file" then .file
  else .notSpecial

/-- the characters at which an authority ends: `/`, `?`, `#` and, in special schemes, `\` -/
def endsAuthority (special : Bool) (c : UInt8) : Bool := c == 47 || c == 63 || c == 35 || (special && c == 92)

/-- the first loop of `Parser::parse_userinfo`: the text split at the last `@` of the authority -/
def lastAt (special : Bool) : Bytes → Option (Bytes × Bytes)
  | [] => none
  | c :: rest =>
    if endsAuthority special c then none
    else
      match lastAt special rest with
      | some (u, r) => some (c :: u, r)
      | none => if c = 64 then some ([], rest) else none

/-- `Parser::parse_userinfo`: whether it writes a user name or password, and the text after it -/
def parseUserinfo (special : Bool) (input : Bytes) : Option (Bool × Bytes) :=
  match lastAt special input with
  | none => some (false, input)
  | some (user, rest) =>
    if user = [] then
      match rest with
      | [] => some (false, [])
      | c :: _ => if endsAuthority special c then none else some (false, rest)
    else some (decide (user ≠ [58]), rest)

/-- the loop of `Parser::parse_host`: the text of the host, and the rest; `inside` is whether a square bracket is open -/
def hostSplit (special : Bool) (inside : Bool) : Bytes → Bytes × Bytes
  | [] => ([], [])
  | c :: rest =>
    if (c = 58 ∧ inside = false) ∨ endsAuthority special c = true then ([], c :: rest)
    else
      let (h, r) := hostSplit special (if c = 91 then true else if c = 93 then false else inside) rest
      (c :: h, r)

/-- `Parser::parse_port`, from the value so far: whether the port is accepted -/
def portOk : Nat → Bytes → Bool
  | _, [] => true
  | n, c :: rest =>
    if 48 ≤ c ∧ c ≤ 57 then
      if n * 10 + (c.toNat - 48) > 65535 then false else portOk (n * 10 + (c.toNat - 48)) rest
    else c == 47 || c == 92 || c == 63 || c == 35

/-- `Parser::parse_host`: the host as it is written out -/
def parseHost (H : HostParser) (special : Bool) (text : Bytes) : Option Bytes :=
  if text = [] then (if special then none else some [])
  else if special then H.special text else H.other text

/-- `Parser::after_double_slash` with `parse_host_and_port`: the host; an empty host is `HostInternal::None` -/
def afterDoubleSlash (H : HostParser) (special : Bool) (input : Bytes) : Option (Option Bytes) :=
  match parseUserinfo special input with
  | none => none
  | some (user, input) =>
    let (text, rest) := hostSplit special false input
    match parseHost H special text with
    | none => none
    | some [] => if special || rest.head? == some 58 || user then none else some none
    | some host =>
      match rest with
      | 58 :: port => if portOk 0 port then some (some host) else none
      | _ => some (some host)

/-- `Parser::parse_file`, from the text after `file:`; without a base URL it writes `file://` in any case -/
def parseFile (H : HostParser) (input : Bytes) : Option (Option Bytes) :=
  match input with
  | a :: b :: rest =>
    if (a = 47 ∨ a = 92) ∧ (b = 47 ∨ b = 92) then
      match rest with
      | [] => some none
      | c :: _ => if endsAuthority true c then some none else H.file rest
    else some none
  | _ => some none

/-- `Parser::parse_url` and `parse_with_scheme` -/
def urlParse (H : HostParser) (s : Bytes) : Option ParsedUrl :=
  match parseScheme (urlInput s) with
  | none => none
  | some (scheme, rest) =>
    match schemeType scheme with
    | .specialNotFile =>
      (afterDoubleSlash H true (rest.dropWhile fun c => c == 47 || c == 92)).map fun h => ⟨true, h⟩
    | .file => (parseFile H rest).map fun h => ⟨true, h⟩
    | .notSpecial =>
      match rest with
      | 47 :: 47 :: rest => (afterDoubleSlash H false rest).map fun h => ⟨true, h⟩
      | _ => some ⟨false, none⟩

end Siwe
