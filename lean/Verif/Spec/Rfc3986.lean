import Verif.Spec.Eip4361
/-
The syntax of URIs and authorities, written from RFC 3986, appendix A.
-/
namespace Siwe.Spec.Rfc3986

/-- `sub-delims` -/
def isSubDelim (c : UInt8) : Bool := (ascii "!$&'()*+,;=").contains c
/-- `HEXDIG`, in either case -/
def isHex (c : UInt8) : Bool := isDigit c || (65 ≤ c && c ≤ 70) || (97 ≤ c && c ≤ 102)

/-- A sequence of allowed characters and of `pct-encoded = "%" HEXDIG HEXDIG`. -/
inductive Chars (allowed : UInt8 → Bool) : Bytes → Prop
  | nil : Chars allowed []
  | char {c s} : allowed c = true → Chars allowed s → Chars allowed (c :: s)
  | pct {a b s} : isHex a = true → isHex b = true → Chars allowed s → Chars allowed (37 :: a :: b :: s)

/-- `scheme = ALPHA *( ALPHA / DIGIT / "+" / "-" / "." )` -/
def Scheme (s : Bytes) : Prop :=
  (∃ c cs, s = c :: cs ∧ isAlpha c = true) ∧ ∀ c ∈ s, isAlpha c = true ∨ isDigit c = true ∨ c ∈ ascii "+-."

/-- `userinfo = *( unreserved / pct-encoded / sub-delims / ":" )` -/
def UserInfo (s : Bytes) : Prop := Chars (fun c => isUnreserved c || isSubDelim c || c == 58) s

/-- `reg-name = *( unreserved / pct-encoded / sub-delims )`; every `IPv4address` is one. -/
def RegName (s : Bytes) : Prop := Chars (fun c => isUnreserved c || isSubDelim c) s

/-- `port = *DIGIT` -/
def Port (s : Bytes) : Prop := ∀ c ∈ s, isDigit c = true

/-- `IPvFuture = "v" 1*HEXDIG "." 1*( unreserved / sub-delims / ":" )` -/
def IpFuture (s : Bytes) : Prop :=
  ∃ v ds cs, s = v :: ds ++ 46 :: cs ∧ (v = 118 ∨ v = 86) ∧ ds ≠ [] ∧ (∀ c ∈ ds, isHex c = true) ∧ cs ≠ [] ∧
    ∀ c ∈ cs, (isUnreserved c || isSubDelim c || c == 58) = true

/-- `IPv4address = dec-octet "." dec-octet "." dec-octet "." dec-octet` -/
def Ip4 (s : Bytes) : Prop :=
  ∃ a b c d : Bytes, s = a ++ 46 :: b ++ 46 :: c ++ 46 :: d ∧ ∀ x ∈ [a, b, c, d], ∃ n ≤ 255, IsDecimal n x

/-- `h16 = 1*4HEXDIG` -/
def H16 (s : Bytes) : Prop := s ≠ [] ∧ s.length ≤ 4 ∧ ∀ c ∈ s, isHex c = true

/-- Groups of an IPv6 address with colons between them, and how many sixteen-bit pieces they stand for; the last two may be written as an
IPv4 address. -/
inductive Groups : Bytes → Nat → Prop
  | one {g} : H16 g → Groups g 1
  | two {g} : Ip4 g → Groups g 2
  | more {g s n} : H16 g → Groups s n → Groups (g ++ 58 :: s) (n + 1)

/-- Groups without an IPv4 address. -/
inductive PlainGroups : Bytes → Nat → Prop
  | one {g} : H16 g → PlainGroups g 1
  | more {g s n} : H16 g → PlainGroups s n → PlainGroups (g ++ 58 :: s) (n + 1)

/-- `IPv6address`: eight pieces, or `::` in place of one or more of them. -/
def Ip6 (s : Bytes) : Prop :=
  Groups s 8 ∨
  ∃ l r n m, s = l ++ 58 :: 58 :: r ∧ ((l = [] ∧ n = 0) ∨ PlainGroups l n) ∧ ((r = [] ∧ m = 0) ∨ Groups r m) ∧ n + m ≤ 7

/-- `host = IP-literal / IPv4address / reg-name` with `IP-literal = "[" ( IPv6address / IPvFuture ) "]"` -/
def Host (s : Bytes) : Prop := RegName s ∨ ∃ x, s = 91 :: x ++ [93] ∧ (Ip6 x ∨ IpFuture x)

/-- `authority = [ userinfo "@" ] host [ ":" port ]` -/
def Authority (s : Bytes) : Prop :=
  ∃ user host port, s = user ++ host ++ port ∧ (user = [] ∨ ∃ u, user = u ++ [64] ∧ UserInfo u) ∧ Host host ∧
    (port = [] ∨ ∃ p, port = 58 :: p ∧ Port p)

/-- `pchar = unreserved / pct-encoded / sub-delims / ":" / "@"`, and `/` -/
def Path (s : Bytes) : Prop := Chars (fun c => isUnreserved c || isSubDelim c || c == 58 || c == 64 || c == 47) s

/-- `query = fragment = *( pchar / "/" / "?" )` -/
def Query (s : Bytes) : Prop := Chars (fun c => isUnreserved c || isSubDelim c || c == 58 || c == 64 || c == 47 || c == 63) s

/-- `hier-part = "//" authority path-abempty / path-absolute / path-rootless / path-empty` -/
def HierPart (s : Bytes) : Prop :=
  (∃ a p, s = 47 :: 47 :: a ++ p ∧ Authority a ∧ Path p ∧ (p = [] ∨ ∃ q, p = 47 :: q)) ∨
  (Path s ∧ ¬∃ q, s = 47 :: 47 :: q)

/-- `URI = scheme ":" hier-part [ "?" query ] [ "#" fragment ]` -/
def Uri (s : Bytes) : Prop :=
  ∃ scheme hier query fragment, s = scheme ++ 58 :: hier ++ query ++ fragment ∧ Scheme scheme ∧ HierPart hier ∧
    (query = [] ∨ ∃ q, query = 63 :: q ∧ Query q) ∧ (fragment = [] ∨ ∃ f, fragment = 35 :: f ∧ Query f)

/-- An authority whose host is not empty and has the property, and whose port, if any, is one of TCP. -/
def AuthorityAt (isHost : Bytes → Prop) (s : Bytes) : Prop :=
  ∃ user host port, s = user ++ host ++ port ∧ (user = [] ∨ ∃ u, user = u ++ [64] ∧ UserInfo u) ∧ Host host ∧ host ≠ [] ∧ isHost host ∧
    (port = [] ∨ ∃ p, port = 58 :: p ∧ Port p ∧ p.foldl (fun n d => n * 10 + (d.toNat - 48)) 0 ≤ 65535)

/-- A URI with the scheme `http` or `https` and such an authority. -/
def WebUriAt (isHost : Bytes → Prop) (s : Bytes) : Prop :=
  ∃ scheme a path query fragment, s = scheme ++ ascii "://" ++ a ++ path ++ query ++ fragment ∧
    (scheme = ascii "http" ∨ scheme = ascii "https") ∧ AuthorityAt isHost a ∧ Path path ∧ (path = [] ∨ ∃ q, path = 47 :: q) ∧
    (query = [] ∨ ∃ q, query = 63 :: q ∧ Query q) ∧ (fragment = [] ∨ ∃ f, fragment = 35 :: f ∧ Query f)

end Siwe.Spec.Rfc3986
