import Verif.Spec.Rfc3986
import Verif.Spec.Url
import Verif.Spec.Eth
import Mathlib.Data.List.Forall2
/- What a host of a web address is: WHATWG URL standard, 3.5 (host parsing), for the parts that are not internationalised; host names. -/
namespace Siwe.Spec
open Rfc3986 (Ip6)

/-- The text with `%` and two hexadecimal digits replaced by the byte they stand for. -/
inductive PercentDecoded : Bytes → Bytes → Prop
  | nil : PercentDecoded [] []
  | byte {a b x s d} : Spells [a, b] [x] → PercentDecoded s d → PercentDecoded (37 :: a :: b :: s) (x :: d)
  | same {c s d} : (c = 37 → ∀ a b r, s = a :: b :: r → isHexDigit a = true → isHexDigit b = true → False) →
      PercentDecoded s d → PercentDecoded (c :: s) (c :: d)

/-- The labels of a domain name: the texts between its dots. -/
inductive Labels : Bytes → List Bytes → Prop
  | one {l} : 46 ∉ l → Labels l [l]
  | more {l d ls} : 46 ∉ l → Labels d ls → Labels (l ++ 46 :: d) (l :: ls)

/-- The labels but for an empty last one. -/
def LabelsOf (d : Bytes) (ls : List Bytes) : Prop := Labels d (ls ++ [[]]) ∨ (Labels d ls ∧ ls.getLast? ≠ some [])

/-- The value of digits to a base. -/
def radix (r : Nat) (ds : Bytes) : Nat := ds.foldl (fun n d => n * r + digitValue d) 0

/-- A number in an IPv4 address: decimal, octal behind a `0`, hexadecimal behind `0x` (where no digit is zero). -/
inductive Ip4Number : Bytes → Nat → Prop
  | decimal {ds} : ds ≠ [] → (∀ c ∈ ds, 48 ≤ c ∧ c ≤ 57) → (ds.head? = some 48 → ds.length = 1) → Ip4Number ds (radix 10 ds)
  | octal {ds} : ds ≠ [] → (∀ c ∈ ds, 48 ≤ c ∧ c ≤ 55) → Ip4Number (48 :: ds) (radix 8 ds)
  | hexadecimal {x ds} : x = 120 ∨ x = 88 → (∀ c ∈ ds, isHexDigit c = true) → Ip4Number (48 :: x :: ds) (radix 16 ds)

/-- The last label is a number, or at least made of digits: such a name must be an IPv4 address. -/
def EndsInNumber (d : Bytes) : Prop :=
  ∃ ls l, LabelsOf d (ls ++ [l]) ∧ ((l ≠ [] ∧ ∀ c ∈ l, 48 ≤ c ∧ c ≤ 57) ∨ ∃ n, Ip4Number l n)

/-- An IPv4 address of one to four numbers: the last fills the bytes that are left, the others are bytes. -/
def Ip4Text (d : Bytes) : Prop :=
  ∃ ls ns last, LabelsOf d ls ∧ List.Forall₂ Ip4Number ls (ns ++ [last]) ∧ ns.length < 4 ∧ (∀ n ∈ ns, n < 256) ∧
    last < 256 ^ (4 - ns.length)

/-- A domain name in ASCII, none of whose labels begins with `xn--`: no IDNA is involved. -/
def PlainName (d : Bytes) : Prop :=
  (∀ c ∈ d, c.toNat < 128) ∧ ∀ ls, Labels (lowered d) ls → ∀ l ∈ ls, ¬ascii "xn--" <+: l

/-- A domain name in ASCII: a plain one in small letters, or what IDNA makes of another. -/
def AsciiName (idna : Bytes → Option Bytes) (d name : Bytes) : Prop :=
  (PlainName d ∧ name = lowered d) ∨ (¬PlainName d ∧ idna d = some name)

/-- The forbidden domain code points of the URL standard. -/
def ForbiddenInDomain (c : UInt8) : Prop := c.toNat ≤ 32 ∨ c = 127 ∨ c ∈ ascii "#%/:<>?@[\\]^|"

/-- The text is the host of a web address: an IPv6 address in brackets, or it stands for a domain name without forbidden characters
that is an IPv4 address if it ends in a number. -/
def WebHost (idna : Bytes → Option Bytes) (s : Bytes) : Prop :=
  (∃ x, s = 91 :: x ++ [93] ∧ Ip6 x) ∨
  (s.head? ≠ some 91 ∧ ∃ d name, PercentDecoded s d ∧ AsciiName idna d name ∧ name ≠ [] ∧ (∀ c ∈ name, ¬ForbiddenInDomain c) ∧
    (EndsInNumber name → Ip4Text name))

/-- The text is the host in an address of another scheme: an IPv6 address in brackets, or a text without forbidden characters. -/
def OpaqueHost (s : Bytes) : Prop :=
  (∃ x, s = 91 :: x ++ [93] ∧ Ip6 x) ∨
  (s.head? ≠ some 91 ∧ ∀ c ∈ s, c ≠ 0 ∧ c ≠ 9 ∧ c ≠ 10 ∧ c ≠ 13 ∧ c ∉ ascii " #/:<>?@[\\]^|")

/-- A host name as in RFC 1123: labels of letters, digits and hyphens with dots between them, the last of which begins with a letter;
none begins with `xn--`, in capitals or not. -/
def HostName (s : Bytes) : Prop :=
  ∃ ls l, Labels s (ls ++ [l]) ∧ (∀ x ∈ ls ++ [l], x ≠ [] ∧ ¬ascii "xn--" <+: lowered x ∧
      ∀ c ∈ x, (48 ≤ c.toNat ∧ c.toNat ≤ 57) ∨ (65 ≤ c.toNat ∧ c.toNat ≤ 90) ∨ (97 ≤ c.toNat ∧ c.toNat ≤ 122) ∨ c = 45) ∧
    ∀ c, l.head? = some c → (65 ≤ c.toNat ∧ c.toNat ≤ 90) ∨ (97 ≤ c.toNat ∧ c.toNat ≤ 122)

/-- A host as it is usually written: a host name, an IPv4 address in four decimal numbers, an IPv6 address in brackets. -/
def SiteHost (s : Bytes) : Prop := HostName s ∨ Rfc3986.Ip4 s ∨ ∃ x, s = 91 :: x ++ [93] ∧ Ip6 x

/-- What follows `https://` in a web address: behind slashes, a user name and password, the host, a port, and nothing or a path, a query
or a fragment (see `HasHost`). -/
def HasWebHost (idna : Bytes → Option Bytes) (d : Bytes) : Prop :=
  ∃ t slashes user text opened port tail, ReadAs d t ∧ t = slashes ++ (user ++ text ++ port ++ tail) ∧ (∀ c ∈ slashes, Slash c) ∧
    UserInfo true user ∧ HostText true false text opened ∧ WebHost idna text ∧ PortPart port ∧ (port ≠ [] → opened = false) ∧
    TailPart true port tail

/-- What follows `name://` in an address of another scheme: the same without further slashes. -/
def HasOpaqueHost (d : Bytes) : Prop :=
  ∃ user text opened port tail, ReadAs d (user ++ text ++ port ++ tail) ∧ UserInfo false user ∧ text ≠ [] ∧
    HostText false false text opened ∧ OpaqueHost text ∧ PortPart port ∧ (port ≠ [] → opened = false) ∧ TailPart false port tail

end Siwe.Spec
