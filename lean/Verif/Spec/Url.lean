import Verif.Model.Basic
/- Where a URL parser finds a host in `https://` followed by a configured domain, stated without the parser (WHATWG URL standard, 4.4). -/
namespace Siwe.Spec

/-- Tab, line feed, carriage return: a URL parser drops them wherever they are. -/
def Dropped (c : UInt8) : Prop := c = 9 ∨ c = 10 ∨ c = 13

/-- The text without its tabs and line breaks. -/
inductive WithoutDropped : Bytes → Bytes → Prop
  | nil : WithoutDropped [] []
  | drop {c s t} : Dropped c → WithoutDropped s t → WithoutDropped (c :: s) t
  | keep {c s t} : ¬Dropped c → WithoutDropped s t → WithoutDropped (c :: s) (c :: t)

/-- What a URL parser reads of a text that ends the URL: the spaces and control characters at its end are dropped, and the tabs and line
breaks. -/
def ReadAs (s t : Bytes) : Prop :=
  ∃ body pad, s = body ++ pad ∧ (∀ c ∈ pad, c.toNat ≤ 32) ∧ (∀ c, body.getLast? = some c → 32 < c.toNat) ∧ WithoutDropped body t

/-- `/` or `\`. -/
def Slash (c : UInt8) : Prop := c = 47 ∨ c = 92

/-- `/`, `?` or `#`, and `\` in a web address: here the authority ends. -/
def Delimiter (web : Bool) (c : UInt8) : Prop := c = 47 ∨ c = 63 ∨ c = 35 ∨ (web = true ∧ c = 92)

/-- The text of a host: no delimiter, no `@`, and colons only in square brackets; whether a bracket is open before it and after it. -/
inductive HostText (web : Bool) : (before : Bool) → Bytes → (after : Bool) → Prop
  | nil {b} : HostText web b [] b
  | opening {b s b'} : HostText web true s b' → HostText web b (91 :: s) b'
  | closing {b s b'} : HostText web false s b' → HostText web b (93 :: s) b'
  | colon {s b'} : HostText web true s b' → HostText web true (58 :: s) b'
  | other {b c s b'} : ¬Delimiter web c → c ≠ 64 → c ≠ 58 → c ≠ 91 → c ≠ 93 → HostText web b s b' → HostText web b (c :: s) b'

/-- The number that decimal digits stand for. -/
def numberOf (ds : Bytes) : Nat := ds.foldl (fun n d => n * 10 + (d.toNat - 48)) 0

/-- A user name and password, up to the `@` that ends them. -/
def UserInfo (web : Bool) (u : Bytes) : Prop := u = [] ∨ ∃ v, u = v ++ [64] ∧ ∀ c ∈ v, ¬Delimiter web c

/-- A port with its colon: at most 65535, possibly left out. -/
def PortPart (p : Bytes) : Prop :=
  p = [] ∨ ∃ ds, p = 58 :: ds ∧ (∀ d ∈ ds, 48 ≤ d.toNat ∧ d.toNat ≤ 57) ∧ numberOf ds ≤ 65535

/-- Nothing, or a path, query or fragment. -/
def NoAuthority (web : Bool) (t : Bytes) : Prop := t = [] ∨ ∃ c r, t = c :: r ∧ Delimiter web c

/-- What follows the host and the port: no more of an authority. (A `\` ends a port in any scheme, if there is no `@` after it that makes
all before it a user name.) -/
def TailPart (web : Bool) (port t : Bytes) : Prop :=
  NoAuthority web t ∨ (port ≠ [] ∧ ∃ r, t = 92 :: r ∧ ∀ a b, r = a ++ 64 :: b → ∃ c ∈ a, Delimiter web c)

/-- An authority with a host: behind an optional user name stands a nonempty text that is a host, then an optional port (if no bracket is
open), and then nothing or anything that begins with a delimiter. -/
def Hosted (web : Bool) (host : Bytes → Option Bytes) (x : Bytes) : Prop :=
  ∃ user text opened port tail h, x = user ++ text ++ port ++ tail ∧ UserInfo web user ∧ text ≠ [] ∧ HostText web false text opened ∧
    host text = some h ∧ h ≠ [] ∧ PortPart port ∧ (port ≠ [] → opened = false) ∧ TailPart web port tail

/-- `https://` followed by `d` is a URL with a host: behind any number of slashes there is one. -/
def HasHost (host : Bytes → Option Bytes) (d : Bytes) : Prop :=
  ∃ t slashes x, ReadAs d t ∧ t = slashes ++ x ∧ (∀ c ∈ slashes, Slash c) ∧ Hosted true host x

/-- The name of a URL scheme: a letter, then letters, digits, `+`, `-` and `.`. -/
def SchemeName (s : Bytes) : Prop :=
  ∃ c r, s = c :: r ∧ ((65 ≤ c.toNat ∧ c.toNat ≤ 90) ∨ (97 ≤ c.toNat ∧ c.toNat ≤ 122)) ∧
    ∀ c ∈ r, (65 ≤ c.toNat ∧ c.toNat ≤ 90) ∨ (97 ≤ c.toNat ∧ c.toNat ≤ 122) ∨ (48 ≤ c.toNat ∧ c.toNat ≤ 57) ∨ c = 43 ∨ c = 45 ∨ c = 46

/-- ASCII letters in lower case. -/
def lowered (s : Bytes) : Bytes := s.map fun c => if 65 ≤ c.toNat ∧ c.toNat ≤ 90 then UInt8.ofNat (c.toNat + 32) else c

/-- The schemes that must have a host. -/
def WebScheme (s : Bytes) : Prop :=
  lowered s ∈ [ascii "http", ascii "https", ascii "ws", ascii "wss", ascii "ftp"]

/-- What a URL parser reads of a whole text: spaces and control characters at both ends are dropped, tabs and line breaks everywhere. -/
def AddressReadAs (s t : Bytes) : Prop :=
  ∃ lead rest, s = lead ++ rest ∧ (∀ c ∈ lead, c.toNat ≤ 32) ∧ (∀ c, rest.head? = some c → 32 < c.toNat) ∧ ReadAs rest t

/-- An authority that is empty, or consists of an empty user name and password. -/
def EmptyAuthority (t : Bytes) : Prop := NoAuthority false t ∨ t = [64] ∨ ∃ u, t = 58 :: 64 :: u ∧ NoAuthority false u

/-- An address in which a URL parser finds an authority, but no host: its scheme is none of those that must have one, and either it is
`file` and no host is written, or `://` and an empty authority follow. (`file` is what is found in `file://` and a text.) -/
def HostlessAddress (file : Bytes → Option (Option Bytes)) (address : Bytes) : Prop :=
  ∃ t name rest, AddressReadAs address t ∧ t = name ++ 58 :: rest ∧ SchemeName name ∧ ¬WebScheme name ∧
    ((lowered name = ascii "file" ∧
        ∀ a b x, rest = a :: b :: x → Slash a → Slash b → NoAuthority true x ∨ file x = some none) ∨
      (lowered name ≠ ascii "file" ∧ ∃ x, rest = 47 :: 47 :: x ∧ EmptyAuthority x))

/-- An address in which a URL parser finds a host: in a web address it may begin right after the colon or behind slashes, in a `file`
address behind two of them, and in others behind `//`. -/
def HostedAddress (web other : Bytes → Option Bytes) (file : Bytes → Option (Option Bytes)) (address : Bytes) : Prop :=
  ∃ t name rest, AddressReadAs address t ∧ t = name ++ 58 :: rest ∧ SchemeName name ∧
    ((WebScheme name ∧ ∃ slashes x, rest = slashes ++ x ∧ (∀ c ∈ slashes, Slash c) ∧ Hosted true web x) ∨
      (lowered name = ascii "file" ∧
        ∃ a b x h, rest = a :: b :: x ∧ Slash a ∧ Slash b ∧ ¬NoAuthority true x ∧ file x = some (some h)) ∨
      (¬WebScheme name ∧ lowered name ≠ ascii "file" ∧ ∃ x, rest = 47 :: 47 :: x ∧ Hosted false other x))

end Siwe.Spec
