import Verif.Model.CandidWire
import Verif.Spec.Encoding
import Verif.Spec.Candid
import Verif.Spec.Utf8
/-
Candid's binary format, as the Candid specification defines it (sections "Types", "Memory"): which bytes represent which
arguments.  The numbers that stand for lengths, labels and types are those a decoder with 64-bit integers takes.
-/
namespace Siwe.Spec
open Candid Wire

/-- `bs` is an unsigned LEB128 encoding of a number of 64 bits, of at most ten bytes. -/
def Leb64 (n : Nat) (bs : Bytes) : Prop := IsLeb128 n bs ∧ bs.length ≤ 10 ∧ n < 2 ^ 64

/-- `bs` is a signed LEB128 encoding of `i`: the base-128 digits are its two's complement. -/
def IsSleb128 (i : Int) (bs : Bytes) : Prop :=
  ∃ init last, bs = init ++ [last] ∧ (∀ b ∈ init, 128 ≤ UInt8.toNat b) ∧ UInt8.toNat last < 128 ∧
    i = lebValue bs - (if 64 ≤ UInt8.toNat last then 2 ^ (7 * List.length bs) else 0)

/-- ... of a number of 64 bits, of at most ten bytes. -/
def Sleb64 (i : Int) (bs : Bytes) : Prop := IsSleb128 i bs ∧ bs.length ≤ 10 ∧ -(2 ^ 63) ≤ i ∧ i < 2 ^ 63

/-- The things' representations, one after the other. -/
inductive Each {α : Type} (R : α → Bytes → Prop) : List α → Bytes → Prop
  | nil : Each R [] []
  | cons {a as b bs} : R a b → Each R as bs → Each R (a :: as) (b ++ bs)

/-! ### types -/

/-- The code of a primitive type. -/
inductive PrimCode : Prim → Int → Prop
  | null : PrimCode .null (-1)
  | nat : PrimCode .nat (-3)
  | nat8 : PrimCode .nat8 (-5)
  | nat32 : PrimCode .nat32 (-7)
  | nat64 : PrimCode .nat64 (-8)
  | text : PrimCode .text (-15)
  | principal : PrimCode .principal (-24)
  /-- bool, int, nat16, int8 to int64, float32, float64, reserved, empty -/
  | other (c : Nat) : c ∈ [2, 4, 6, 9, 10, 11, 12, 13, 14, 16, 17] → PrimCode (.other c) (-c)

/-- A reference to a type. -/
inductive RefBytes : Ref → Bytes → Prop
  | prim (p i b) : PrimCode p i → Sleb64 i b → RefBytes (.prim p) b
  | entry (i : Nat) (b) : Sleb64 i b → RefBytes (.entry i) b

/-- A field in the table. -/
def FieldBytes (f : UInt32 × Ref) (bs : Bytes) : Prop := ∃ l b, bs = l ++ b ∧ Leb64 f.1.toNat l ∧ RefBytes f.2 b

/-- An entry of the table. -/
inductive EntryBytes : Entry → Bytes → Prop
  | opt (r b) : RefBytes r b → EntryBytes (.opt r) (0x6e :: b)
  | vec (r b) : RefBytes r b → EntryBytes (.vec r) (0x6d :: b)
  | record (fs l b) : fs.length < 2 ^ 32 → Leb64 fs.length l → Each FieldBytes fs b → EntryBytes (.record fs) (0x6c :: (l ++ b))
  | variant (fs l b) : fs.length < 2 ^ 32 → Leb64 fs.length l → Each FieldBytes fs b → EntryBytes (.variant fs) (0x6b :: (l ++ b))

/-- A reference into a table of this size. -/
def RefOk (size : Nat) (r : Ref) : Prop := ∀ i, r = .entry i → i < size

/-- References are in range, labels ascend. -/
def EntryOk (size : Nat) : Entry → Prop
  | .opt r => RefOk size r
  | .vec r => RefOk size r
  | .record fs => (fs.map (·.1)).Pairwise (· < ·) ∧ ∀ f ∈ fs, RefOk size f.2
  | .variant fs => (fs.map (·.1)).Pairwise (· < ·) ∧ ∀ f ∈ fs, RefOk size f.2

mutual
/-- The reference stands for the type. -/
def Denotes (table : List Entry) (r : Ref) : Ty → Prop
  | .prim p => r = .prim p
  | .opt t => ∃ i r', r = .entry i ∧ table[i]? = some (.opt r') ∧ Denotes table r' t
  | .vec t => ∃ i r', r = .entry i ∧ table[i]? = some (.vec r') ∧ Denotes table r' t
  | .record ts => ∃ i fs, r = .entry i ∧ table[i]? = some (.record fs) ∧ DenoteFields table fs ts
  | .variant ts => ∃ i fs, r = .entry i ∧ table[i]? = some (.variant fs) ∧ DenoteFields table fs ts
/-- The fields stand for these, in order. -/
def DenoteFields (table : List Entry) (fs : List (UInt32 × Ref)) : Fields → Prop
  | .nil => fs = []
  | .cons l t ts => ∃ r fs', fs = (l, r) :: fs' ∧ Denotes table r t ∧ DenoteFields table fs' ts
end

/-! ### values -/

/-- The number of little-endian bytes. -/
def leValue : Bytes → Nat
  | [] => 0
  | b :: rest => b.toNat + 256 * leValue rest

/-- The bytes of a value of a primitive type of another kind. -/
def OtherBytes (c : Nat) (b : Bytes) : Prop :=
  (c = 2 ∧ (b = [0] ∨ b = [1])) ∨ (c = 4 ∧ ∃ i, IsSleb128 i b) ∨ (c = 9 ∧ b.length = 1) ∨ ((c = 6 ∨ c = 10) ∧ b.length = 2) ∨
    ((c = 11 ∨ c = 13) ∧ b.length = 4) ∨ ((c = 12 ∨ c = 14) ∧ b.length = 8) ∨ (c = 16 ∧ b = [])

/-- A value of a primitive type. -/
inductive PrimBytes : Prim → Val → Bytes → Prop
  | null : PrimBytes .null .null []
  | nat (n b) : IsLeb128 n b → PrimBytes .nat (.nat n) b
  | nat8 (x) : PrimBytes .nat8 (.nat8 x) [x]
  | nat32 (x b) : b.length = 4 → leValue b = x.toNat → PrimBytes .nat32 (.nat32 x) b
  | nat64 (x b) : b.length = 8 → leValue b = x.toNat → PrimBytes .nat64 (.nat64 x) b
  | text (s l) : IsUtf8 s → Leb64 s.length l → PrimBytes .text (.text s) (l ++ s)
  | principal (p l) : p.length ≤ 29 → Leb64 p.length l → PrimBytes .principal (.principal p) (1 :: (l ++ p))
  | other (c b) : OtherBytes c b → PrimBytes (.other c) (.other c b) b

mutual
/-- A value of a type. -/
def ValBytes : Ty → Val → Bytes → Prop
  | .prim p, v, bs => PrimBytes p v bs
  | .opt t, v, bs => (v = .none ∧ bs = [0]) ∨ ∃ w b, v = .some w ∧ bs = 1 :: b ∧ ValBytes t w b
  | .vec t, v, bs => ∃ vs l b, v = .vec vs ∧ bs = l ++ b ∧ Leb64 vs.length l ∧ Each (ValBytes t) vs b
  | .record fs, v, bs => ∃ vs, v = .record vs ∧ ValsBytes fs vs bs
  | .variant fs, v, bs => ∃ n l b, bs = l ++ b ∧ Leb64 n l ∧ CaseBytes fs n v b
/-- The values of a record's fields, in order. -/
def ValsBytes : Fields → List (UInt32 × Val) → Bytes → Prop
  | .nil, vs, bs => vs = [] ∧ bs = []
  | .cons l t fs, vs, bs => ∃ v vs' b b', vs = (l, v) :: vs' ∧ bs = b ++ b' ∧ ValBytes t v b ∧ ValsBytes fs vs' b'
/-- A value of the `n`-th case of a variant. -/
def CaseBytes : Fields → Nat → Val → Bytes → Prop
  | .nil, _, _, _ => False
  | .cons l t _, 0, v, b => ∃ w, v = .variant l w ∧ ValBytes t w b
  | .cons _ _ fs, n + 1, v, b => CaseBytes fs n v b
end

/-- The bytes are a message with these arguments, at these types. -/
def IsMessage (bs : Bytes) (args : Args) : Prop :=
  ∃ table refs tl tb rl rb vb, bs = ascii "DIDL" ++ (tl ++ (tb ++ (rl ++ (rb ++ vb)))) ∧
    Leb64 table.length tl ∧ Each EntryBytes table tb ∧ (∀ e ∈ table, EntryOk table.length e) ∧
    Leb64 refs.length rl ∧ Each RefBytes refs rb ∧ List.Forall₂ (Denotes table) refs (args.map (·.1)) ∧
    Each (fun a => ValBytes a.1 a.2) args vb

/-! ### what can be sent -/

/-- The value is one the format has: texts are UTF-8, lengths have 64 bits, a principal has at most 29 bytes. -/
inductive Fits : Val → Prop
  | null : Fits .null
  | nat (n) : Fits (.nat n)
  | nat8 (n) : Fits (.nat8 n)
  | nat32 (n) : Fits (.nat32 n)
  | nat64 (n) : Fits (.nat64 n)
  | text (s) : IsUtf8 s → s.length < 2 ^ 64 → Fits (.text s)
  | principal (p) : p.length ≤ 29 → Fits (.principal p)
  | other (c b) : OtherBytes c b → Fits (.other c b)
  | none : Fits .none
  | some (v) : Fits v → Fits (.some v)
  | vec (vs) : vs.length < 2 ^ 64 → (∀ v ∈ vs, Fits v) → Fits (.vec vs)
  | record (fs) : (∀ f ∈ fs, Fits f.2) → Fits (.record fs)
  | variant (l v) : Fits v → Fits (.variant l v)

mutual
/-- The type is one the format has: labels ascend, there are fewer than 2^32 of them. -/
def Tidy : Ty → Prop
  | .prim p => ∃ i, PrimCode p i
  | .opt t => Tidy t
  | .vec t => Tidy t
  | .record fs => fs.labels.Pairwise (· < ·) ∧ fs.labels.length < 2 ^ 32 ∧ TidyFields fs
  | .variant fs => fs.labels.Pairwise (· < ·) ∧ fs.labels.length < 2 ^ 32 ∧ TidyFields fs
/-- Every field's type is. -/
def TidyFields : Fields → Prop
  | .nil => True
  | .cons _ t fs => Tidy t ∧ TidyFields fs
end

mutual
/-- The number of composite types in a type: the entries its table needs at most. -/
def composites : Ty → Nat
  | .prim _ => 0
  | .opt t => composites t + 1
  | .vec t => composites t + 1
  | .record fs => compositesIn fs + 1
  | .variant fs => compositesIn fs + 1
/-- ... of the fields. -/
def compositesIn : Fields → Nat
  | .nil => 0
  | .cons _ t fs => composites t + compositesIn fs
end

/-- The arguments can be sent. -/
def CanBeSent (args : Args) : Prop :=
  args.length < 2 ^ 64 ∧ (args.map fun a => composites a.1).sum < 2 ^ 63 ∧
    ∀ a ∈ args, Tidy a.1 ∧ HasType a.1 a.2 ∧ Fits a.2

/-- A text that can be sent. -/
def Text (b : Bytes) : Prop := IsUtf8 b ∧ b.length < 2 ^ 64

/-- A configuration whose texts are UTF-8; none has 2^64 bytes. -/
def Config.Sendable (c : Config) : Prop :=
  Text c.domain ∧ Text c.uri ∧ Text c.salt ∧ (∀ b, c.scheme = some b → Text b) ∧ (∀ b, c.statement = some b → Text b) ∧
    (∀ ts, c.targets = some ts → ts.length < 2 ^ 64 ∧ ∀ t ∈ ts, Text t) ∧
    (∀ fs, c.runtimeFeatures = some fs → fs.length < 2 ^ 64)

/-- A reply whose texts are UTF-8. -/
def ReplyUtf8 (derText : Bytes) (f : Function) : Reply → Prop
  | .err e => IsUtf8 (e.text derText)
  | .prepared r => IsUtf8 r.siweMessage ∧ IsUtf8 r.nonce
  | .bytes b => f ≠ .getPrincipal → IsUtf8 b
  | _ => True

/-- A configuration, as the canister receives it, whose texts are UTF-8. -/
def SettingsUtf8 (i : SettingsInput) : Prop :=
  IsUtf8 i.domain ∧ IsUtf8 i.uri ∧ IsUtf8 i.salt ∧ (∀ b, i.scheme = some b → IsUtf8 b) ∧ (∀ b, i.statement = some b → IsUtf8 b) ∧
    ∀ ts, i.targets = some ts → ∀ t ∈ ts, IsUtf8 t

/-- A call whose texts are UTF-8. -/
def CallUtf8 : Op → Prop
  | .install i => SettingsUtf8 i
  | .upgrade i => SettingsUtf8 i
  | .prepareLogin a => IsUtf8 a
  | .login s a _ n => IsUtf8 s ∧ IsUtf8 a ∧ IsUtf8 n
  | .getDelegation _ a _ _ => IsUtf8 a
  | .getPrincipal a => IsUtf8 a
  | _ => True

/-- A reply without texts and blobs of 2^64 bytes, with principals of at most 29 bytes. -/
def ReplySmall (derText : Bytes) : Reply → Prop
  | .trap => True
  | .done => True
  | .err e => (e.text derText).length < 2 ^ 64
  | .prepared r => r.siweMessage.length < 2 ^ 64 ∧ r.nonce.length < 2 ^ 64
  | .loggedIn d => d.userCanisterPubkey.length < 2 ^ 64
  | .delegation d => d.delegation.pubkey.length < 2 ^ 64 ∧ d.signature.length < 2 ^ 64 ∧
      ∀ ts, d.delegation.targets = some ts → ts.length < 2 ^ 64 ∧ ∀ t ∈ ts, List.length t ≤ 29
  | .bytes b => b.length < 2 ^ 64

/-! ### messages -/

/-- What a message asks the canister for. -/
inductive Requests : RawMessage → Op → Prop
  | seeded (seed) : Requests (.rngSeeded seed) (.rngSeeded seed)
  | call (f : Function) (caller cert bs vs rest op) : IsMessage bs (f.method.args.zip vs ++ rest) → Asks f vs caller cert op →
      Requests (.call f.method.name caller cert bs) op
  | install (bs args i) : IsMessage bs args → receiveSettings args = some i → Requests (.install bs) (.install i)
  | upgrade (bs args i) : IsMessage bs args → receiveSettings args = some i → Requests (.upgrade bs) (.upgrade i)

/-- The calls among the messages, and the replies to the messages given those to the calls: everything else is refused. -/
inductive Heard : List (UInt64 × RawMessage) → History → List Reply → List Reply → Prop
  | nil : Heard [] [] [] []
  | call (t m op ms h r rs qs) : Requests m op → Heard ms h rs qs → Heard ((t, m) :: ms) ((t, op) :: h) (r :: rs) (r :: qs)
  | refused (t m ms h rs qs) : (∀ op, ¬Requests m op) → Heard ms h rs qs → Heard ((t, m) :: ms) h rs (.trap :: qs)

end Siwe.Spec
