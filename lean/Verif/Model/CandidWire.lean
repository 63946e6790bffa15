import Verif.Model.Interface
import Verif.Model.Utf8
/-
Candid's binary format, as the decoder of the `candid` crate (0.10.9, `binary_parser.rs` and `de.rs`) reads it: the bytes of a message
give the arguments with the types they were sent at; what becomes of them is in `Model/Candid.lean`.  Dependency modelled from its
published source.

Simplifications.  All arguments are read before any is converted; the crate does both at once.  Messages in which a type of an argument
is recursive, or with function, service or future types in the table, are refused here.  The decoder's limits
on work and depth are left out.
-/
namespace Siwe.Candid.Wire

/-- A LEB128 number's bytes, at most so many: up to the first whose top bit is clear. -/
def splitLeb : Nat → Bytes → Option (Bytes × Bytes)
  | 0, _ => .none
  | _ + 1, [] => .none
  | fuel + 1, b :: rest =>
    if b < 128 then .some ([b], rest)
    else match splitLeb fuel rest with
      | .some (l, rest) => .some (b :: l, rest)
      | .none => .none

/-- The number of the lower seven bits of these bytes. -/
def lebNumber : Bytes → Nat
  | [] => 0
  | b :: rest => b.toNat % 128 + 128 * lebNumber rest

/-- `leb128::read::unsigned`: a number of 64 bits in at most ten bytes. -/
def readLeb (bs : Bytes) : Option (Nat × Bytes) :=
  match splitLeb 10 bs with
  | .some (l, rest) => if lebNumber l < 2 ^ 64 then .some (lebNumber l, rest) else .none
  | .none => .none

/-- `candid::Nat::decode`: a number of any size. -/
def readNat (bs : Bytes) : Option (Nat × Bytes) :=
  match splitLeb bs.length bs with
  | .some (l, rest) => .some (lebNumber l, rest)
  | .none => .none

/-- The number with its sign: the second bit of the last byte. -/
def slebNumber (l : Bytes) : Int :=
  if l.getLast?.any (fun b => decide (64 ≤ b.toNat % 128)) then (lebNumber l : Int) - 2 ^ (7 * l.length) else lebNumber l

/-- `leb128::read::signed`: a number of 64 bits in at most ten bytes. -/
def readSleb (bs : Bytes) : Option (Int × Bytes) :=
  match splitLeb 10 bs with
  | .some (l, rest) => if -(2 ^ 63) ≤ slebNumber l ∧ slebNumber l < 2 ^ 63 then .some (slebNumber l, rest) else .none
  | .none => .none

/-- The first bytes, if there are so many. -/
def takeBytes (n : Nat) (bs : Bytes) : Option (Bytes × Bytes) :=
  if n ≤ bs.length then .some (bs.take n, bs.drop n) else .none

/-! ### types -/

/-- What stands for a type in the table: a primitive type, or the place of another entry. -/
inductive Ref where
  | prim (p : Prim)
  | entry (i : Nat)
  deriving DecidableEq

/-- An entry of the type table. -/
inductive Entry where
  | opt (r : Ref)
  | vec (r : Ref)
  | record (fs : List (UInt32 × Ref))
  | variant (fs : List (UInt32 × Ref))
  deriving DecidableEq

/-- The primitive types' codes, negated. -/
def primOf : Nat → Option Prim
  | 1 => .some .null
  | 3 => .some .nat
  | 5 => .some .nat8
  | 7 => .some .nat32
  | 8 => .some .nat64
  | 15 => .some .text
  | 24 => .some .principal
  | 2 => .some (.other 2) -- bool
  | 4 => .some (.other 4) -- int
  | 6 => .some (.other 6) -- nat16
  | 9 => .some (.other 9) -- int8
  | 10 => .some (.other 10) -- int16
  | 11 => .some (.other 11) -- int32
  | 12 => .some (.other 12) -- int64
  | 13 => .some (.other 13) -- float32
  | 14 => .some (.other 14) -- float64
  | 16 => .some (.other 16) -- reserved
  | 17 => .some (.other 17) -- empty
  | _ => .none

/-- `IndexType`: a place in the table, or a primitive type's code. -/
def readRef (bs : Bytes) : Option (Ref × Bytes) :=
  match readSleb bs with
  | .none => .none
  | .some (.ofNat i, rest) => .some (.entry i, rest)
  | .some (.negSucc n, rest) =>
    match primOf (n + 1) with
    | .some p => .some (.prim p, rest)
    | .none => .none

/-- `FieldType`s: labels of 32 bits with their types. -/
def readFields : Nat → Bytes → Option (List (UInt32 × Ref) × Bytes)
  | 0, bs => .some ([], bs)
  | n + 1, bs =>
    match readLeb bs with
    | .none => .none
    | .some (l, bs) =>
      if l < 2 ^ 32 then
        match readRef bs with
        | .none => .none
        | .some (r, bs) =>
          match readFields n bs with
          | .none => .none
          | .some (fs, bs) => .some ((UInt32.ofNat l, r) :: fs, bs)
      else .none

/-- `Fields`: their number, below 2^32, and the fields. -/
def readFieldList (bs : Bytes) : Option (List (UInt32 × Ref) × Bytes) :=
  match readLeb bs with
  | .none => .none
  | .some (n, bs) => if n < 2 ^ 32 then readFields n bs else .none

/-- `ConsType` -/
def readEntry : Bytes → Option (Entry × Bytes)
  | 0x6e :: bs => match readRef bs with
    | .some (r, bs) => .some (.opt r, bs)
    | .none => .none
  | 0x6d :: bs => match readRef bs with
    | .some (r, bs) => .some (.vec r, bs)
    | .none => .none
  | 0x6c :: bs => match readFieldList bs with
    | .some (fs, bs) => .some (.record fs, bs)
    | .none => .none
  | 0x6b :: bs => match readFieldList bs with
    | .some (fs, bs) => .some (.variant fs, bs)
    | .none => .none
  | _ => .none

/-- So many things, one after the other. -/
def readMany {α : Type} (f : Bytes → Option (α × Bytes)) : Nat → Bytes → Option (List α × Bytes)
  | 0, bs => .some ([], bs)
  | n + 1, bs =>
    match f bs with
    | .none => .none
    | .some (a, bs) =>
      match readMany f n bs with
      | .none => .none
      | .some (as, bs) => .some (a :: as, bs)

/-- A list: its length and its items. -/
def readList {α : Type} (f : Bytes → Option (α × Bytes)) (bs : Bytes) : Option (List α × Bytes) :=
  match readLeb bs with
  | .none => .none
  | .some (n, bs) => readMany f n bs

/-- A reference into a table of this size. -/
def Ref.ok (size : Nat) : Ref → Bool
  | .prim _ => true
  | .entry i => i < size

/-- The labels ascend. -/
def ascending : List (UInt32 × Ref) → Bool
  | (k, _) :: (l, r) :: fs => k < l && ascending ((l, r) :: fs)
  | _ => true

/-- `Table::to_env`: references are in range, labels ascend. -/
def Entry.ok (size : Nat) : Entry → Bool
  | .opt r => r.ok size
  | .vec r => r.ok size
  | .record fs => ascending fs && fs.all fun f => f.2.ok size
  | .variant fs => ascending fs && fs.all fun f => f.2.ok size

/-- The fields' types, each found with `f`. -/
def resolveFields (f : Ref → Option Ty) : List (UInt32 × Ref) → Option Fields
  | [] => .some .nil
  | (l, r) :: fs =>
    match f r, resolveFields f fs with
    | .some t, .some ts => .some (.cons l t ts)
    | _, _ => .none

/-- The type a reference stands for; `.none` if it leads on through more entries than the first argument allows, as recursive ones do. -/
def resolve (table : List Entry) : Nat → Ref → Option Ty
  | _, .prim p => .some (.prim p)
  | 0, .entry _ => .none
  | depth + 1, .entry i =>
    match table[i]? with
    | .none => .none
    | .some (.opt r) => match resolve table depth r with
      | .some t => .some (.opt t)
      | .none => .none
    | .some (.vec r) => match resolve table depth r with
      | .some t => .some (.vec t)
      | .none => .none
    | .some (.record fs) => match resolveFields (resolve table depth) fs with
      | .some ts => .some (.record ts)
      | .none => .none
    | .some (.variant fs) => match resolveFields (resolve table depth) fs with
      | .some ts => .some (.variant ts)
      | .none => .none

/-! ### values -/

/-- Little-endian bytes. -/
def leNumber : Bytes → Nat
  | [] => 0
  | b :: rest => b.toNat + 256 * leNumber rest

/-- The number of bytes of a value of a primitive type that nothing reads, if it is fixed. -/
def otherWidth : Nat → Option Nat
  | 6 => .some 2
  | 9 => .some 1
  | 10 => .some 2
  | 11 => .some 4
  | 12 => .some 8
  | 13 => .some 4
  | 14 => .some 8
  | 16 => .some 0
  | _ => .none

/-- A value of a primitive type that nothing reads: its bytes. -/
def readOther (code : Nat) (bs : Bytes) : Option (Bytes × Bytes) :=
  if code = 2 then
    match bs with
    | b :: rest => if b = 0 ∨ b = 1 then .some ([b], rest) else .none
    | [] => .none
  else if code = 4 then splitLeb bs.length bs
  else match otherWidth code with
    | .some n => takeBytes n bs
    | .none => .none

/-- A value of a primitive type. -/
def readPrim : Prim → Bytes → Option (Val × Bytes)
  | .null, bs => .some (.null, bs)
  | .nat, bs => match readNat bs with
    | .some (n, bs) => .some (.nat n, bs)
    | .none => .none
  | .nat8, bs => match bs with
    | b :: bs => .some (.nat8 b, bs)
    | [] => .none
  | .nat32, bs => match takeBytes 4 bs with
    | .some (b, bs) => .some (.nat32 (UInt32.ofNat (leNumber b)), bs)
    | .none => .none
  | .nat64, bs => match takeBytes 8 bs with
    | .some (b, bs) => .some (.nat64 (UInt64.ofNat (leNumber b)), bs)
    | .none => .none
  | .text, bs => match readLeb bs with
    | .none => .none
    | .some (n, bs) => match takeBytes n bs with
      | .some (b, bs) => if isUtf8 b then .some (.text b, bs) else .none
      | .none => .none
  | .principal, bs => match bs with
    | [] => .none
    | flag :: bs =>
      if flag = 1 then
        match readLeb bs with
        | .none => .none
        | .some (n, bs) =>
          if n ≤ 29 then
            match takeBytes n bs with
            | .some (b, bs) => .some (.principal b, bs)
            | .none => .none
          else .none
      else .none
  | .other c, bs => match readOther c bs with
    | .some (b, bs) => .some (.other c b, bs)
    | .none => .none

mutual
/-- A value of a type. -/
def readVal : Ty → Bytes → Option (Val × Bytes)
  | .prim p, bs => readPrim p bs
  | .opt t, bs => match bs with
    | [] => .none
    | b :: bs =>
      if b = 0 then .some (.none, bs)
      else if b = 1 then
        match readVal t bs with
        | .some (v, bs) => .some (.some v, bs)
        | .none => .none
      else .none
  | .vec t, bs => match readList (readVal t) bs with
    | .some (vs, bs) => .some (.vec vs, bs)
    | .none => .none
  | .record fs, bs => match readValFields fs bs with
    | .some (vs, bs) => .some (.record vs, bs)
    | .none => .none
  | .variant fs, bs => match readLeb bs with
    | .none => .none
    | .some (n, bs) => readCase fs n bs
/-- The fields of a record, in order. -/
def readValFields : Fields → Bytes → Option (List (UInt32 × Val) × Bytes)
  | .nil, bs => .some ([], bs)
  | .cons l t fs, bs => match readVal t bs with
    | .none => .none
    | .some (v, bs) => match readValFields fs bs with
      | .none => .none
      | .some (vs, bs) => .some ((l, v) :: vs, bs)
/-- The `n`-th case of a variant. -/
def readCase : Fields → Nat → Bytes → Option (Val × Bytes)
  | .nil, _, _ => .none
  | .cons l t _, 0, bs => match readVal t bs with
    | .some (v, bs) => .some (.variant l v, bs)
    | .none => .none
  | .cons _ _ fs, n + 1, bs => readCase fs n bs
end

/-- The arguments' values, one after the other. -/
def readVals : List Ty → Bytes → Option (List Val × Bytes)
  | [], bs => .some ([], bs)
  | t :: ts, bs => match readVal t bs with
    | .none => .none
    | .some (v, bs) => match readVals ts bs with
      | .none => .none
      | .some (vs, bs) => .some (v :: vs, bs)

/-- All the types. -/
def resolveAll (f : Ref → Option Ty) : List Ref → Option (List Ty)
  | [] => .some []
  | r :: rs => match f r, resolveAll f rs with
    | .some t, .some ts => .some (t :: ts)
    | _, _ => .none

/-- A message: `DIDL`, the type table, the arguments' types and the values; nothing may follow. -/
def readMessage : Bytes → Option Args
  | 0x44 :: 0x49 :: 0x44 :: 0x4c :: bs =>
    match readList readEntry bs with
    | .none => .none
    | .some (table, bs) =>
      if table.all (·.ok table.length) then
        match readList readRef bs with
        | .none => .none
        | .some (refs, bs) =>
          match resolveAll (resolve table table.length) refs with
          | .none => .none
          | .some types =>
            match readVals types bs with
            | .some (vs, []) => .some (types.zip vs)
            | _ => .none
      else .none
  | _ => .none

/-! ### messages as bytes -/

/-- What arrives at the canister, its arguments as bytes. -/
inductive RawMessage where
  | install (arg : Bytes)
  | upgrade (arg : Bytes)
  | rngSeeded (seed : Bytes)
  | call (name : String) (caller : Bytes) (certificate : Option Bytes) (arg : Bytes)

/-- The message with its arguments read. -/
def RawMessage.parse : RawMessage → Option Message
  | .install arg => (readMessage arg).map .install
  | .upgrade arg => (readMessage arg).map .upgrade
  | .rngSeeded seed => .some (.rngSeeded seed)
  | .call name caller certificate arg => (readMessage arg).map (.call name caller certificate)

/-- The operation a message asks for, if it can be read. -/
def receiveRaw (m : RawMessage) : Option Op :=
  match m.parse with
  | .some m => receive m
  | .none => .none

/-- One message: what cannot be read traps before any of the code runs. -/
def stepRaw {E : Env} (s : State E) (now : UInt64) (m : RawMessage) : State E × Reply :=
  match receiveRaw m with
  | .some op => step s now op
  | .none => (s, .trap)

/-- A history of messages, from a state. -/
def runRaw {E : Env} (s : State E) : List (UInt64 × RawMessage) → State E × List Reply
  | [] => (s, [])
  | (now, m) :: rest =>
    let (s', r) := stepRaw s now m
    let (s'', rs) := runRaw s' rest
    (s'', r :: rs)

/-- A reply's bytes, read at the type the reader expects. -/
def readReply (e : Ty) (bs : Bytes) : Option Val :=
  match readMessage bs with
  | .some ((w, v) :: _) => decode e w v
  | _ => .none

end Siwe.Candid.Wire
