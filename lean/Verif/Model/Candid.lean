import Verif.Model.Basic
/-
Candid, as far as the interface needs it: the types that occur in ic_siwe_provider.did and in the code, values, and what
the decoder of the `candid` crate (Cargo.lock: 0.10.9, `de.rs`) makes of a value that was sent at one type and is read at
another.  This is dependency code; it is modelled by the decoder's rules at the level of types and values (the Candid
specification's sections on subtyping and coercion), not by the binary format.

Simplifications.  Every primitive type that is not named is `Prim.other`: nothing in the interface reads one.  The type `empty`
is one of them (the decoder would let an empty `vec empty` pass for a `vec text`).  Types are finite; since the types that are
read are finite, a recursive type of a sender behaves like its unrolling to their depth.  That text is UTF-8 is checked when
its bytes are read (`Model/CandidWire.lean`).
-/
namespace Siwe.Candid

/-- Primitive types. -/
inductive Prim where
  | null | nat | nat8 | nat32 | nat64 | text | principal
  | other (code : Nat)
  deriving DecidableEq

mutual
/-- Types. -/
inductive Ty where
  | prim (p : Prim)
  | opt (t : Ty)
  | vec (t : Ty)
  | record (fs : Fields)
  | variant (fs : Fields)
/-- Fields of a record or cases of a variant, by their 32-bit labels. -/
inductive Fields where
  | nil
  | cons (label : UInt32) (t : Ty) (rest : Fields)
end

deriving instance DecidableEq for Ty, Fields

/-- Values. -/
inductive Val where
  | null
  | nat (n : Nat)
  | nat8 (n : UInt8)
  | nat32 (n : UInt32)
  | nat64 (n : UInt64)
  | text (b : Bytes)
  | principal (b : Bytes)
  | other (code : Nat) (b : Bytes)
  | none
  | some (v : Val)
  | vec (vs : List Val)
  | record (fs : List (UInt32 × Val))
  | variant (label : UInt32) (v : Val)

/-- The label of a name: the specification's hash, `h * 223 + b` modulo 2^32. -/
@[irreducible] def label (name : String) : UInt32 := (ascii name).foldl (fun h b => h * 223 + UInt32.ofNat b.toNat) 0

namespace Fields

/-- The type of a field. -/
def find (l : UInt32) : Fields → Option Ty
  | .nil => .none
  | .cons k t rest => if k = l then .some t else rest.find l

/-- All labels. -/
def labels : Fields → List UInt32
  | .nil => []
  | .cons k _ rest => k :: rest.labels

/-- Insert at the place the label belongs. -/
def insert (l : UInt32) (t : Ty) : Fields → Fields
  | .nil => .cons l t .nil
  | .cons k u rest => if l < k then .cons l t (.cons k u rest) else .cons k u (rest.insert l t)

/-- Fields written with their names; they are ordered by their labels, however they were written. -/
def named : List (String × Ty) → Fields
  | [] => .nil
  | (n, t) :: rest => (named rest).insert (label n) t

end Fields

/-- A type that may be left out: a missing field or argument of such a type is read as absent. -/
def Ty.optional : Ty → Bool
  | .opt _ => true
  | .prim .null => true
  | _ => false

/-- What is read for a missing field or argument. -/
def Ty.missing : Ty → Option Val
  | .opt _ => .some .none
  | .prim .null => .some .null
  | _ => .none

mutual
/-- `w` is a subtype of the type that is read: a sender may send `w`.  Every type is a subtype of every `opt`. -/
def sub (w : Ty) : Ty → Bool
  | .opt _ => true
  | .prim p => match w with
    | .prim q => q = p
    | _ => false
  | .vec e => match w with
    | .vec w => sub w e
    | _ => false
  | .record es => match w with
    | .record ws => subFields ws es
    | _ => false
  | .variant es => match w with
    | .variant ws => ws.labels.all (fun l => es.labels.contains l) && subCases ws es
    | _ => false
/-- Every field that is read is sent, at a subtype, or may be left out. -/
def subFields (ws : Fields) : Fields → Bool
  | .nil => true
  | .cons l e es => (match ws.find l with
    | .some w => sub w e
    | .none => e.optional) && subFields ws es
/-- Every case that both sides have is sent at a subtype. -/
def subCases (ws : Fields) : Fields → Bool
  | .nil => true
  | .cons l e es => (match ws.find l with
    | .some w => sub w e
    | .none => true) && subCases ws es
end

mutual
/-- What is read at the type given last from a value that was sent at type `w`.  An `opt` that was sent at a type that does not
match is read as absent (`deserialize_option`); anything else that does not match is an error. -/
def coerce (w : Ty) : Ty → Val → Option Val
  | .prim p, v => match w with
    | .prim q => if q = p then .some v else .none
    | _ => .none
  | .opt e, v => match w, v with
    | .prim .null, _ => .some .none
    | .opt _, .none => .some .none
    | .opt w, .some v =>
      if sub w e then
        match coerce w e v with
        | .some v => .some (.some v)
        | .none => .some .none
      else .some .none
    | .opt _, _ => .none
    | w, v =>
      if sub w e then
        match coerce w e v with
        | .some v => .some (.some v)
        | .none => .some .none
      else .some .none
  | .vec e, v => match w, v with
    | .vec w, .vec vs => (vs.mapM (fun v => coerce w e v)).map .vec
    | _, _ => .none
  | .record es, v => match w, v with
    | .record ws, .record vs => (coerceFields ws vs es).map .record
    | _, _ => .none
  | .variant es, v => match w, v with
    | .variant ws, .variant l v => (coerceCase ws l v es).map (.variant l)
    | _, _ => .none
/-- The fields that are read; further fields that were sent are skipped. -/
def coerceFields (ws : Fields) (vs : List (UInt32 × Val)) : Fields → Option (List (UInt32 × Val))
  | .nil => .some []
  | .cons l e es => do
    let v ← match ws.find l, vs.lookup l with
      | .some w, .some v => coerce w e v
      | .none, _ => e.missing
      | _, _ => .none
    let rest ← coerceFields ws vs es
    .some ((l, v) :: rest)
/-- The case that was sent. -/
def coerceCase (ws : Fields) (l : UInt32) (v : Val) : Fields → Option Val
  | .nil => .none
  | .cons k e es =>
    if k = l then
      match ws.find l with
      | .some w => coerce w e v
      | .none => .none
    else coerceCase ws l v es
end

/-- Decoding one value: the types are compared first. -/
def decode (e w : Ty) (v : Val) : Option Val := if sub w e then coerce w e v else .none

/-- Decoding the arguments of a call: missing ones must be optional, further ones are skipped. -/
def decodeArgs : List Ty → List (Ty × Val) → Option (List Val)
  | [], _ => .some []
  | e :: es, [] => do
    let v ← e.missing
    let vs ← decodeArgs es []
    .some (v :: vs)
  | e :: es, (w, v) :: rest => do
    let v ← decode e w v
    let vs ← decodeArgs es rest
    .some (v :: vs)

/-- The primitive type of a primitive value. -/
def Val.prim? : Val → Option Prim
  | .null => .some .null
  | .nat _ => .some .nat
  | .nat8 _ => .some .nat8
  | .nat32 _ => .some .nat32
  | .nat64 _ => .some .nat64
  | .text _ => .some .text
  | .principal _ => .some .principal
  | .other c _ => .some (.other c)
  | _ => .none

mutual
/-- The value is of the type. -/
def HasType : Ty → Val → Prop
  | .prim p, v => v.prim? = .some p
  | .opt t, v => match v with
    | .none => True
    | .some v => HasType t v
    | _ => False
  | .vec t, v => match v with
    | .vec vs => ∀ v ∈ vs, HasType t v
    | _ => False
  | .record fs, v => match v with
    | .record vs => HasFields fs vs
    | _ => False
  | .variant fs, v => match v with
    | .variant l v => HasCase fs l v
    | _ => False
/-- A value for every field, in order. -/
def HasFields : Fields → List (UInt32 × Val) → Prop
  | .nil, vs => vs = []
  | .cons l t fs, vs => match vs with
    | (k, v) :: vs => k = l ∧ HasType t v ∧ HasFields fs vs
    | [] => False
/-- A value of the case with the label. -/
def HasCase : Fields → UInt32 → Val → Prop
  | .nil, _, _ => False
  | .cons k t fs, l, v => if k = l then HasType t v else HasCase fs l v
end

/-- A byte string as a `vec nat8`. -/
def Val.blob (b : Bytes) : Val := .vec (b.map .nat8)

end Siwe.Candid
