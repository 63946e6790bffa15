import Verif.Model.StableMemory
/- What a memory should be after some uses, whatever became of the other memories. -/
namespace Siwe.Spec
open StableMemory

/-- The pages granted to a memory. -/
def pagesOf (id : UInt8) (es : List (Use × Outcome)) : Nat :=
  (es.map fun e => match e with
    | (.grow j pages, .done) => if j = id then pages else 0
    | _ => 0).sum

/-- The byte of a memory: the one written last, or 0. -/
def byteOf (id : UInt8) (x : Nat) (es : List (Use × Outcome)) : UInt8 :=
  es.foldl (fun old e => match e with
    | (.write j offset bytes, .done) =>
      if j = id ∧ offset ≤ x then match bytes[x - offset]? with
        | some b => b
        | none => old
      else old
    | _ => old) 0

/-- The buckets of 128 pages that all memories need. -/
def bucketsUsed (es : List (Use × Outcome)) : Nat :=
  ((List.range 255).map fun i => (pagesOf (UInt8.ofNat i) es + 127) / 128).sum

/-- The use is one of this memory. -/
def UseOf (id : UInt8) : Use → Prop
  | .grow j _ => j = id
  | .write j _ _ => j = id
  | .upgrade => False

end Siwe.Spec
