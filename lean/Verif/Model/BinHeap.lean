import Verif.Model.Basic
/-
`std::collections::BinaryHeap<SigExpiration>`, the representation of `SignatureMap::expiration_queue`
(packages/ic_siwe/src/signature_map.rs:46).  The array layout matters because `is_expired`
(signature_map.rs:102-105) searches it in array order.  Dependency modelled from its published source;
the `Hole` optimisation is modelled by the swaps it abbreviates.
-/
namespace Siwe

/-- signature_map.rs:21-26 `SigExpiration` -/
structure SigExpiration where
  seedHash : Hash
  delegationHash : Hash
  expiresAt : UInt64
  deriving DecidableEq

/-- `a <= b` in the order of signature_map.rs:28-40: the *later* expiry is the smaller element. -/
def SigExpiration.le (a b : SigExpiration) : Bool := b.expiresAt ≤ a.expiresAt

/-- swap two slots of the array -/
def swapAt (d : List SigExpiration) (i j : Nat) : List SigExpiration :=
  match d[i]?, d[j]? with
  | some x, some y => (d.set i y).set j x
  | _, _ => d -- not reached: both indices are in bounds at every call

/-- `sift_up(0, pos)`; the first argument bounds the number of steps by the position -/
def siftUp : Nat → List SigExpiration → Nat → List SigExpiration
  | 0, d, _ => d
  | n + 1, d, pos =>
    if pos = 0 then d
    else
      let parent := (pos - 1) / 2
      match d[pos]?, d[parent]? with
      | some e, some p => if e.le p then d else siftUp n (swapAt d pos parent) parent
      | _, _ => d -- not reached: in bounds

/-- `BinaryHeap::push` -/
def heapPush (d : List SigExpiration) (e : SigExpiration) : List SigExpiration :=
  siftUp d.length (d ++ [e]) d.length

/-- the descent of `sift_down_to_bottom`, returning the array and the final position; the first argument
bounds the number of steps by the length -/
def descend : Nat → List SigExpiration → Nat → List SigExpiration × Nat
  | 0, d, pos => (d, pos)
  | n + 1, d, pos =>
    let child := 2 * pos + 1
    if child ≤ d.length - 2 then
      match d[child]?, d[child + 1]? with
      | some a, some b =>
        let c := if a.le b then child + 1 else child
        descend n (swapAt d pos c) c
      | _, _ => (d, pos) -- not reached: in bounds
    else if child = d.length - 1 then (swapAt d pos child, child)
    else (d, pos)

/-- `sift_down_to_bottom(0)` -/
def siftDownToBottom (d : List SigExpiration) : List SigExpiration :=
  let (d', pos) := descend d.length d 0
  siftUp pos d' pos

/-- `BinaryHeap::pop` -/
def heapPop (d : List SigExpiration) : Option (SigExpiration × List SigExpiration) :=
  match d.getLast? with
  | none => none
  | some item =>
    match d.dropLast with
    | [] => some (item, [])
    | top :: rest => some (top, siftDownToBottom (item :: rest))

/-- `BinaryHeap::peek` -/
def heapPeek (d : List SigExpiration) : Option SigExpiration := d.head?

end Siwe
