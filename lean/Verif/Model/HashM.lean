import Verif.Model.HashTree
/-
packages/ic_siwe/src/hash.rs
-/
namespace Siwe

/-- hash.rs:10-15 `Value` -/
inductive Value where
  | bytes (b : Bytes)
  | string (s : Bytes)
  | u64 (n : UInt64)
  | array (vs : List Value)

/-- hash.rs:56-60 `hash_bytes` -/
def hashBytes (E : Env) (b : Bytes) : Hash := E.sha256 b

/-- hash.rs:51-53 `hash_string` -/
def hashString (E : Env) (s : Bytes) : Hash := hashBytes E s

/-- hash.rs:63-80, the loop of `hash_u64` with its 10-byte buffer: `fuel` is the number of buffer slots left;
writing past the buffer is a panic. Returns `buf[..=i]`. -/
def lebGo {ε : Type} : Nat → UInt64 → Res ε Bytes
  | 0, _ => .panic
  | fuel + 1, n =>
    let byte := (n &&& 0x7f).toUInt8
    let n' := n >>> 7
    if n' = 0 then .ok [byte]
    else do
      let t ← lebGo fuel n'
      .ok ((byte ||| 0x80) :: t)

/-- hash.rs:63-80 `hash_u64` -/
def hashU64 {ε : Type} (E : Env) (n : UInt64) : Res ε Hash := do
  let b ← lebGo 10 n
  .ok (hashBytes E b)

mutual
/-- hash.rs:93-100 `hash_value` -/
def hashValue {ε : Type} (E : Env) : Value → Res ε Hash
  | .string s => .ok (hashString E s)
  | .bytes b => .ok (hashBytes E b)
  | .u64 n => hashU64 E n
  | .array vs => do
    let bs ← hashArrayInput E vs
    .ok (E.sha256 bs)
/-- hash.rs:83-90, the bytes fed to the hasher by `hash_array` -/
def hashArrayInput {ε : Type} (E : Env) : List Value → Res ε Bytes
  | [] => .ok []
  | v :: vs => do
    let h ← hashValue E v
    let t ← hashArrayInput E vs
    .ok (h.bytes ++ t)
end

/-- hash.rs:43-48 `hash_key_value` -/
def hashKeyValue {ε : Type} (E : Env) (key : Bytes) (val : Value) : Res ε Bytes := do
  let h ← hashValue E val
  .ok ((hashString E key).bytes ++ h.bytes)

/-- hash.rs:19-22, the collected `hashes`, in map iteration order -/
def hashPairs {ε : Type} (E : Env) : List (Bytes × Value) → Res ε (List Bytes)
  | [] => .ok []
  | (k, v) :: rest => do
    let h ← hashKeyValue E k v
    let t ← hashPairs E rest
    .ok (h :: t)

/-- lexicographic `<=` on `Vec<u8>`, the order of `sort_unstable` at hash.rs:24 -/
def bytesLe (a b : Bytes) : Bool := (compare a b).isLE

/-- hash.rs:18-31 `hash_of_map`; the `HashMap` is given as the list of its entries in iteration order.
`sort_unstable` is `sortBy`. -/
def hashOfMap {ε : Type} (E : Env) (map : List (Bytes × Value)) : Res ε Hash := do
  let hashes ← hashPairs E map
  .ok (E.sha256 (sortBy bytesLe hashes).flatten)

/-- hash.rs:34-40 `hash_with_domain` -/
def hashWithDomain (E : Env) (sep bytes : Bytes) : Hash :=
  E.sha256 (asU8 sep.length :: sep ++ bytes)

end Siwe
