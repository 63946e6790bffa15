import Verif.Spec.Encoding
import Verif.Spec.Message
import Verif.Model.Delegation
/- The IC's delegation hash. -/
namespace Siwe.Spec

/-- The fields of a delegation as the IC hashes them: `targets` is absent when there are none configured. -/
def delegationFields (d : Delegation) : List (Bytes × Value) :=
  match d.targets with
  | none => [(ascii "pubkey", .bytes d.pubkey), (ascii "expiration", .u64 d.expiration)]
  | some ts => [(ascii "pubkey", .bytes d.pubkey), (ascii "expiration", .u64 d.expiration),
      (ascii "targets", .array (ts.map .bytes))]

/-- What the IC signs for a delegation whose representation-independent hash is `mapHash`. -/
def delegationMessage (mapHash : Hash) : Bytes :=
  26 :: ascii "ic-request-auth-delegation" ++ mapHash.bytes

/-- `h` is the hash of the delegation as the IC interface specification defines it. -/
def IsDelegationHash (E : Env) (d : Delegation) (h : Hash) : Prop :=
  ∃ mapHash, IsMapHash E (delegationFields d) mapHash ∧ h = E.sha256 (delegationMessage mapHash)

/-- `x` is one of the byte strings that are hashed when the delegation hash is computed. -/
inductive DelegationPreimage (E : Env) (d : Delegation) : Bytes → Prop
  | fieldName (k : Bytes) (v : Value) : (k, v) ∈ delegationFields d → DelegationPreimage E d k
  | pubkey : DelegationPreimage E d d.pubkey
  | expiration (bs : Bytes) : IsLeb128 d.expiration.toNat bs → (bs.length = 1 ∨ bs.getLast? ≠ some 0) → DelegationPreimage E d bs
  | target (ts : List Bytes) (t : Bytes) : d.targets = some ts → t ∈ ts → DelegationPreimage E d t
  | targets (ts : List Bytes) : d.targets = some ts →
      DelegationPreimage E d (ts.map fun t => (E.sha256 t).bytes).flatten
  | fields (chunks : List Bytes) (sorted : List Bytes) :
      List.Forall₂ (IsPairHash E) (delegationFields d) chunks → sorted.Perm chunks →
      sorted.Pairwise (fun a b => compare a b ≠ .gt) → DelegationPreimage E d sorted.flatten
  | message (mapHash : Hash) : IsMapHash E (delegationFields d) mapHash →
      DelegationPreimage E d (delegationMessage mapHash)

end Siwe.Spec
