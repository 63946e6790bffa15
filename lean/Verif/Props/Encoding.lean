import Verif.Lemmas.Delegation
import Verif.Lemmas.Encoding
import Verif.Examples.Toy
/- Properties C25, C33-C35 and C50: keys, hashes and signatures as other parties decode them. -/
namespace Siwe
open Spec

/-! ### C25 -/

/-- C25: the IC reads back exactly the canister id and seed from the public key. -/
theorem C25_key_reads_back (id seed : Bytes) (hid : id.length ≤ 29) (hs : seed.length = 32) :
    readCanisterKey (createUserCanisterPubkey id seed) = some (id, seed) :=
  readCanisterKey_create id seed hid (by omega)

/-- C25: different canister ids or seeds have different public keys. -/
theorem C25_key_injective (id id' seed seed' : Bytes) (hid : id.length ≤ 29) (hid' : id'.length ≤ 29)
    (hs : seed.length = 32) (hs' : seed'.length = 32)
    (h : createUserCanisterPubkey id seed = createUserCanisterPubkey id' seed') : id = id' ∧ seed = seed' := by
  have h1 := C25_key_reads_back id seed hid hs
  rw [h, C25_key_reads_back id' seed' hid' hs'] at h1
  simpa [eq_comm] using h1

/-- C25: object identifiers read back, for components of up to 21 bits. -/
theorem C25_oid_reads_back (a b : Nat) (rest : List Nat) (ha : a ≤ 2) (hb : b < 40) (h : ∀ n ∈ rest, n < 2 ^ 21) :
    readOid (oidBody (a :: b :: rest)) = a :: b :: rest :=
  readOid_body a b rest ha hb h

/-- Non-vacuity of C25: the identifier in use. -/
example : canisterSigOid = 1 :: 3 :: [6, 1, 4, 1, 56387, 1, 2] ∧ ∀ n ∈ [6, 1, 4, 1, 56387, 1, 2], n < 2 ^ 21 := by decide

/-- Non-vacuity of C25: a ten byte canister id. -/
example : createUserCanisterPubkey [0, 0, 0, 0, 0, 0, 0, 1, 1, 1] (List.replicate 32 7) =
    [0x30, 60, 0x30, 12, 6, 10, 0x2b, 6, 1, 4, 1, 0x83, 0xb8, 0x43, 1, 2, 3, 44, 0, 10,
      0, 0, 0, 0, 0, 0, 0, 1, 1, 1] ++ List.replicate 32 7 := by decide

/-! ### C33 -/

/-- C33: `create_delegation_hash` computes, without panic, the hash the IC defines. -/
theorem C33_delegation_hash (ε : Type) (E : Env) (d : Delegation) (h : Hash) :
    (createDelegationHash E d : Res ε Hash) = .ok h ↔ IsDelegationHash E d h :=
  delegationHash_spec ε E d h

/-- C33: it always yields a hash. -/
theorem C33_total (ε : Type) (E : Env) (d : Delegation) :
    ∃ h, (createDelegationHash E d : Res ε Hash) = .ok h := by
  obtain ⟨h, h1, _⟩ := delegationHash_ok ε E d
  exact ⟨h, h1⟩

/-- C33: for every map, of any size and values, the result is the IC's hash of the map and does not depend on the
order in which the entries are visited. -/
theorem C33_order_independent (ε : Type) (E : Env) (m m' : List (Bytes × Value)) (hp : m.Perm m') :
    (hashOfMap E m : Res ε Hash) = hashOfMap E m' ∧
      ∃ h, (hashOfMap E m : Res ε Hash) = .ok h ∧ IsMapHash E m h := by
  obtain ⟨h, hm⟩ := mapHash_exists E m
  have e := (hashOfMap_spec ε E m h).2 hm
  exact ⟨e.trans ((hashOfMap_spec ε E m' h).2 (mapHash_perm hp hm)).symm, h, e, hm⟩

/-- Non-vacuity of C33: the toy hash of a delegation with targets exists, and the visiting order can differ. -/
example : ∃ h, IsDelegationHash Toy.env ⟨[48, 1], 300, some [[1], [2, 3]]⟩ h := by
  obtain ⟨h, _, h2⟩ := delegationHash_ok Empty Toy.env ⟨[48, 1], 300, some [[1], [2, 3]]⟩
  exact ⟨h, h2⟩
example : (delegationFields ⟨[48, 1], 300, some [[1]]⟩).Perm (delegationFields ⟨[48, 1], 300, some [[1]]⟩).reverse ∧
    delegationFields ⟨[48, 1], 300, some [[1]]⟩ ≠ (delegationFields ⟨[48, 1], 300, some [[1]]⟩).reverse :=
  ⟨(List.reverse_perm _).symm, by simp [delegationFields]⟩

/-! ### C34 -/

/-- C34: if two delegations have the same hash they are the same delegation, or two different strings among those
hashed for them collide. -/
theorem C34_delegation_hash_injective (ε : Type) (E : Env) (d d' : Delegation) (h : Hash)
    (a : (createDelegationHash E d : Res ε Hash) = .ok h)
    (b : (createDelegationHash E d' : Res ε Hash) = .ok h) :
    d = d' ∨ ∃ x y, DelegationPreimage E d x ∧ DelegationPreimage E d' y ∧ Collision E.sha256 x y :=
  delegation_inj ((delegationHash_spec ε E d h).1 a) ((delegationHash_spec ε E d' h).1 b)

/-- C34: these are few strings: at most eight and the targets. -/
theorem C34_few_strings (E : Env) (d : Delegation) : ∃ l : List Bytes,
    l.length ≤ 8 + (match d.targets with | none => 0 | some ts => ts.length) ∧ ∀ x, DelegationPreimage E d x → x ∈ l := by
  obtain ⟨l, _, h⟩ := preimages_complete E d
  exact ⟨l, h⟩

/-- The alternative of C34 is not met by itself: the strings of these two delegations do not collide under the toy hash. -/
example : ¬∃ x y, DelegationPreimage Toy.env ⟨[48, 1], 300, some [[1], [2, 3]]⟩ x ∧ DelegationPreimage Toy.env ⟨[48, 1], 301, none⟩ y ∧
    Collision Toy.env.sha256 x y := no_delegationCollision (by decide +kernel)

/-- Non-vacuity of C34: under the toy hash, delegations without targets and with an empty target list have
different hashes; under a constant hash different delegations do collide. -/
example : (createDelegationHash Toy.env ⟨[48, 1], 300, none⟩ : Res Empty Hash) ≠
      createDelegationHash Toy.env ⟨[48, 1], 300, some []⟩ ∧
    (createDelegationHash { Toy.env with sha256 := fun _ => Toy.env.sha256 [] } ⟨[48, 1], 300, none⟩ :
        Res Empty Hash) =
      createDelegationHash { Toy.env with sha256 := fun _ => Toy.env.sha256 [] } ⟨[48, 1], 301, none⟩ := by
  decide +kernel

/-! ### C35 -/

/-- C35: for every `u64` the encoding terminates inside its ten byte buffer and is an unsigned LEB128 encoding; no
other LEB128 encoding of the number is shorter. -/
theorem C35_leb128 (ε : Type) (n : UInt64) :
    ∃ bs, (lebGo 10 n : Res ε Bytes) = .ok bs ∧ IsLeb128 n.toNat bs ∧ bs.length ≤ 10 ∧
      ∀ bs', IsLeb128 n.toNat bs' → bs.length ≤ bs'.length := by
  obtain ⟨bs, h1, h2, h3, h4⟩ := leb_go (ε := ε) 10 n (by omega) (by have := n.toNat_lt; omega)
  exact ⟨bs, h1, h2, h3, fun bs' h => leb_minimal bs bs' _ h2 h4 h⟩

/-- C35: what is hashed for an integer is that encoding. -/
theorem C35_hash (ε : Type) (E : Env) (n : UInt64) :
    ∃ bs, IsLeb128 n.toNat bs ∧ (∀ bs', IsLeb128 n.toNat bs' → bs.length ≤ bs'.length) ∧
      (hashValue E (.u64 n) : Res ε Hash) = .ok (E.sha256 bs) := by
  obtain ⟨bs, _, h2, _, h4, h5⟩ := hashU64_spec ε E n
  exact ⟨bs, h2, fun bs' h => leb_minimal bs bs' _ h2 h4 h, by simpa [hashValue] using h5⟩

/-- C35: different integers are encoded differently. -/
theorem C35_injective (ε : Type) (n n' : UInt64) (bs : Bytes) (h : (lebGo 10 n : Res ε Bytes) = .ok bs)
    (h' : (lebGo 10 n' : Res ε Bytes) = .ok bs) : n = n' := by
  obtain ⟨b, h1, h2, _⟩ := C35_leb128 ε n
  obtain ⟨b', h1', h2', _⟩ := C35_leb128 ε n'
  rw [h] at h1; rw [h'] at h1'
  cases h1; cases h1'
  exact UInt64.toNat_inj.mp (leb_value_unique h2 h2')

/-- Non-vacuity of C35: small, two-byte and the largest integer. -/
example : (lebGo 10 0 : Res Empty Bytes) = .ok [0] ∧ (lebGo 10 624485 : Res Empty Bytes) = .ok [0xe5, 0x8e, 0x26] ∧
    (lebGo 10 18446744073709551615 : Res Empty Bytes) =
      .ok [255, 255, 255, 255, 255, 255, 255, 255, 255, 1] := by decide +kernel

/-! ### C50 -/

/-- C50: a CBOR decoder reads back exactly the certificate and the tree. -/
theorem C50_signature_reads_back (certificate : Bytes) (tree : HashTree) (hc : certificate.length < 2 ^ 64)
    (ht : Addressable tree) :
    readSignature (createCertifiedSignature certificate tree) = some (certificate, tree) :=
  readSignature_create certificate tree hc ht

/-- C50: different certificates or trees give different signatures. -/
theorem C50_signature_injective (c c' : Bytes) (t t' : HashTree) (hc : c.length < 2 ^ 64) (hc' : c'.length < 2 ^ 64)
    (ht : Addressable t) (ht' : Addressable t')
    (h : createCertifiedSignature c t = createCertifiedSignature c' t') : c = c' ∧ t = t' := by
  have h1 := C50_signature_reads_back c t hc ht
  rw [h, C50_signature_reads_back c' t' hc' ht'] at h1
  simpa [eq_comm] using h1

/-- Non-vacuity of C50: a tree with all kinds of nodes. -/
example : Addressable (.fork (.pruned (Toy.env.sha256 [])) (.labeled (ascii "sig") (.fork (.leaf []) .empty))) ∧
    (createCertifiedSignature [1, 2] (.labeled (ascii "sig") (.leaf []))) =
      [0xd9, 0xd9, 0xf7, 0xa2, 0x6b] ++ ascii "certificate" ++ [0x42, 1, 2, 0x64] ++ ascii "tree" ++
        [0x83, 2, 0x43] ++ ascii "sig" ++ [0x82, 3, 0x40] := by
  refine ⟨⟨trivial, by decide, ⟨by simp [Addressable], trivial⟩⟩, by decide⟩

end Siwe
