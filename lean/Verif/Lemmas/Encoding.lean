import Verif.Spec.Encoding
import Verif.Model.Delegation
import Verif.Lemmas.Hex
/- DER and CBOR: the encoders against the decoders. -/
namespace Siwe
open Spec

theorem beValue_append (a : Bytes) (b : UInt8) : beValue (a ++ [b]) = 256 * beValue a + b.toNat := by
  simp [beValue, List.foldl_append]

theorem beBytes_spec : ∀ (fuel n : Nat), n < 256 ^ fuel → beValue (beBytes fuel n) = n ∧
    (beBytes fuel n).length ≤ fuel ∧ (n ≠ 0 → 1 ≤ (beBytes fuel n).length)
  | 0, n, h => by simp at h; subst h; simp [beBytes, beValue]
  | fuel + 1, n, h => by
    rw [beBytes]
    by_cases h0 : n = 0
    · subst h0; simp [beValue]
    · simp only [h0, if_false]
      obtain ⟨h1, h2, _⟩ := beBytes_spec fuel (n / 256) (by
        rw [Nat.div_lt_iff_lt_mul (by omega)]; rwa [Nat.pow_succ] at h)
      refine ⟨?_, by simp; omega, by simp⟩
      rw [beValue_append, h1, UInt8.toNat_ofNat']
      omega

theorem or80_len : ∀ k : Nat, k ≤ 8 → (0x80 ||| UInt8.ofNat k).toNat = 128 + k := by
  intro k hk
  have : ∀ k : Fin 9, (0x80 ||| UInt8.ofNat k.val).toNat = 128 + k.val := by decide
  exact this ⟨k, by omega⟩

theorem or80_mod : ∀ b : UInt8, (0x80 ||| b).toNat = 128 + b.toNat % 128 := by
  apply u8_all; decide +kernel

theorem readOid_component (n : Nat) (h : n < 2 ^ 21) (rest : Bytes) :
    readOidRest (oidComponent n ++ rest) 0 = n :: readOidRest rest 0 := by
  unfold oidComponent
  split
  · have e : (UInt8.ofNat n).toNat = n := by rw [UInt8.toNat_ofNat']; omega
    simp only [List.cons_append, List.nil_append, readOidRest, e]
    rw [if_pos (by omega), Nat.mod_eq_of_lt (by omega)]
    simp
  · split
    · have e1 : (0x80 ||| UInt8.ofNat (n / 128)).toNat = 128 + n / 128 := by
        rw [or80_mod, UInt8.toNat_ofNat']; omega
      have e2 : (UInt8.ofNat (n % 128)).toNat = n % 128 := by rw [UInt8.toNat_ofNat']; omega
      simp only [List.cons_append, List.nil_append, readOidRest, e1, e2]
      rw [if_neg (by omega), if_pos (by omega)]
      congr 1
      omega
    · have e1 : (0x80 ||| UInt8.ofNat (n / 16384)).toNat = 128 + n / 16384 := by
        rw [or80_mod, UInt8.toNat_ofNat']; omega
      have e2 : (0x80 ||| UInt8.ofNat (n / 128 % 128)).toNat = 128 + n / 128 % 128 := by
        rw [or80_mod, UInt8.toNat_ofNat']; omega
      have e3 : (UInt8.ofNat (n % 128)).toNat = n % 128 := by rw [UInt8.toNat_ofNat']; omega
      simp only [List.cons_append, List.nil_append, readOidRest, e1, e2, e3]
      rw [if_neg (by omega), if_neg (by omega), if_pos (by omega)]
      congr 1
      omega

theorem readOid_body (a b : Nat) (rest : List Nat) (ha : a ≤ 2) (hb : b < 40) (h : ∀ n ∈ rest, n < 2 ^ 21) :
    readOid (oidBody (a :: b :: rest)) = a :: b :: rest := by
  have e : (UInt8.ofNat (a * 40 + b)).toNat = a * 40 + b := by rw [UInt8.toNat_ofNat']; omega
  simp only [oidBody, readOid, e]
  have e1 : min ((a * 40 + b) / 40) 2 = a := by omega
  rw [e1, show a * 40 + b - 40 * a = b by omega]
  congr 2
  clear e e1
  induction rest with
  | nil => rfl
  | cons n rest ih =>
    rw [List.flatMap_cons, readOid_component n (h n List.mem_cons_self),
      ih fun m hm => h m (List.mem_cons_of_mem _ hm)]

theorem readDerLength_derLen (n : Nat) (h : n < 2 ^ 64) (rest : Bytes) :
    readDerLength (derLen n ++ rest) = some (n, rest) := by
  unfold derLen
  split
  · next hn =>
    have : (UInt8.ofNat n).toNat = n := by rw [UInt8.toNat_ofNat']; omega
    simp only [List.cons_append, List.nil_append, readDerLength, this, hn, if_true]
  · next hn =>
    obtain ⟨h1, h2, h3⟩ := beBytes_spec 8 n (by omega)
    have h3 := h3 (by omega)
    have hl := or80_len _ h2
    simp only [List.cons_append, readDerLength, hl]
    have e : 128 + (beBytes 8 n).length - 128 = (beBytes 8 n).length := by omega
    rw [if_neg (by omega), e, if_neg (by rw [List.length_append]; omega)]
    simp [h1]

theorem readDer_derTlv (tag : UInt8) (c rest : Bytes) (h : c.length < 2 ^ 64) :
    readDer tag (derTlv tag c ++ rest) = some (c, rest) := by
  simp only [derTlv, List.cons_append, readDer, List.append_assoc]
  rw [readDerLength_derLen _ h]
  simp

theorem readDer_derTlv_end (tag : UInt8) (c : Bytes) (h : c.length < 2 ^ 64) :
    readDer tag (derTlv tag c) = some (c, []) := by
  have := readDer_derTlv tag c [] h
  simpa using this

theorem derLen_length (n : Nat) (h : n < 2 ^ 64) : (derLen n).length ≤ 9 := by
  unfold derLen
  split
  · simp
  · have := (beBytes_spec 8 n (by omega)).2.1
    simp; omega

theorem readCanisterKey_create (id seed : Bytes) (hid : id.length ≤ 29) (hs : seed.length < 2 ^ 32) :
    readCanisterKey (createUserCanisterPubkey id seed) = some (id, seed) := by
  have ho : readOid (oidBody canisterSigOid) = [1, 3, 6, 1, 4, 1, 56387, 1, 2] := by decide
  have lo : (oidBody canisterSigOid).length = 10 := by decide
  have la : (derTlv 0x06 (oidBody canisterSigOid)).length = 12 := by decide
  have lb : (derTlv 0x30 (derTlv 0x06 (oidBody canisterSigOid))).length = 14 := by decide
  have hl : (asU8 id.length).toNat = id.length := by
    unfold asU8; rw [UInt8.toNat_ofNat']; omega
  have lk : (0 :: (asU8 id.length :: id ++ seed)).length = 2 + id.length + seed.length := by simp; omega
  have lc := derLen_length (0 :: (asU8 id.length :: id ++ seed)).length (by omega)
  have ld : (derTlv 0x03 (0 :: (asU8 id.length :: id ++ seed))).length ≤ 12 + id.length + seed.length := by
    simp only [derTlv, List.length_cons, List.length_append] at *
    omega
  unfold readCanisterKey createUserCanisterPubkey
  simp only
  rw [readDer_derTlv_end _ _ (by rw [List.length_append]; omega)]
  simp only [Option.bind_eq_bind, Option.bind_some]
  rw [readDer_derTlv _ _ _ (by omega)]
  simp only [Option.bind_some]
  rw [readDer_derTlv_end _ _ (by omega)]
  simp only [Option.bind_some, ho]
  rw [readDer_derTlv_end _ _ (by omega)]
  simp [guard, hl]

theorem major_or : ∀ (m : Fin 8) (n : Fin 32), (UInt8.ofNat (32 * m.val) ||| UInt8.ofNat n.val).toNat
    = 32 * m.val + n.val := by decide

theorem major_or' {m n : Nat} (hm : m < 8) (hn : n < 32) :
    (UInt8.ofNat (32 * m) ||| UInt8.ofNat n).toNat = 32 * m + n := major_or ⟨m, hm⟩ ⟨n, hn⟩

theorem beFixed_spec : ∀ (w x : Nat), x < 256 ^ w → beValue (beFixed w x) = x ∧ (beFixed w x).length = w
  | 0, x, h => by simp at h; subst h; simp [beFixed, beValue]
  | w + 1, x, h => by
    obtain ⟨h1, h2⟩ := beFixed_spec w (x / 256) (by
      rw [Nat.div_lt_iff_lt_mul (by omega)]; rwa [Nat.pow_succ] at h)
    rw [beFixed]
    refine ⟨?_, by simp [h2]⟩
    rw [beValue_append, h1, UInt8.toNat_ofNat']
    omega

theorem readHead_wide {m w info : Nat} (hm : m < 8) {b : UInt8} {body : Bytes} {n : Nat}
    (hb : b.toNat = 32 * m + info)
    (hw : (info = 24 ∧ w = 1) ∨ (info = 25 ∧ w = 2) ∨ (info = 26 ∧ w = 4) ∨ (info = 27 ∧ w = 8))
    (hv : beValue body = n) (hl : body.length = w) (rest : Bytes) :
    readHead (b :: body ++ rest) = some (m, n, rest) := by
  have e1 : b.toNat / 32 = m := by omega
  have e2 : b.toNat % 32 = info := by omega
  simp only [List.cons_append, readHead, e1, e2]
  have ht : (body ++ rest).take w = body := by rw [← hl]; simp
  have hd : (body ++ rest).drop w = rest := by rw [← hl]; simp
  have hlen : ¬ (body ++ rest).length < w := by rw [List.length_append]; omega
  rcases hw with ⟨rfl, rfl⟩ | ⟨rfl, rfl⟩ | ⟨rfl, rfl⟩ | ⟨rfl, rfl⟩ <;>
    · rw [if_neg (by omega)]
      simp only [reduceIte, Nat.reduceEqDiff, ht, hd, hlen, or_false, hv]

theorem readHead_cborHead {m n : Nat} (hm : m < 8) (hn : n < 2 ^ 64) (rest : Bytes) :
    readHead (cborHead (UInt8.ofNat (32 * m)) n ++ rest) = some (m, n, rest) := by
  unfold cborHead
  split
  · next h =>
    have e := major_or' hm (show n < 32 by omega)
    have e1 : (32 * m + n) / 32 = m := by omega
    have e2 : (32 * m + n) % 32 = n := by omega
    simp only [List.cons_append, List.nil_append, readHead, e, e1, e2, h, if_true]
  · split
    · next h =>
      refine readHead_wide (w := 1) (info := 24) hm (major_or' hm (by omega)) (by simp) ?_ rfl rest
      simp only [beValue, List.foldl_cons, List.foldl_nil, UInt8.toNat_ofNat']; omega
    · split
      · next h =>
        obtain ⟨h1, h2⟩ := beFixed_spec 2 n (by omega)
        exact readHead_wide (w := 2) (info := 25) hm (major_or' hm (by omega)) (by simp) h1 h2 rest
      · split
        · next h =>
          obtain ⟨h1, h2⟩ := beFixed_spec 4 n (by omega)
          exact readHead_wide (w := 4) (info := 26) hm (major_or' hm (by omega)) (by simp) h1 h2 rest
        · next h =>
          obtain ⟨h1, h2⟩ := beFixed_spec 8 n (by omega)
          exact readHead_wide (w := 8) (info := 27) hm (major_or' hm (by omega)) (by simp) h1 h2 rest

theorem readMajor_cborHead {m n : Nat} (hm : m < 8) (hn : n < 2 ^ 64) (rest : Bytes) :
    readMajor m (cborHead (UInt8.ofNat (32 * m)) n ++ rest) = some (n, rest) := by
  rw [readMajor, readHead_cborHead hm hn]
  simp

theorem readString_bytes (b rest : Bytes) (h : b.length < 2 ^ 64) :
    readString 2 (cborBytes b ++ rest) = some (b, rest) := by
  have := readMajor_cborHead (m := 2) (by omega) h (b ++ rest)
  simp only [readString, cborBytes, List.append_assoc]
  rw [show (0x40 : UInt8) = UInt8.ofNat (32 * 2) from rfl, this]
  simp

theorem readString_text (b rest : Bytes) (h : b.length < 2 ^ 64) :
    readString 3 (cborText b ++ rest) = some (b, rest) := by
  have := readMajor_cborHead (m := 3) (by omega) h (b ++ rest)
  simp only [readString, cborText, List.append_assoc]
  rw [show (0x60 : UInt8) = UInt8.ofNat (32 * 3) from rfl, this]
  simp

theorem readMajor_array (n : Nat) (h : n < 24) (rest : Bytes) :
    readMajor 4 (cborHead 0x80 n ++ rest) = some (n, rest) :=
  readMajor_cborHead (m := 4) (by omega) (by omega) rest

theorem readMajor_uint (n : Nat) (h : n < 24) (rest : Bytes) :
    readMajor 0 (cborHead 0x00 n ++ rest) = some (n, rest) :=
  readMajor_cborHead (m := 0) (by omega) (by omega) rest

theorem cborTree_length_pos (t : HashTree) : 2 ≤ (cborTree t).length := by
  have : ∀ n, n < 24 → ∀ m, (cborHead m n).length = 1 := by
    intro n hn m; simp [cborHead, hn]
  cases t <;> simp only [cborTree, List.length_append] <;>
    simp only [this _ (show 0 < 24 by omega), this _ (show 1 < 24 by omega), this _ (show 2 < 24 by omega),
      this _ (show 3 < 24 by omega), this _ (show 4 < 24 by omega)] <;> omega

theorem readTree_cborTree : ∀ (t : HashTree) (fuel : Nat) (rest : Bytes), Addressable t →
    (cborTree t).length ≤ fuel → readTree fuel (cborTree t ++ rest) = some (t, rest)
  | t, 0, rest, _, hf => by have := cborTree_length_pos t; omega
  | .empty, fuel + 1, rest, _, _ => by
    simp only [cborTree, readTree, List.append_assoc]
    rw [readMajor_array 1 (by omega)]
    simp only [Option.bind_eq_bind, Option.bind_some]
    rw [readMajor_uint 0 (by omega)]
    simp
  | .fork l r, fuel + 1, rest, ha, hf => by
    have h1 : (cborHead 0x80 3).length = 1 := rfl
    simp only [cborTree, List.length_append, h1] at hf
    have hl := readTree_cborTree l fuel (cborTree r ++ rest) ha.1 (by omega)
    have hr := readTree_cborTree r fuel rest ha.2 (by omega)
    simp only [cborTree, readTree, List.append_assoc]
    rw [readMajor_array 3 (by omega)]
    simp only [Option.bind_eq_bind, Option.bind_some]
    rw [readMajor_uint 1 (by omega)]
    simp [hl, hr]
  | .labeled label t, fuel + 1, rest, ha, hf => by
    have h1 : (cborHead 0x80 3).length = 1 := rfl
    simp only [cborTree, List.length_append, h1] at hf
    have ht := readTree_cborTree t fuel rest ha.2 (by omega)
    simp only [cborTree, readTree, List.append_assoc]
    rw [readMajor_array 3 (by omega)]
    simp only [Option.bind_eq_bind, Option.bind_some]
    rw [readMajor_uint 2 (by omega)]
    simp [ht, readString_bytes label _ ha.1]
  | .leaf c, fuel + 1, rest, ha, hf => by
    have := readString_bytes c rest ha
    simp only [cborTree, readTree, List.append_assoc]
    rw [readMajor_array 2 (by omega)]
    simp only [Option.bind_eq_bind, Option.bind_some]
    rw [readMajor_uint 3 (by omega)]
    simp [this]
  | .pruned h, fuel + 1, rest, ha, hf => by
    have := readString_bytes h.bytes rest (by rw [h.len]; omega)
    simp only [cborTree, readTree, List.append_assoc]
    rw [readMajor_array 2 (by omega)]
    simp only [Option.bind_eq_bind, Option.bind_some]
    rw [readMajor_uint 4 (by omega)]
    simp [this, h.len]

theorem readSignature_create (c : Bytes) (t : HashTree) (hc : c.length < 2 ^ 64) (ht : Addressable t) :
    readSignature (createCertifiedSignature c t) = some (c, t) := by
  have hk1 : (ascii "certificate").length < 2 ^ 64 := by decide
  have hk2 : (ascii "tree").length < 2 ^ 64 := by decide
  have htag : ∀ rest, readMajor 6 ([0xd9, 0xd9, 0xf7] ++ rest) = some (55799, rest) := by
    intro rest; rfl
  have hmap : ∀ rest, readMajor 5 (cborHead 0xa0 2 ++ rest) = some (2, rest) := fun rest =>
    readMajor_cborHead (m := 5) (by omega) (by omega) rest
  have htree := readTree_cborTree t (cborTree t).length [] ht (Nat.le_refl _)
  rw [List.append_nil] at htree
  unfold readSignature createCertifiedSignature
  simp only [List.append_assoc, htag, Option.bind_eq_bind, Option.bind_some, hmap]
  simp only [guard, if_true, Option.pure_def, Option.bind_some]
  rw [readString_text _ _ hk1]
  simp only [if_true, Option.bind_some]
  rw [readString_bytes _ _ hc]
  simp only [Option.bind_some]
  rw [readString_text _ _ hk2]
  simp [htree]

end Siwe
