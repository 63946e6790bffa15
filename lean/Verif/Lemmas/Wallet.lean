import Verif.Lemmas.Ecdsa
import Verif.Spec.Wallet
import Verif.Lemmas.Hex
import Verif.Lemmas.Address
/-
Wallet signatures in bytes.
-/
namespace Siwe.Secp
open Siwe.Spec WeierstrassCurve.Affine

theorem beNat_append (bs : Bytes) (b : UInt8) : beNat (bs ++ [b]) = beNat bs * 256 + b.toNat := by simp [beNat]

theorem bigEndian_append (bs cs : Bytes) : bigEndian (bs ++ cs) = bigEndian bs * 256 ^ cs.length + bigEndian cs := by
  induction bs with
  | nil => simp [bigEndian]
  | cons b bs ih =>
    simp only [List.cons_append, bigEndian, ih, List.length_append, pow_add]
    ring

theorem beNat_eq (bs : Bytes) : beNat bs = bigEndian bs := by
  induction bs using List.reverseRecOn with
  | nil => rfl
  | append_singleton bs b ih => rw [beNat_append, bigEndian_append, ih]; simp [bigEndian]

theorem beBytes_length (k : Nat) : ∀ n, (beBytes k n).length = k := by
  induction k with
  | zero => intro n; rfl
  | succ k ih => intro n; simp [beBytes, ih]

theorem bigEndian_beBytes (k : Nat) : ∀ n, n < 256 ^ k → bigEndian (beBytes k n) = n := by
  induction k with
  | zero => intro n h; simp [beBytes, bigEndian] at *; omega
  | succ k ih =>
    intro n h
    rw [beBytes, bigEndian_append, ih (n / 256) (by rw [pow_succ] at h; omega)]
    simp only [bigEndian, List.length_cons, List.length_nil, UInt8.toNat_ofNat']
    omega

theorem bigEndian_lt : ∀ bs : Bytes, bigEndian bs < 256 ^ bs.length
  | [] => by simp [bigEndian]
  | b :: bs => by
    have := bigEndian_lt bs
    have := b.toNat_lt
    simp only [bigEndian, List.length_cons, pow_succ]
    nlinarith

theorem bigEndian_inj : ∀ bs cs : Bytes, bs.length = cs.length → bigEndian bs = bigEndian cs → bs = cs
  | [], [], _, _ => rfl
  | [], _ :: _, h, _ => nomatch h
  | _ :: _, [], h, _ => nomatch h
  | b :: bs, c :: cs, hl, he => by
    have hl' : bs.length = cs.length := by simpa using hl
    have h1 := bigEndian_lt bs
    have h2 := bigEndian_lt cs
    simp only [bigEndian, hl'] at he h1
    have hb : b.toNat = c.toNat := by
      have e1 : (b.toNat * 256 ^ cs.length + bigEndian bs) / 256 ^ cs.length = b.toNat := by
        rw [Nat.mul_comm, Nat.mul_add_div (by positivity), Nat.div_eq_of_lt h1, Nat.add_zero]
      have e2 : (c.toNat * 256 ^ cs.length + bigEndian cs) / 256 ^ cs.length = c.toNat := by
        rw [Nat.mul_comm, Nat.mul_add_div (by positivity), Nat.div_eq_of_lt h2, Nat.add_zero]
      rw [← e1, he, e2]
    rw [UInt8.toNat_inj.mp hb, bigEndian_inj bs cs hl' (by rw [hb] at he; omega)]

theorem bytes32_unique {n : Nat} {bs cs : Bytes} (h : Bytes32 n bs) (h' : Bytes32 n cs) : bs = cs :=
  bigEndian_inj _ _ (h.1.trans h'.1.symm) (h.2.trans h'.2.symm)

theorem bytes32_exists {n : Nat} (h : n < 2 ^ 256) : Bytes32 n (beBytes 32 n) :=
  ⟨beBytes_length _ _, bigEndian_beBytes 32 n (by have : (256 : Nat) ^ 32 = 2 ^ 256 := by norm_num
                                                  omega)⟩

theorem sigOk_iff (br bs : Bytes) (hr : br.length = 32) (hs : bs.length = 32) :
    sigOk (br ++ bs) = true ↔ 0 < bigEndian br ∧ bigEndian br < orderN ∧ 0 < bigEndian bs ∧ bigEndian bs < orderN := by
  simp only [sigOk, Bool.and_eq_true, decide_eq_true_eq, beq_iff_eq, List.take_left' hr, List.drop_left' hr, beNat_eq,
    List.length_append, hr, hs]
  tauto

theorem val_lt_256 (x : F) : x.val < 2 ^ 256 := Nat.lt_trans (ZMod.val_lt x) fieldP_lt

/-- Recovery in bytes: the key recovered is the public key of the private key that made the signature. -/
theorem recoverKey_iff (z : Hash) (br bs : Bytes) (v : UInt8) (key : Bytes) (hr : br.length = 32) (hs : bs.length = 32)
    (hok : sigOk (br ++ bs) = true) (hv : v.toNat ≤ 3) :
    recoverKey z (br ++ bs) v = some key ↔
      ∃ d k x y h bx by', IsPrivateKey d ∧ 0 < k ∧ k < orderN ∧ d • generator = .some x y h ∧ Bytes32 x.val bx ∧ Bytes32 y.val by' ∧
        key = bx ++ by' ∧ EcdsaSigns d k (bigEndian z.bytes) (bigEndian br) (bigEndian bs) v.toNat := by
  rw [sigOk_iff br bs hr hs] at hok
  obtain ⟨h1, h2, h3, h4⟩ := hok
  unfold recoverKey
  simp only [List.take_left' hr, List.drop_left' hr, beNat_eq]
  constructor
  · intro h
    split at h
    · exact nomatch h
    rename_i a b e
    rw [recoverPoint_iff _ _ _ _ _ _ h1 h2 h3 h4 hv] at e
    obtain ⟨hlow, X, Y, H, rfl, rfl, hver⟩ := e
    obtain ⟨d, k, g1, g2, g3, g4, g5, g6⟩ := (verifies_iff_signs _ _ _ _ _ (Point.some_ne_zero H)).1 ⟨hver, hlow⟩
    refine ⟨d, k, X, Y, H, _, _, ⟨g1, g2⟩, g3, g4, g5, bytes32_exists (val_lt_256 X), bytes32_exists (val_lt_256 Y), ?_, g6⟩
    rw [Option.some.injEq] at h
    exact h.symm
  · rintro ⟨d, k, x, y, h, bx, by', ⟨g1, g2⟩, g3, g4, g5, g6, g7, rfl, g8⟩
    obtain ⟨hver, hlow⟩ := (verifies_iff_signs (.some x y h) _ _ _ _ (Point.some_ne_zero h)).2 ⟨d, k, g1, g2, g3, g4, g5, g8⟩
    rw [(recoverPoint_iff _ _ _ _ x.val y.val h1 h2 h3 h4 hv).2 ⟨hlow, x, y, h, rfl, rfl, hver⟩]
    simp only [Option.some.injEq]
    rw [bytes32_unique g6 (bytes32_exists (val_lt_256 x)), bytes32_unique g7 (bytes32_exists (val_lt_256 y))]

/-- The 65 bytes of a signature. -/
theorem signature_parts {sig : Bytes} (h : HexString 130 sig) :
    ∃ br bs v, br.length = 32 ∧ bs.length = 32 ∧ Spells (sig.drop 2) (br ++ bs ++ [v]) := by
  obtain ⟨ds, rfl, hl, hh⟩ := h
  obtain ⟨b, hb, _⟩ := hexDecode_ok (s := ds) (by omega) hh
  have hsp := (hexDecode_ok_iff ds b).1 hb
  have hlen := spells_length hsp
  refine ⟨b.take 32, (b.drop 32).take 32, b[64]'(by omega), by simp; omega, by simp; omega, ?_⟩
  have : b.take 32 ++ (b.drop 32).take 32 ++ [b[64]'(by omega)] = b := by
    apply List.ext_getElem
    · simp; omega
    · intro i h1 h2
      simp only [List.getElem_append, List.length_append, List.length_take, List.length_drop, List.getElem_take,
        List.getElem_drop, List.getElem_singleton]
      split
      · split
        · rfl
        · congr 1; omega
      · congr 1; omega
  rw [this]
  exact hsp

theorem walletSigns_hex {E : Env} {d : Nat} {text sig : Bytes} (h : WalletSigns E d text sig) : HexString 130 sig := by
  obtain ⟨_, _, _, _, _, _, _, _, _, _, _, _, _, _, _, h2, _⟩ := h
  exact h2

theorem parts_unique {br bs br' bs' : Bytes} {v v' : UInt8} (h : br ++ bs ++ [v] = br' ++ bs' ++ [v']) (h1 : br.length = 32)
    (h2 : br'.length = 32) (h3 : bs.length = 32) (h4 : bs'.length = 32) : br = br' ∧ bs = bs' ∧ v = v' := by
  obtain ⟨h5, h6⟩ := List.append_inj h (by simp [h1, h2, h3, h4])
  obtain ⟨h7, h8⟩ := List.append_inj h5 (h1.trans h2.symm)
  exact ⟨h7, h8, by simpa using h6⟩

theorem signs_verifies {d k z r s recid : Nat} (hd : IsPrivateKey d) (hk0 : 0 < k) (hkl : k < orderN)
    (h : EcdsaSigns d k z r s recid) : EcdsaVerifies (d • generator) z r s recid ∧ s ≤ orderN / 2 := by
  refine (verifies_iff_signs _ _ _ _ _ ?_).2 ⟨d, k, hd.1, hd.2, hk0, hkl, rfl, h⟩
  rw [Ne, smul_generator_eq_zero_iff]
  exact cast_orderN_ne_zero d (by have := hd.1; omega) hd.2

end Siwe.Secp
