import Verif.Lemmas.Decimal
/- Helper lemmas about `EthAddress`, `EthSignature` and recovery. -/
namespace Siwe
open Spec

theorem shape_iff (s : Bytes) (n : Nat) : (!startsWith0x s || decide (s.length ≠ n + 2)) = false ↔
    ∃ ds, s = [48, 120] ++ ds ∧ ds.length = n := by
  simp only [Bool.or_eq_false_iff, Bool.not_eq_false', decide_eq_false_iff_not, Decidable.not_not]
  constructor
  · rintro ⟨h1, h2⟩
    obtain ⟨t, rfl⟩ := (startsWith0x_iff s).mp h1
    exact ⟨t, rfl, by simp at h2; omega⟩
  · rintro ⟨ds, rfl, h⟩
    exact ⟨(startsWith0x_iff _).mpr ⟨ds, rfl⟩, by simp; omega⟩

/-- The value of `EthAddress::new` on `0x` + 40 characters. -/
theorem ethAddress_new_shape (E : Env) {ds : Bytes} (hl : ds.length = 40) :
    (∃ e, hexDecode ds = .err e ∧ EthAddress.new E ([48, 120] ++ ds) = .err (.decodingError e)) ∨
    ((∀ c ∈ ds, isHexDigit c = true) ∧ EthAddress.new E ([48, 120] ++ ds) =
      if ds = eipMap (E.keccak (ds.map lowerDigit)).bytes 0 ds then .ok ⟨[48, 120] ++ ds⟩
      else .err .notEip55) := by
  have hs : (!startsWith0x ([48, 120] ++ ds) || decide (([48, 120] ++ ds).length ≠ 42)) = false :=
    (shape_iff _ 40).mpr ⟨ds, rfl, hl⟩
  unfold EthAddress.new
  rw [if_neg (by rw [hs]; simp)]
  have hdrop : ([48, 120] ++ ds : Bytes).drop 2 = ds := by simp
  rw [hdrop]
  cases hd : hexDecode ds with
  | panic => exact absurd hd (hexDecode_no_panic ds)
  | err e => left; exact ⟨e, rfl, by simp⟩
  | ok bs =>
    right
    have hh := spells_hex ((hexDecode_ok_iff _ _).mp hd)
    refine ⟨hh, ?_⟩
    rw [convertToEip55_hex E hh (by omega)]
    simp only [Res.mapErr_ok, Res.ok_bind, Res.unwrap_ok, List.cons_append, List.nil_append, ne_eq,
      List.cons.injEq, true_and, ite_not]

theorem ethAddress_new_bad (E : Env) {s : Bytes} (h : ¬∃ ds, s = [48, 120] ++ ds ∧ ds.length = 40) :
    EthAddress.new E s = .err .addressFormatError := by
  have : (!startsWith0x s || decide (s.length ≠ 42)) = true := by
    cases hb : (!startsWith0x s || decide (s.length ≠ 42))
    · exact absurd ((shape_iff s 40).mp hb) h
    · rfl
  unfold EthAddress.new
  rw [if_pos this]

theorem ethAddress_new_ok_iff (E : Env) (s : Bytes) (a : EthAddress) :
    EthAddress.new E s = .ok a ↔ IsAddress E.keccak s ∧ a.str = s := by
  constructor
  · intro h
    by_cases hs : ∃ ds, s = [48, 120] ++ ds ∧ ds.length = 40
    · obtain ⟨ds, rfl, hl⟩ := hs
      rcases ethAddress_new_shape E hl with ⟨e, _, h'⟩ | ⟨hh, h'⟩
      · rw [h'] at h; cases h
      · rw [h'] at h
        split at h
        · next he =>
          cases h
          refine ⟨⟨ds, rfl, hl, hh, ?_⟩, rfl⟩
          rw [he]; exact eipMap_case hh
        · cases h
    · rw [ethAddress_new_bad E hs] at h; cases h
  · rintro ⟨⟨ds, rfl, hl, hh, hc⟩, ha⟩
    rcases ethAddress_new_shape E hl with ⟨e, he, _⟩ | ⟨_, h'⟩
    · obtain ⟨bs, hbs, _⟩ := hexDecode_ok (s := ds) (by omega) hh
      rw [hbs] at he; cases he
    · rw [h', if_pos (eipMap_fixed hc).symm]
      cases a; simp at ha; subst ha; rfl

theorem ethAddress_new_no_panic (E : Env) (s : Bytes) : EthAddress.new E s ≠ .panic := by
  by_cases hs : ∃ ds, s = [48, 120] ++ ds ∧ ds.length = 40
  · obtain ⟨ds, rfl, hl⟩ := hs
    rcases ethAddress_new_shape E hl with ⟨e, _, h'⟩ | ⟨_, h'⟩
    · rw [h']; simp
    · rw [h']; split <;> simp
  · rw [ethAddress_new_bad E hs]; simp

/-- the 20 bytes of a valid address -/
theorem isAddress_bytes {k : Bytes → Hash} {s : Bytes} (h : IsAddress k s) :
    ∃ ds bs, s = [48, 120] ++ ds ∧ ds.length = 40 ∧ Spells ds bs ∧ bs.length = 20 ∧
      EthAddress.asBytes ⟨s⟩ = .ok bs ∧ EthAddress.asByteArray ⟨s⟩ = .ok bs := by
  obtain ⟨ds, rfl, hl, hh, hc⟩ := h
  obtain ⟨bs, hbs, hlen⟩ := hexDecode_ok (s := ds) (by omega) hh
  have hb20 : bs.length = 20 := by omega
  refine ⟨ds, bs, rfl, hl, (hexDecode_ok_iff _ _).mp hbs, hb20, ?_, ?_⟩
  · simp [EthAddress.asBytes, stripPrefix0x, hbs]
  · simp [EthAddress.asByteArray, stripPrefix0x, hbs, hb20]

theorem digitValue_lower {c d : UInt8} (hc : isHexDigit c = true) (hd : isHexDigit d = true)
    (h : digitValue c = digitValue d) : lowerDigit c = lowerDigit d := by
  have key : ∀ x : UInt8, isHexDigit x = true → lowerDigit x =
      if digitValue x < 10 then UInt8.ofNat (48 + digitValue x) else UInt8.ofNat (87 + digitValue x) := by
    apply u8_all; decide +kernel
  rw [key c hc, key d hd, h]

theorem spells_lower : ∀ {s t bs : Bytes}, Spells s bs → Spells t bs →
    s.map lowerDigit = t.map lowerDigit
  | [], [], [], _, _ => rfl
  | a :: b :: s, c :: d :: t, x :: bs, h, h' => by
    have ih := spells_lower h.2.2.2 h'.2.2.2
    have l1 := (nib_toNat a h.1).2
    have l2 := (nib_toNat b h.2.1).2
    have l3 := (nib_toNat c h'.1).2
    have l4 := (nib_toNat d h'.2.1).2
    have e1 := h.2.2.1
    have e2 := h'.2.2.1
    simp only [List.map_cons]
    rw [ih, digitValue_lower h.1 h'.1 (by omega), digitValue_lower h.2.1 h'.2.1 (by omega)]
  | [], _ :: _, [], _, h => by cases ‹Bytes› <;> exact h.elim
  | _ :: _, [], [], h, _ => by cases ‹Bytes› <;> exact h.elim
  | [_], _, _ :: _, h, _ => h.elim
  | _ :: _ :: _, [_], _ :: _, _, h => h.elim
  | _ :: _ :: _, [], _ :: _, _, h => h.elim
  | [], _, _ :: _, h, _ => h.elim
  | [_], _, [], h, _ => h.elim
  | _ :: _ :: _, _, [], h, _ => h.elim

theorem spells_of_lower : ∀ {s t bs : Bytes}, (∀ c ∈ t, isHexDigit c = true) → Spells s bs →
    s.map lowerDigit = t.map lowerDigit → Spells t bs := by
  have key : ∀ x : UInt8, isHexDigit x = true → digitValue x = digitValue (lowerDigit x) := by
    apply u8_all; decide +kernel
  intro s t bs
  induction bs generalizing s t with
  | nil =>
    intro ht hs h
    have := spells_length hs
    cases s with
    | nil => cases t with
      | nil => trivial
      | cons _ _ => simp at h
    | cons _ _ => simp at this
  | cons x bs ih =>
    intro ht hs h
    match s, t, hs, h with
    | a :: b :: s, c :: d :: t, hs, h =>
      simp only [List.map_cons, List.cons.injEq] at h
      have hc := ht c (by simp)
      have hd := ht d (by simp)
      refine ⟨hc, hd, ?_, ih (fun e he => ht e (by simp [he])) hs.2.2.2 h.2.2⟩
      rw [key c hc, key d hd, ← h.1, ← h.2.1, ← key a hs.1, ← key b hs.2.1]
      exact hs.2.2.1
    | [], _, hs, _ => exact hs.elim
    | [_], _, hs, _ => exact hs.elim
    | _ :: _ :: _, [], _, h => simp at h
    | _ :: _ :: _, [_], _, h => simp at h

/-- One spelling per 20 bytes. -/
theorem isAddress_unique {k : Bytes → Hash} {d1 d2 bs : Bytes}
    (h1 : IsAddress k ([48, 120] ++ d1)) (h2 : IsAddress k ([48, 120] ++ d2))
    (s1 : Spells d1 bs) (s2 : Spells d2 bs) : d1 = d2 := by
  obtain ⟨e1, he1, _, hh1, hc1⟩ := h1
  obtain ⟨e2, he2, _, hh2, hc2⟩ := h2
  simp only [List.append_cancel_left_eq] at he1 he2
  subst he1 he2
  exact eip55Case_unique hh1 hh2 hc1 hc2 (spells_lower s1 s2)

/-- The checksummed spelling of 20 bytes. -/
def addressOf (k : Bytes → Hash) (bs : Bytes) : Bytes :=
  [48, 120] ++ eipMap (k (hexEncode bs)).bytes 0 (hexEncode bs)

theorem hexEncode_lower_eq (bs : Bytes) : (hexEncode bs).map lowerDigit = hexEncode bs := by
  have key : ∀ x : UInt8, isUpperLetter x = false → lowerDigit x = x := by
    apply u8_all; decide +kernel
  conv => rhs; rw [← List.map_id (hexEncode bs)]
  exact List.map_congr_left fun c hc => key c (hexEncode_lower bs c hc)

theorem addressOf_spec (k : Bytes → Hash) {bs : Bytes} (h : bs.length = 20) :
    IsAddress k (addressOf k bs) ∧ Spells ((addressOf k bs).drop 2) bs := by
  have hh := spells_hex (hexEncode_spells bs)
  have e : k (hexEncode bs) = k ((hexEncode bs).map lowerDigit) := by rw [hexEncode_lower_eq]
  constructor
  · refine ⟨_, rfl, ?_, eipMap_hex _ _ _ hh, ?_⟩
    · rw [eipMap_length, hexEncode_length]; omega
    · rw [e]; exact eipMap_case hh
  · simp only [addressOf, List.cons_append, List.nil_append, List.drop_succ_cons, List.drop_zero]
    exact spells_of_lower (eipMap_hex _ _ _ hh) (hexEncode_spells bs) (eipMap_lower _ _ _ hh).symm

theorem convert_bytes (E : Env) {bs : Bytes} (h : bs.length ≤ 32) :
    convertToEip55 E (bytesToEthAddress bs) = .ok (addressOf E.keccak bs) ∧
    convertToEip55 E (hexEncode bs) = .ok (addressOf E.keccak bs) := by
  have hh := spells_hex (hexEncode_spells bs)
  constructor
  · unfold bytesToEthAddress
    have := convertToEip55_hex E hh (by rw [hexEncode_length]; omega)
    rw [hexEncode_lower_eq] at this
    exact this
  · have := convertToEip55_hex' E hh (by rw [hexEncode_length]; omega)
    rw [hexEncode_lower_eq] at this
    exact this

theorem hexEncode_drop : ∀ (n : Nat) (bs : Bytes), (hexEncode bs).drop (2 * n) = hexEncode (bs.drop n)
  | 0, bs => by simp
  | n + 1, [] => by simp [hexEncode]
  | n + 1, b :: bs => by
    have ih := hexEncode_drop n bs
    have : 2 * (n + 1) = 2 * n + 2 := by omega
    rw [this]
    simp only [hexEncode, List.flatMap_cons, List.cons_append, List.nil_append, List.drop_succ_cons] at ih ⊢
    exact ih

theorem derive_ok (E : Env) (key : Bytes) :
    deriveEthAddressFromPublicKey E key = .ok (addressOf E.keccak ((E.keccak key).bytes.drop 12)) := by
  unfold deriveEthAddressFromPublicKey
  have : (24 : Nat) = 2 * 12 := rfl
  rw [this, hexEncode_drop]
  exact (convert_bytes E (by rw [List.length_drop, (E.keccak key).len]; omega)).2

theorem addressOf_inj {k : Bytes → Hash} {a b : Bytes} (ha : a.length = 20) (hb : b.length = 20)
    (h : addressOf k a = addressOf k b) : a = b :=
  spells_unique (addressOf_spec k ha).2 (h ▸ (addressOf_spec k hb).2)

theorem addressOf_of_address {k : Bytes → Hash} {s ds bs : Bytes} (h : IsAddress k s)
    (hs : s = [48, 120] ++ ds) (hsp : Spells ds bs) (hl : bs.length = 20) : addressOf k bs = s := by
  have h1 := addressOf_spec k hl
  subst hs
  have := isAddress_unique (d1 := (addressOf k bs).drop 2) (d2 := ds) (bs := bs) (k := k)
    (by simpa [addressOf] using h1.1) h h1.2 hsp
  rw [← this]; simp [addressOf]

/-- signatures -/
theorem ethSignature_new_ok_iff (s : Bytes) (a : EthSignature) :
    EthSignature.new s = .ok a ↔ HexString 130 s ∧ a.str = s := by
  unfold EthSignature.new
  constructor
  · intro h
    split at h
    · cases h
    · next hs =>
      have hs' := (shape_iff s 130).mp (by simpa using hs)
      obtain ⟨ds, rfl, hl⟩ := hs'
      simp only [List.cons_append, List.nil_append, List.drop_succ_cons, List.drop_zero] at h
      cases hd : hexDecode ds with
      | ok bs =>
        simp [hd] at h
        exact ⟨⟨ds, rfl, hl, spells_hex ((hexDecode_ok_iff _ _).mp hd)⟩, by rw [← h]; rfl⟩
      | err e => simp [hd] at h
      | panic => simp [hd] at h
  · rintro ⟨⟨ds, rfl, hl, hh⟩, ha⟩
    have hs := (shape_iff ([48, 120] ++ ds) 130).mpr ⟨ds, rfl, hl⟩
    rw [if_neg (by rw [hs]; simp)]
    obtain ⟨bs, hbs, _⟩ := hexDecode_ok (s := ds) (by omega) hh
    simp only [List.cons_append, List.nil_append, List.drop_succ_cons, List.drop_zero, hbs, Res.mapErr_ok,
      Res.ok_bind]
    cases a; simp at ha; subst ha; rfl

theorem ethSignature_new_no_panic (s : Bytes) : EthSignature.new s ≠ .panic := by
  unfold EthSignature.new
  split
  · simp
  · have := hexDecode_no_panic (s.drop 2)
    cases hd : hexDecode (s.drop 2) <;> simp_all

theorem signature_bytes {s : Bytes} (h : HexString 130 s) :
    ∃ ds bs, s = [48, 120] ++ ds ∧ Spells ds bs ∧ bs.length = 65 ∧
      EthSignature.asBytes ⟨s⟩ = .ok bs ∧ EthSignature.asByteArray ⟨s⟩ = .ok bs := by
  obtain ⟨ds, rfl, hl, hh⟩ := h
  obtain ⟨bs, hbs, hlen⟩ := hexDecode_ok (s := ds) (by omega) hh
  have hb : bs.length = 65 := by omega
  refine ⟨ds, bs, rfl, (hexDecode_ok_iff _ _).mp hbs, hb, ?_, ?_⟩
  · simp [EthSignature.asBytes, stripPrefix0x, hbs]
  · simp [EthSignature.asByteArray, stripPrefix0x, hbs, hb]

/-- recovery as a decision table -/
theorem recover_eq (E : Env) (msg : Bytes) {s ds bs : Bytes} (hs : s = [48, 120] ++ ds)
    (hsp : Spells ds bs) (_hl : bs.length = 65) {v : UInt8} (hv : bs[64]? = some v) :
    recoverEthAddress E msg ⟨s⟩ =
      if v % 27 > 3 then .err .invalidRecoveryId
      else if E.sigOk (bs.take 64) = false then .err .invalidSignature
      else match E.recoverKey (E.keccak (eip191Bytes msg)) (bs.take 64) (v % 27) with
        | none => .err .publicKeyRecoveryFailure
        | some key => .ok (addressOf E.keccak ((E.keccak key).bytes.drop 12)) := by
  have hb : EthSignature.asBytes ⟨s⟩ = .ok bs := by
    subst hs
    simp [EthSignature.asBytes, stripPrefix0x, (hexDecode_ok_iff ds bs).mpr hsp]
  unfold recoverEthAddress
  simp only [hb, Res.ok_bind, hv, eip191Hash]
  split
  · rfl
  · cases hk : E.sigOk (bs.take 64)
    · simp
    · simp only [Bool.not_true, Bool.false_eq_true, if_false, Bool.true_eq_false]
      cases E.recoverKey (E.keccak (eip191Bytes msg)) (bs.take 64) (v % 27) with
      | none => rfl
      | some key => simp only [derive_ok]

end Siwe
