import Verif.Lemmas.Address
import Verif.Examples.Toy
/- Properties C01-C08: Ethereum addresses, signatures, EIP-191 and hex. -/
namespace Siwe
open Spec

/-! ### C01 -/

/-- C01: an address string is accepted exactly when it is `0x` + 40 hex digits in EIP-55 case, and the accepted
value is that string. -/
theorem C01_accepted_iff (E : Env) (s : Bytes) :
    (∃ a, EthAddress.new E s = .ok a) ↔ IsAddress E.keccak s := by
  constructor
  · rintro ⟨a, h⟩; exact ((ethAddress_new_ok_iff E s a).mp h).1
  · intro h; exact ⟨⟨s⟩, (ethAddress_new_ok_iff E s _).mpr ⟨h, rfl⟩⟩

/-- C01: the accepted value is the string itself. -/
theorem C01_value (E : Env) (s : Bytes) (a : EthAddress) (h : EthAddress.new E s = .ok a) : a.str = s :=
  ((ethAddress_new_ok_iff E s a).mp h).2

/-- C01: no string makes the constructor panic. -/
theorem C01_no_panic (E : Env) (s : Bytes) : EthAddress.new E s ≠ .panic := ethAddress_new_no_panic E s

/-- C01: each rejected string gets the error of its class: wrong prefix or length, a character that is not
a hex digit (the first one is named), or wrong letter case. -/
theorem C01_errors (E : Env) (s : Bytes) (e : EthError) (h : EthAddress.new E s = .err e) :
    (e = .addressFormatError ∧ ¬∃ ds, s = [48, 120] ++ ds ∧ ds.length = 40) ∨
    (∃ ds i c, s = [48, 120] ++ ds ∧ ds.length = 40 ∧ e = .decodingError (.invalidHexCharacter c i) ∧
      ds[i]? = some c ∧ isHexDigit c = false ∧ ∀ j d, j < i → ds[j]? = some d → isHexDigit d = true) ∨
    (∃ ds, s = [48, 120] ++ ds ∧ ds.length = 40 ∧ (∀ c ∈ ds, isHexDigit c = true) ∧
      e = .notEip55 ∧ ¬Eip55Case E.keccak ds) := by
  by_cases hs : ∃ ds, s = [48, 120] ++ ds ∧ ds.length = 40
  · obtain ⟨ds, rfl, hl⟩ := hs
    rcases ethAddress_new_shape E hl with ⟨e', he', h'⟩ | ⟨hh, h'⟩
    · right; left
      rw [h'] at h
      simp only [Res.err.injEq] at h
      have hp : hexDecodePairs 0 ds = .err e' := by
        rw [hexDecode, if_neg (by omega)] at he'; exact he'
      obtain ⟨j, c, h1, h2, h3, h4⟩ := hexDecodePairs_err ds 0 e' (by omega) hp
      exact ⟨ds, j, c, rfl, hl, by rw [← h, h1, Nat.zero_add], h2, h3, h4⟩
    · right; right
      rw [h'] at h
      split at h
      · cases h
      · next hne =>
        simp only [Res.err.injEq] at h
        exact ⟨ds, rfl, hl, hh, h.symm, fun hc => hne (eipMap_fixed hc).symm⟩
  · left
    rw [ethAddress_new_bad E hs] at h
    simp only [Res.err.injEq] at h
    exact ⟨h.symm, hs⟩

/-- Non-vacuity of C01: an address with letters of both cases is accepted and its all-lowercase form is not. -/
example :
    EthAddress.new Toy.env (ascii "0x99aBcdef99abcdef99aBcdef99abcdef99aBcdef")
      = .ok ⟨ascii "0x99aBcdef99abcdef99aBcdef99abcdef99aBcdef"⟩ ∧
    EthAddress.new Toy.env (ascii "0x99abcdef99abcdef99abcdef99abcdef99abcdef") = .err .notEip55 := by
  decide +kernel

/-! ### C02 -/

/-- C02: two accepted addresses with the same 20 bytes are the same string. -/
theorem C02_bytes_determine_string (E : Env) (s t : Bytes) (a b : EthAddress) (bs : Bytes)
    (ha : EthAddress.new E s = .ok a) (hb : EthAddress.new E t = .ok b)
    (hab : a.asBytes = .ok bs) (hbb : b.asBytes = .ok bs) : a = b := by
  obtain ⟨h1, e1⟩ := (ethAddress_new_ok_iff E s a).mp ha
  obtain ⟨h2, e2⟩ := (ethAddress_new_ok_iff E t b).mp hb
  obtain ⟨d1, b1, f1, _, s1, _, g1, _⟩ := isAddress_bytes h1
  obtain ⟨d2, b2, f2, _, s2, _, g2, _⟩ := isAddress_bytes h2
  have ea : a = ⟨s⟩ := by cases a; simp at e1; rw [e1]
  have eb : b = ⟨t⟩ := by cases b; simp at e2; rw [e2]
  rw [ea, g1] at hab
  rw [eb, g2] at hbb
  cases hab; cases hbb
  have := isAddress_unique (k := E.keccak) (f1 ▸ h1) (f2 ▸ h2) s1 s2
  rw [ea, eb, f1, f2, this]

/-- C02: every 20-byte value has an accepted spelling, and the byte conversions of an accepted address
return exactly the bytes it spells. -/
theorem C02_every_value_spelled (E : Env) (bs : Bytes) (h : bs.length = 20) :
    ∃ s a, EthAddress.new E s = .ok a ∧ a.asBytes = .ok bs ∧ a.asByteArray = .ok bs := by
  obtain ⟨h1, h2⟩ := addressOf_spec E.keccak h
  obtain ⟨ds, bs', e, _, s1, _, g1, g2⟩ := isAddress_bytes h1
  have : bs' = bs := by
    rw [e] at h2
    simp only [List.cons_append, List.nil_append, List.drop_succ_cons, List.drop_zero] at h2
    exact spells_unique s1 h2
  subst this
  exact ⟨_, ⟨addressOf E.keccak bs'⟩, (ethAddress_new_ok_iff E _ _).mpr ⟨h1, rfl⟩, g1, g2⟩

/-- C02: the bytes of an accepted address are 20 and are what its digits spell. -/
theorem C02_bytes_exact (E : Env) (s : Bytes) (a : EthAddress) (h : EthAddress.new E s = .ok a) :
    ∃ bs, a.asBytes = .ok bs ∧ a.asByteArray = .ok bs ∧ bs.length = 20 ∧ Spells (s.drop 2) bs := by
  obtain ⟨h1, e1⟩ := (ethAddress_new_ok_iff E s a).mp h
  obtain ⟨ds, bs, f, _, s1, l, g1, g2⟩ := isAddress_bytes h1
  have ea : a = ⟨s⟩ := by cases a; simp at e1; rw [e1]
  subst ea
  exact ⟨bs, g1, g2, l, by rw [f]; simpa using s1⟩

/-- Non-vacuity of C02: the accepted spelling of twenty bytes `0xab`. -/
example : ∃ a, EthAddress.new Toy.env (addressOf Toy.env.keccak (List.replicate 20 0xab)) = .ok a ∧
    a.asBytes = .ok (List.replicate 20 0xab) := by
  refine ⟨⟨addressOf Toy.env.keccak (List.replicate 20 0xab)⟩, ?_⟩
  decide +kernel

/-! ### C03 -/

/-- C03: on a string of at most 64 hex digits, with or without `0x`, the conversion returns `0x` and the
same digits with only letter case changed, in EIP-55 case. -/
theorem C03_only_case_changes (E : Env) (ds : Bytes) (hh : ∀ c ∈ ds, isHexDigit c = true)
    (hl : ds.length ≤ 64) :
    ∃ out, convertToEip55 E ds = .ok ([48, 120] ++ out) ∧
      convertToEip55 E ([48, 120] ++ ds) = .ok ([48, 120] ++ out) ∧
      out.map lowerDigit = ds.map lowerDigit ∧ (∀ c ∈ out, isHexDigit c = true) ∧
      Eip55Case E.keccak out :=
  ⟨_, convertToEip55_hex' E hh hl, convertToEip55_hex E hh hl, eipMap_lower _ _ _ hh, eipMap_hex _ _ _ hh,
    eipMap_case hh⟩

/-- C03: the result does not depend on the letter case of the input. -/
theorem C03_case_insensitive (E : Env) (ds ds' : Bytes) (hh : ∀ c ∈ ds, isHexDigit c = true)
    (hh' : ∀ c ∈ ds', isHexDigit c = true) (hl : ds.length ≤ 64)
    (h : ds.map lowerDigit = ds'.map lowerDigit) : convertToEip55 E ds = convertToEip55 E ds' := by
  have hl' : ds'.length ≤ 64 := by
    have := congrArg List.length h
    simp only [List.length_map] at this; omega
  obtain ⟨o, h1, _, h3, h4, h5⟩ := C03_only_case_changes E ds hh hl
  obtain ⟨o', h1', _, h3', h4', h5'⟩ := C03_only_case_changes E ds' hh' hl'
  rw [h1, h1', eip55Case_unique h4 h4' h5 h5' (h3.trans (h.trans h3'.symm))]

/-- C03: converting twice is converting once. -/
theorem C03_idempotent (E : Env) (ds out : Bytes) (hh : ∀ c ∈ ds, isHexDigit c = true)
    (hl : ds.length ≤ 64) (h : convertToEip55 E ds = .ok out) : convertToEip55 E out = .ok out := by
  obtain ⟨o, h1, _, h3, h4, h5⟩ := C03_only_case_changes E ds hh hl
  rw [h1] at h
  cases h
  have hl' : o.length ≤ 64 := by
    have := congrArg List.length h3
    simp only [List.length_map] at this; omega
  have := convertToEip55_hex E h4 hl'
  rw [eipMap_fixed h5] at this
  exact this

/-- Non-vacuity of C03: a conversion that changes the case of some letters and not of others. -/
example : convertToEip55 Toy.env (ascii "9aAbcdef99ab") = .ok (ascii "0x9Aabcdef99ab") := by decide

/-! ### C04 -/

/-- C04 is false of the code: on 64 digits followed by a letter the conversion panics, whatever the hash
function. -/
theorem C04_convert_can_panic (E : Env) :
    convertToEip55 E (List.replicate 64 48 ++ [97]) = .panic := by
  have hs : startsWith0x (List.replicate 64 48 ++ [97]) = false := by decide
  have : eip55Chars (E.keccak ((List.replicate 64 48 ++ [97] : Bytes).map toLower)) 0
      (List.replicate 64 48 ++ [97]) = .panic := by
    rw [eip55Chars_panic_iff]
    refine ⟨64, 97, by decide, by decide, by omega, ?_⟩
    intro k d hk hd
    have : (List.replicate 64 48 ++ [97] : Bytes)[k]? = some 48 := by
      rw [List.getElem?_append_left (by simpa using hk), List.getElem?_replicate, if_pos hk]
    rw [this] at hd
    cases hd; decide
  unfold convertToEip55
  simp only [hs, Bool.false_eq_true, if_false, this, Res.panic_bind]

/-- The part after an optional `0x`. -/
def Spec.digitsPart : Bytes → Bytes
  | 48 :: 120 :: t => t
  | s => s

/-- C04, exactly: the conversion panics precisely on strings whose part after an optional `0x` has a hex
letter at index 64 or more with only hex digits before it. -/
theorem C04_panic_iff (E : Env) (s : Bytes) : convertToEip55 E s = .panic ↔
    ∃ j c, (digitsPart s)[j]? = some c ∧ (isUpperLetter c || isLowerLetter c) = true ∧ 64 ≤ j ∧
      ∀ k d, k < j → (digitsPart s)[k]? = some d → isHexDigit d = true := by
  have hp : (if startsWith0x s then s.drop 2 else s) = digitsPart s := by
    by_cases h : startsWith0x s = true
    · obtain ⟨t, rfl⟩ := (startsWith0x_iff s).mp h
      simp [digitsPart]
    · simp only [h, Bool.false_eq_true, if_false]
      unfold digitsPart
      split
      · next t => exact absurd ((startsWith0x_iff _).mpr ⟨t, rfl⟩) h
      · rfl
  unfold convertToEip55
  simp only [hp]
  have : ∀ x : Res EthError Bytes, ((x >>= fun c => Res.ok (prefix0x ++ c)) = .panic) ↔ x = .panic := by
    intro x; cases x <;> simp
  rw [this, eip55Chars_panic_iff]
  simp only [Nat.zero_add]

/-- C04, for strings of at most 64 bytes after the prefix.  Missing from the full property: longer strings,
for which it is false (`C04_convert_can_panic`). -/
theorem C04_no_panic_partial (E : Env) (s : Bytes) (h : (digitsPart s).length ≤ 64) :
    convertToEip55 E s ≠ .panic := by
  rw [Ne, C04_panic_iff]
  rintro ⟨j, c, hj, _, h64, _⟩
  have := (List.getElem?_eq_some_iff.mp hj).1
  omega

/-- Non-vacuity of C04: a non-hex string is an error, not a panic. -/
example : convertToEip55 Toy.env (ascii "0xhello") = .err (.unrecognizedHexCharacter 104 0) := by decide

/-! ### C05 -/

/-- C05: a signature string is accepted exactly when it is `0x` + 130 hex digits. -/
theorem C05_accepted_iff (s : Bytes) (g : EthSignature) :
    EthSignature.new s = .ok g ↔ HexString 130 s ∧ g.str = s := ethSignature_new_ok_iff s g

/-- C05: the constructor never panics. -/
theorem C05_new_no_panic (s : Bytes) : EthSignature.new s ≠ .panic := ethSignature_new_no_panic s

/-- C05: an accepted signature converts to exactly the 65 bytes its digits spell, and neither the conversions nor
recovery panic, for any message. -/
theorem C05_use_no_panic (E : Env) (s : Bytes) (g : EthSignature) (h : EthSignature.new s = .ok g)
    (msg : Bytes) : recoverEthAddress E msg g ≠ .panic ∧
    ∃ bs, g.asBytes = .ok bs ∧ g.asByteArray = .ok bs ∧ bs.length = 65 ∧ Spells (s.drop 2) bs := by
  obtain ⟨h1, h2⟩ := (ethSignature_new_ok_iff s g).mp h
  obtain ⟨ds, bs, e, sp, l, g1, g2⟩ := signature_bytes h1
  have eg : g = ⟨s⟩ := by cases g; simp at h2; rw [h2]
  subst eg
  refine ⟨?_, bs, g1, g2, l, by rw [e]; simpa using sp⟩
  have hv : bs[64]? = some bs[64] := List.getElem?_eq_getElem (by omega)
  rw [recover_eq E msg e sp l hv]
  split
  · simp
  · split
    · simp
    · split <;> simp

/-- C05: the errors of the constructor. -/
theorem C05_errors (s : Bytes) (e : EthError) (h : EthSignature.new s = .err e) :
    (e = .signatureFormatError ∧ ¬∃ ds, s = [48, 120] ++ ds ∧ ds.length = 130) ∨
    (∃ ds i c, s = [48, 120] ++ ds ∧ ds.length = 130 ∧ e = .decodingError (.invalidHexCharacter c i) ∧
      ds[i]? = some c ∧ isHexDigit c = false ∧ ∀ j d, j < i → ds[j]? = some d → isHexDigit d = true) := by
  unfold EthSignature.new at h
  split at h
  · next hs =>
    left
    simp only [Res.err.injEq] at h
    refine ⟨h.symm, fun hx => ?_⟩
    rw [(shape_iff s 130).mpr hx] at hs
    cases hs
  · next hs =>
    right
    obtain ⟨ds, rfl, hl⟩ := (shape_iff s 130).mp (by simpa using hs)
    simp only [List.cons_append, List.nil_append, List.drop_succ_cons, List.drop_zero] at h
    cases hd : hexDecode ds with
    | ok bs => simp [hd] at h
    | panic => simp [hd] at h
    | err e' =>
      simp [hd] at h
      have hp : hexDecodePairs 0 ds = .err e' := by
        rw [hexDecode, if_neg (by omega)] at hd; exact hd
      obtain ⟨j, c, h1, h2, h3, h4⟩ := hexDecodePairs_err ds 0 e' (by omega) hp
      exact ⟨ds, j, c, rfl, hl, by rw [← h, h1, Nat.zero_add], h2, h3, h4⟩

/-- Non-vacuity of C05: a signature of mixed-case digits. -/
example : EthSignature.new (ascii "0x" ++ List.replicate 100 65 ++ List.replicate 30 98)
    = .ok ⟨ascii "0x" ++ List.replicate 100 65 ++ List.replicate 30 98⟩ := by decide +kernel

/-! ### C06 -/

/-- C06: the recovery id is rejected exactly when the last byte modulo 27 exceeds 3, whatever `r`, `s` and
the message. -/
theorem C06_recovery_id (E : Env) (s msg bs : Bytes) (g : EthSignature) (v : UInt8)
    (h : EthSignature.new s = .ok g) (hb : Spells (s.drop 2) bs) (hv : bs[64]? = some v) :
    recoverEthAddress E msg g = .err .invalidRecoveryId ↔ v.toNat % 27 > 3 := by
  obtain ⟨h1, h2⟩ := (ethSignature_new_ok_iff s g).mp h
  obtain ⟨ds, bs', e, sp, l, g1, g2⟩ := signature_bytes h1
  have eg : g = ⟨s⟩ := by cases g; simp at h2; rw [h2]
  subst eg
  have : bs' = bs := by
    rw [e] at hb
    exact spells_unique sp (by simpa using hb)
  subst this
  rw [recover_eq E msg e sp l hv]
  have hmod : (v % 27 > 3) ↔ v.toNat % 27 > 3 := by
    rw [gt_iff_lt, UInt8.lt_iff_toNat_lt, UInt8.toNat_mod]; simp
  rw [← hmod]
  constructor
  · intro hx
    split at hx
    · assumption
    · split at hx
      · cases hx
      · split at hx <;> cases hx
  · intro hx; rw [if_pos hx]

/-- C06: recovery succeeds with `r` exactly when the recovery id is 0..3, `r`/`s` are acceptable, a key `K` is
recovered from the Keccak hash of the EIP-191 message, and `r` is the checksummed spelling of the last
20 bytes of Keccak(`K`); so the result is itself a valid address. -/
theorem C06_recovered_address (E : Env) (s msg bs signed r : Bytes) (g : EthSignature) (v : UInt8)
    (h : EthSignature.new s = .ok g) (hb : Spells (s.drop 2) bs) (hv : bs[64]? = some v)
    (hsigned : IsPersonalMessage msg signed) :
    recoverEthAddress E msg g = .ok r ↔
      v.toNat % 27 ≤ 3 ∧ E.sigOk (bs.take 64) = true ∧
      ∃ key, E.recoverKey (E.keccak signed) (bs.take 64) (v % 27) = some key ∧
        IsAddress E.keccak r ∧ Spells (r.drop 2) ((E.keccak key).bytes.drop 12) := by
  obtain ⟨h1, h2⟩ := (ethSignature_new_ok_iff s g).mp h
  obtain ⟨ds, bs', e, sp, l, g1, g2⟩ := signature_bytes h1
  have eg : g = ⟨s⟩ := by cases g; simp at h2; rw [h2]
  subst eg
  have : bs' = bs := by
    rw [e] at hb
    exact spells_unique sp (by simpa using hb)
  subst this
  have hs : signed = eip191Bytes msg := by
    obtain ⟨len, hl, rfl⟩ := hsigned
    rw [isDecimal_unique hl (decimal_spec _)]
    rfl
  subst hs
  rw [recover_eq E msg e sp l hv]
  have hmod : (v % 27 > 3) ↔ v.toNat % 27 > 3 := by
    rw [gt_iff_lt, UInt8.lt_iff_toNat_lt, UInt8.toNat_mod]; simp
  have h20 : ∀ key, ((E.keccak key).bytes.drop 12).length = 20 := by
    intro key; rw [List.length_drop, (E.keccak key).len]
  constructor
  · intro hx
    split at hx
    · cases hx
    · next hm =>
      split at hx
      · cases hx
      · next hk =>
        split at hx
        · cases hx
        · next key hkey =>
          cases hx
          refine ⟨by rw [hmod] at hm; omega, by simpa using hk, key, hkey, ?_⟩
          exact addressOf_spec E.keccak (h20 key)
  · rintro ⟨hm, hk, key, hkey, hr1, hr2⟩
    rw [if_neg (by rw [hmod]; omega), if_neg (by rw [hk]; simp), hkey]
    simp only
    obtain ⟨ds', he, _⟩ := hr1
    congr 1
    exact addressOf_of_address ⟨ds', he, ‹_›⟩ he (by rw [he] at hr2; simpa using hr2) (h20 key)

/-- Non-vacuity of C06: a signature whose recovery succeeds in the toy instantiation. -/
example : recoverEthAddress Toy.env (ascii "hi") ⟨ascii "0x" ++ List.replicate 128 55 ++ ascii "1b"⟩
    = .ok (ascii "0x7777777777777777777777777777777777777777") := by decide +kernel

/-! ### C07 -/

/-- C07: what is hashed is the EIP-191 personal message envelope of the text. -/
theorem C07_is_personal_message (m : Bytes) : IsPersonalMessage m (eip191Bytes m) :=
  ⟨decimal m.length, decimal_spec _, rfl⟩

/-- C07: different message texts have different envelopes. -/
theorem C07_injective (m m' : Bytes) (h : eip191Bytes m = eip191Bytes m') : m = m' := by
  have h0 := h
  unfold eip191Bytes at h
  rw [List.append_assoc, List.append_assoc, List.append_cancel_left_eq] at h
  have hlen := congrArg List.length h
  simp only [List.length_append] at hlen
  have : m.length = m'.length := by
    rcases Nat.lt_trichotomy m.length m'.length with hlt | heq | hgt
    · have := decimal_length_mono (Nat.le_of_lt hlt); omega
    · exact heq
    · have := decimal_length_mono (Nat.le_of_lt hgt); omega
  rw [this, List.append_cancel_left_eq] at h
  exact h

/-- C07 at the level of the specification: the envelope relation itself is injective. -/
theorem C07_spec_injective (m m' signed : Bytes) (h : IsPersonalMessage m signed)
    (h' : IsPersonalMessage m' signed) : m = m' := by
  obtain ⟨l, hl, rfl⟩ := h
  obtain ⟨l', hl', h2⟩ := h'
  rw [isDecimal_unique hl (decimal_spec _), isDecimal_unique hl' (decimal_spec _)] at h2
  exact C07_injective m m' h2

/-- Non-vacuity of C07: two texts where moving a digit across the length boundary could be confused. -/
example : eip191Bytes (ascii "1a") ≠ eip191Bytes (ascii "a") ∧
    eip191Bytes (ascii "0123456789") = ascii "\x19Ethereum Signed Message:\n100123456789" := by
  decide +kernel

/-! ### C08 -/

/-- C08: decoding the encoding returns the bytes. -/
theorem C08_roundtrip (bs : Bytes) : hexDecode (hexEncode bs) = .ok bs :=
  (hexDecode_ok_iff _ _).mpr (hexEncode_spells bs)

/-- C08: decoding accepts exactly even-length strings of hex digits, and returns what they spell. -/
theorem C08_decode_iff (s bs : Bytes) : hexDecode s = .ok bs ↔ Spells s bs := hexDecode_ok_iff s bs

/-- C08: accepted inputs. -/
theorem C08_decode_accepts (s : Bytes) :
    (∃ bs, hexDecode s = .ok bs) ↔ s.length % 2 = 0 ∧ ∀ c ∈ s, isHexDigit c = true := by
  constructor
  · rintro ⟨bs, h⟩
    have hs := (hexDecode_ok_iff s bs).mp h
    exact ⟨by rw [spells_length hs]; omega, spells_hex hs⟩
  · rintro ⟨h1, h2⟩
    obtain ⟨bs, h, _⟩ := hexDecode_ok h1 h2
    exact ⟨bs, h⟩

/-- C08: rendering stored bytes and normalising them gives the one accepted spelling of these bytes. -/
theorem C08_render (E : Env) (bs : Bytes) (h : bs.length = 20) :
    ∃ s a, convertToEip55 E (bytesToEthAddress bs) = .ok s ∧ EthAddress.new E s = .ok a ∧
      a.asBytes = .ok bs := by
  obtain ⟨h1, h2⟩ := addressOf_spec E.keccak h
  obtain ⟨ds, bs', e, _, s1, _, g1, g2⟩ := isAddress_bytes h1
  have : bs' = bs := by
    rw [e] at h2
    exact spells_unique s1 (by simpa using h2)
  subst this
  exact ⟨_, ⟨addressOf E.keccak bs'⟩, (convert_bytes E (by omega)).1,
    (ethAddress_new_ok_iff E _ _).mpr ⟨h1, rfl⟩, g1⟩

/-- Non-vacuity of C08. -/
example : hexDecode (ascii "00fFa1") = .ok [0, 255, 161] := by decide

end Siwe
