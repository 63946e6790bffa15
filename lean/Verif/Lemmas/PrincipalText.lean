import Verif.Lemmas.Crc
/- The texts of principals: the functions against the specification. -/
namespace Siwe.PrincipalText
open Spec

/-! ### Groups -/

theorem dashed_eq (s : Bytes) : dashed s = if s.length ≤ 5 then s else s.take 5 ++ 45 :: dashed (s.drop 5) := by
  match s with
  | [] | [_] | [_, _] | [_, _, _] | [_, _, _, _] | [_, _, _, _, _] => rfl
  | a :: b :: c :: d :: e :: f :: l => rw [if_neg (by simp)]; rfl

theorem dashed_cons (g rest : Bytes) (hg : g.length = 5) (hr : 1 ≤ rest.length) : dashed (g ++ rest) = g ++ 45 :: dashed rest := by
  rw [dashed_eq, if_neg (by simp; omega), List.take_left' hg, List.drop_left' hg]

theorem isGrouped_iff (ds t : Bytes) : IsGrouped ds t ↔ ds ≠ [] ∧ t = dashed ds := by
  constructor
  · rintro ⟨gs, last, hg, h1, h5, rfl, rfl⟩
    refine ⟨fun h => ?_, ?_⟩
    · have := congrArg List.length h
      simp at this
      simp [this.2] at h1
    · induction gs with
      | nil => rw [dashed_eq, if_pos (by simpa using h5)]; simp
      | cons g gs ih =>
        have h := ih fun x hx => hg x (by simp [hx])
        rw [List.flatten_cons, List.append_assoc, dashed_cons _ _ (hg g (by simp)) (by simp; omega), ← h]
        simp [show ascii "-" = [45] by decide]
  · rintro ⟨h0, rfl⟩
    induction hn : ds.length using Nat.strongRecOn generalizing ds with
    | ind n ih =>
      by_cases h : ds.length ≤ 5
      · refine ⟨[], ds, by simp, List.length_pos_iff.mpr h0, h, by simp, ?_⟩
        rw [dashed_eq, if_pos h]; simp
      · obtain ⟨gs, last, hg, h1, h5, e, e'⟩ := ih (ds.drop 5).length (by simp; omega) (ds.drop 5)
          (fun h' => h (by have := congrArg List.length h'; simp at this; omega)) rfl
        refine ⟨ds.take 5 :: gs, last, ?_, h1, h5, ?_, ?_⟩
        · intro g hx
          rcases List.mem_cons.mp hx with rfl | hx
          · simp; omega
          · exact hg g hx
        · rw [List.flatten_cons, List.append_assoc, ← e, List.take_append_drop]
        · rw [dashed_eq, if_neg h, e']
          simp [show ascii "-" = [45] by decide]

/-! ### Base 32 -/

theorem alphabet_digit : ∀ v < 32, base32Alphabet[v]? = some (toLower (digit v)) := by decide +kernel

theorem alphabet_lt {v : Nat} {c : UInt8} (h : base32Alphabet[v]? = some c) : v < 32 ∧ c = toLower (digit v) := by
  have hv : v < 32 := by
    obtain ⟨hv, _⟩ := List.getElem?_eq_some_iff.mp h
    exact hv
  rw [alphabet_digit v hv] at h
  exact ⟨hv, (Option.some.inj h).symm⟩

theorem bitsNat_highFirst5 : ∀ v < 32, bitsNat (highFirst 5 v) = v := by decide +kernel

theorem highFirst5_bitsNat : ∀ a b c d e : Bool, highFirst 5 (bitsNat [a, b, c, d, e]) = [a, b, c, d, e] ∧
    bitsNat [a, b, c, d, e] < 32 := by decide +kernel

theorem highFirst_length (k n : Nat) : (highFirst k n).length = k := by simp [highFirst, lowFirst_length]

theorem highBits_length (vs : List Nat) : (vs.flatMap (highFirst 5)).length = 5 * vs.length := by
  induction vs with
  | nil => rfl
  | cons v vs ih => rw [List.flatMap_cons, List.length_append, ih, highFirst_length, List.length_cons]; omega

theorem encodeBits_unique (l : List Bool) (vs : List Nat) (zeros : Nat) (ds : Bytes) (hz : zeros < 5)
    (h : vs.flatMap (highFirst 5) = l ++ List.replicate zeros false) (hd : vs.map (base32Alphabet[·]?) = ds.map some) :
    ds = (encodeBits l).map toLower := by
  have hlen := congrArg List.length h
  rw [highBits_length, List.length_append, List.length_replicate] at hlen
  have nilCase : vs = [] → ds = [] := by rintro rfl; simpa using hd
  have single : ∀ x : List Bool, x.length = 5 → vs.length = 1 → vs.flatMap (highFirst 5) = x → ds = [toLower (digit (bitsNat x))] := by
    intro x hx h1 hv
    obtain ⟨v, rfl⟩ := List.length_eq_one_iff.mp h1
    obtain ⟨c, rfl⟩ : ∃ c, ds = [c] := by
      have := congrArg List.length hd
      exact List.length_eq_one_iff.mp (by simpa using this.symm)
    simp at hd hv
    obtain ⟨h1, rfl⟩ := alphabet_lt hd
    rw [← hv, bitsNat_highFirst5 v h1]
  induction l using encodeBits.induct generalizing vs ds with
  | case1 => exact nilCase (List.length_eq_zero_iff.mp (by simp at hlen; omega))
  | case2 a =>
    simp at hlen
    obtain rfl : zeros = 4 := by omega
    exact single _ (by rfl) (by omega) h
  | case3 a b =>
    simp at hlen
    obtain rfl : zeros = 3 := by omega
    exact single _ (by rfl) (by omega) h
  | case4 a b c =>
    simp at hlen
    obtain rfl : zeros = 2 := by omega
    exact single _ (by rfl) (by omega) h
  | case5 a b c d =>
    simp at hlen
    obtain rfl : zeros = 1 := by omega
    exact single _ (by rfl) (by omega) h
  | case6 a b c d e l ih =>
    cases vs with
    | nil => simp at hlen; omega
    | cons v vs =>
      cases ds with
      | nil => simp at hd
      | cons x ds =>
        simp only [List.map_cons, List.cons.injEq] at hd
        obtain ⟨h1, rfl⟩ := alphabet_lt hd.1
        rw [List.flatMap_cons] at h
        have h' : highFirst 5 v ++ vs.flatMap (highFirst 5) = [a, b, c, d, e] ++ (l ++ List.replicate zeros false) := h
        obtain ⟨e1, e2⟩ := List.append_inj h' (by simp [highFirst_length])
        rw [encodeBits, List.map_cons, ← e1, bitsNat_highFirst5 v h1]
        have hlen' := congrArg List.length e2
        rw [highBits_length, List.length_append, List.length_replicate] at hlen'
        rw [ih vs ds e2 hd.2 hlen' (by rintro rfl; simpa using hd.2) ?_]
        intro y hy h1 hv
        obtain ⟨v, rfl⟩ := List.length_eq_one_iff.mp h1
        obtain ⟨c, rfl⟩ : ∃ c, ds = [c] := by
          have := congrArg List.length hd.2
          exact List.length_eq_one_iff.mp (by simpa using this.symm)
        simp at hd hv
        obtain ⟨h1, rfl⟩ := alphabet_lt hd.2
        rw [← hv, bitsNat_highFirst5 v h1]

theorem encodeBits_meets (l : List Bool) : ∃ vs : List Nat, ∃ zeros, zeros < 5 ∧
    vs.flatMap (highFirst 5) = l ++ List.replicate zeros false ∧
    vs.map (base32Alphabet[·]?) = ((encodeBits l).map toLower).map some := by
  have one : ∀ a b c d e : Bool, [bitsNat [a, b, c, d, e]].flatMap (highFirst 5) = [a, b, c, d, e] ∧
      [bitsNat [a, b, c, d, e]].map (base32Alphabet[·]?) = [some (toLower (digit (bitsNat [a, b, c, d, e])))] := by
    intro a b c d e
    obtain ⟨h1, h2⟩ := highFirst5_bitsNat a b c d e
    exact ⟨by simp [h1], by rw [List.map_cons, alphabet_digit _ h2]; rfl⟩
  induction l using encodeBits.induct with
  | case1 => exact ⟨[], 0, by decide, rfl, rfl⟩
  | case2 a => exact ⟨_, 4, by decide, (one a false false false false).1, (one a false false false false).2⟩
  | case3 a b => exact ⟨_, 3, by decide, (one a b false false false).1, (one a b false false false).2⟩
  | case4 a b c => exact ⟨_, 2, by decide, (one a b c false false).1, (one a b c false false).2⟩
  | case5 a b c d => exact ⟨_, 1, by decide, (one a b c d false).1, (one a b c d false).2⟩
  | case6 a b c d e l ih =>
    obtain ⟨vs, z, hz, h1, h2⟩ := ih
    refine ⟨bitsNat [a, b, c, d, e] :: vs, z, hz, ?_, ?_⟩
    · rw [List.flatMap_cons, h1, (highFirst5_bitsNat a b c d e).1]; rfl
    · rw [List.map_cons, h2, alphabet_digit _ (highFirst5_bitsNat a b c d e).2, encodeBits]; rfl

theorem byteBits_eq (b : UInt8) : byteBits b = highFirst 8 b.toNat := by
  simp [byteBits, highFirst, lowFirst, List.range_succ]

theorem isBase32_iff (bs ds : Bytes) : IsBase32 bs ds ↔ ds = (encode bs).map toLower := by
  have he : (bs.flatMap fun b => highFirst 8 b.toNat) = bs.flatMap byteBits := by
    rw [funext byteBits_eq]
  unfold IsBase32
  rw [he]
  constructor
  · rintro ⟨vs, z, hz, h1, h2⟩
    exact encodeBits_unique _ vs z ds hz h1 h2
  · rintro rfl
    exact encodeBits_meets _

/-! ### The checksum's bytes -/

theorem byteBits_inj : ∀ a b : UInt8, byteBits a = byteBits b → a = b := by
  have : ∀ b : UInt8, UInt8.ofNat (bitsNat (byteBits b)) = b := by
    apply u8_all
    decide +kernel
  intro a b h
  rw [← this a, ← this b, h]

theorem bytesBits_inj (l l' : Bytes) (h : l.flatMap byteBits = l'.flatMap byteBits) : l = l' := by
  have len : ∀ l : Bytes, (l.flatMap byteBits).length = 8 * l.length := by
    intro l
    induction l with
    | nil => rfl
    | cons b l ih => rw [List.flatMap_cons, List.length_append, ih, List.length_cons]; simp [byteBits]; omega
  induction l generalizing l' with
  | nil => cases l' with | nil => rfl | cons => simp [byteBits] at h
  | cons a l ih =>
    cases l' with
    | nil => simp [byteBits] at h
    | cons b l' =>
      rw [List.flatMap_cons, List.flatMap_cons] at h
      obtain ⟨e1, e2⟩ := List.append_inj h (by simp [byteBits])
      rw [byteBits_inj a b e1, ih l' e2]

theorem bigEndian_bits (c : Nat) : [UInt8.ofNat (c / 16777216), UInt8.ofNat (c / 65536), UInt8.ofNat (c / 256), UInt8.ofNat c].flatMap
    byteBits = highFirst 32 c := by
  have h : ∀ n i, i < 8 → Nat.testBit (UInt8.ofNat n).toNat i = n.testBit i := by
    intro n i hi
    rw [UInt8.toNat_ofNat', Nat.testBit_mod_two_pow]
    simp [hi]
  simp only [List.flatMap_cons, List.flatMap_nil, byteBits, List.append_nil, List.cons_append, List.nil_append]
  rw [show (16777216 : Nat) = 2 ^ 24 by rfl, show (65536 : Nat) = 2 ^ 16 by rfl, show (256 : Nat) = 2 ^ 8 by rfl]
  simp only [h _ _ (by decide : 0 < 8), h _ _ (by decide : 1 < 8), h _ _ (by decide : 2 < 8), h _ _ (by decide : 3 < 8),
    h _ _ (by decide : 4 < 8), h _ _ (by decide : 5 < 8), h _ _ (by decide : 6 < 8), h _ _ (by decide : 7 < 8),
    Nat.testBit_div_two_pow]
  simp [highFirst, lowFirst, List.range_succ]

theorem isBigEndian32_iff (p cs : Bytes) : IsBigEndian32 (crc32 p) cs ↔ cs = crcBytes p := by
  have he : ∀ bs : Bytes, (bs.flatMap fun b => highFirst 8 b.toNat) = bs.flatMap byteBits := by
    intro bs; rw [funext byteBits_eq]
  unfold IsBigEndian32
  rw [he, ← bigEndian_bits]
  constructor
  · rintro ⟨_, h⟩
    exact bytesBits_inj _ _ h
  · rintro rfl
    exact ⟨rfl, rfl⟩

theorem encode_ne_nil (p : Bytes) : (encode (crcBytes p ++ p)).map toLower ≠ [] := by
  simp only [encode, crcBytes, List.cons_append, List.flatMap_cons, byteBits, List.cons_append, encodeBits, List.map_cons]
  simp

/-- The text the code prints is the one of the specification. -/
theorem isPrincipalText_iff (p t : Bytes) : IsPrincipalText p t ↔ p.length ≤ 29 ∧ t = toText p := by
  unfold IsPrincipalText
  simp only [isCrc32_iff, isBase32_iff, isGrouped_iff]
  constructor
  · rintro ⟨hp, c, cs, ds, rfl, h2, rfl, _, h4⟩
    rw [isBigEndian32_iff] at h2
    subst h2
    exact ⟨hp, h4⟩
  · rintro ⟨hp, rfl⟩
    exact ⟨hp, _, _, _, rfl, (isBigEndian32_iff _ _).2 rfl, rfl, encode_ne_nil p, rfl⟩

/-! ### Reading -/

theorem digitBits_digit : ∀ a b c d e : Bool, digitBits (toUpper (toLower (digit (bitsNat [a, b, c, d, e])))) = some [a, b, c, d, e] := by
  decide +kernel

theorem textBits_encodeBits (l : List Bool) : ∃ zeros, zeros < 5 ∧
    textBits ((encodeBits l).map fun c => toUpper (toLower c)) = some (l ++ List.replicate zeros false) := by
  have one : ∀ a b c d e : Bool, textBits ([digit (bitsNat [a, b, c, d, e])].map fun c => toUpper (toLower c)) = some [a, b, c, d, e] := by
    intro a b c d e
    simp only [List.map_cons, List.map_nil, textBits, digitBits_digit]
    rfl
  induction l using encodeBits.induct with
  | case1 => exact ⟨0, by decide, rfl⟩
  | case2 a => exact ⟨4, by decide, one a false false false false⟩
  | case3 a b => exact ⟨3, by decide, one a b false false false⟩
  | case4 a b c => exact ⟨2, by decide, one a b c false false⟩
  | case5 a b c d => exact ⟨1, by decide, one a b c d false⟩
  | case6 a b c d e l ih =>
    obtain ⟨z, hz, h⟩ := ih
    refine ⟨z, hz, ?_⟩
    rw [encodeBits, List.map_cons, textBits, h, digitBits_digit]
    rfl

theorem bitsBytes_bits (bs : Bytes) (l : List Bool) (hl : l.length < 8) : bitsBytes (bs.flatMap byteBits ++ l) = (bs, l) := by
  induction bs with
  | nil =>
    match l, hl with
    | [], _ | [_], _ | [_, _], _ | [_, _, _], _ | [_, _, _, _], _ | [_, _, _, _, _], _ | [_, _, _, _, _, _], _
    | [_, _, _, _, _, _, _], _ => rfl
    | _ :: _ :: _ :: _ :: _ :: _ :: _ :: _ :: _, h => simp at h; omega
  | cons b bs ih =>
    have : ∀ b : UInt8, UInt8.ofNat (bitsNat (byteBits b)) = b := by
      apply u8_all
      decide +kernel
    have hb := this b
    rw [List.flatMap_cons, List.append_assoc]
    generalize bs.flatMap byteBits ++ l = rest at ih ⊢
    unfold byteBits at hb ⊢
    simp only [List.cons_append, List.nil_append, bitsBytes]
    rw [hb, ih]

theorem decode_encode (bs : Bytes) : decode ((encode bs).map fun c => toUpper (toLower c)) = some bs := by
  obtain ⟨z, hz, h⟩ := textBits_encodeBits (bs.flatMap byteBits)
  rw [decode, encode, h]
  simp only
  rw [bitsBytes_bits _ _ (by simp; omega)]
  simp [hz]

theorem digit_not_dash : ∀ a b c d e : Bool, toLower (digit (bitsNat [a, b, c, d, e])) ≠ 45 := by decide +kernel

theorem encodeBits_not_dash (l : List Bool) : ∀ c ∈ (encodeBits l).map toLower, c ≠ 45 := by
  have one : ∀ a b c d e : Bool, ∀ x ∈ [digit (bitsNat [a, b, c, d, e])].map toLower, x ≠ 45 := by
    intro a b c d e x hx
    simp at hx
    exact hx ▸ digit_not_dash a b c d e
  induction l using encodeBits.induct with
  | case1 => simp [encodeBits]
  | case2 a => exact one a false false false false
  | case3 a b => exact one a b false false false
  | case4 a b c => exact one a b c false false
  | case5 a b c d => exact one a b c d false
  | case6 a b c d e l ih =>
    intro x hx
    rw [encodeBits, List.map_cons] at hx
    rcases List.mem_cons.mp hx with rfl | hx
    · exact digit_not_dash a b c d e
    · exact ih x hx

theorem dashed_filter (s : Bytes) (h : ∀ c ∈ s, c ≠ 45) : (dashed s).filter (· ≠ 45) = s := by
  induction hn : s.length using Nat.strongRecOn generalizing s with
  | ind n ih =>
    rw [dashed_eq]
    split
    · exact List.filter_eq_self.mpr (by simpa using h)
    · next h5 =>
      rw [List.filter_append, List.filter_cons_of_neg (by simp),
        ih (s.drop 5).length (by simp; omega) _ (fun c hc => h c (List.mem_of_mem_drop hc)) rfl,
        List.filter_eq_self.mpr (by simpa using fun c hc => h c (List.mem_of_mem_take hc)), List.take_append_drop]

theorem upper_lower : ∀ c, toUpper (toLower c) = toUpper c := by
  apply u8_all
  decide +kernel

theorem upper_dash : ∀ c, (toUpper c = 45 ↔ c = 45) := by
  apply u8_all
  decide +kernel

/-- `Principal::from_text` accepts exactly the principals' texts, in any case. -/
theorem fromText_iff (t p : Bytes) : fromText t = some p ↔ p.length ≤ 29 ∧ t.map toLower = toText p := by
  constructor
  · intro h
    unfold fromText at h
    split at h
    · simp at h
    · next bs _ =>
      split at h
      · simp at h
      · split at h
        · simp at h
        · next h29 =>
          split at h
          · simp at h
          · split at h
            · simp at h
            · next ht =>
              cases h
              exact ⟨by omega, by simpa using ht⟩
  · rintro ⟨hp, ht⟩
    have h1 : (t.map toUpper).filter (· ≠ 45) = (encode (crcBytes p ++ p)).map fun c => toUpper (toLower c) := by
      have : t.map toUpper = (t.map toLower).map toUpper := by simp [upper_lower]
      rw [this, ht, List.filter_map]
      have : ((fun x : UInt8 => decide (x ≠ 45)) ∘ toUpper) = fun x => decide (x ≠ 45) := by
        funext c
        simp [upper_dash]
      rw [this, toText, encode, dashed_filter _ (encodeBits_not_dash _), List.map_map]
      rfl
    have hl : (crcBytes p).length = 4 := rfl
    unfold fromText
    rw [h1, decode_encode]
    simp only
    rw [List.drop_left' hl, List.take_left' hl, if_neg (by simp [hl]), if_neg (by omega), if_neg (by simp), if_neg (by simp [ht])]

theorem fromText_spec (t p : Bytes) : fromText t = some p ↔ IsPrincipalText p (t.map toLower) := by
  rw [fromText_iff, isPrincipalText_iff]

end Siwe.PrincipalText
