import Verif.Spec.Encoding
import Verif.Lemmas.Hex
/- LEB128: the loop of `hash_u64` against the decoder-side specification. -/
namespace Siwe
open Spec

/-- No shorter encoding: one byte, or a non-zero last byte. -/
def MinimalLeb (bs : Bytes) : Prop := bs.length = 1 ∨ bs.getLast? ≠ some 0

theorem u64_low7 (n : UInt64) : ((n &&& 0x7f).toUInt8).toNat = n.toNat % 128 := by
  have h : (n &&& 0x7f).toNat = n.toNat % 128 := by
    rw [UInt64.toNat_and]
    exact Nat.and_two_pow_sub_one_eq_mod n.toNat 7
  rw [UInt64.toNat_toUInt8, h]
  omega

theorem u64_shift7 (n : UInt64) : (n >>> 7).toNat = n.toNat / 128 := by
  rw [UInt64.toNat_shiftRight]
  show n.toNat >>> 7 = _
  rw [Nat.shiftRight_eq_div_pow]

theorem u8_or80 : ∀ b : UInt8, b.toNat < 128 → (b ||| 0x80).toNat = b.toNat + 128 := by
  apply u8_all; decide +kernel

theorem leb_cons {n : Nat} {b : UInt8} {bs : Bytes} (hb : 128 ≤ b.toNat) (h : IsLeb128 n bs) :
    IsLeb128 (b.toNat % 128 + 128 * n) (b :: bs) := by
  obtain ⟨init, last, rfl, h1, h2, h3⟩ := h
  refine ⟨b :: init, last, by simp, ?_, h2, ?_⟩
  · intro x hx
    rcases List.mem_cons.mp hx with rfl | hx
    · exact hb
    · exact h1 x hx
  · rw [lebValue, h3]

theorem leb_go {ε : Type} : ∀ (fuel : Nat) (n : UInt64), 0 < fuel → n.toNat < 128 ^ fuel →
    ∃ bs, (lebGo fuel n : Res ε Bytes) = .ok bs ∧ IsLeb128 n.toNat bs ∧ bs.length ≤ fuel ∧ MinimalLeb bs
  | 0, _, h, _ => by omega
  | fuel + 1, n, _, hn => by
    have hlow := u64_low7 n
    have hsh := u64_shift7 n
    rw [lebGo]
    by_cases h0 : n >>> 7 = 0
    · have hz : n.toNat / 128 = 0 := by rw [← hsh, h0]; rfl
      refine ⟨[(n &&& 0x7f).toUInt8], by simp [h0], ⟨[], _, rfl, by simp, ?_, ?_⟩, by simp, .inl rfl⟩
      · omega
      · simp only [lebValue]; omega
    · have hz : n.toNat / 128 ≠ 0 := by
        rw [← hsh]
        intro h
        exact h0 (UInt64.toNat_inj.mp h)
      have hf : 0 < fuel := by
        rcases Nat.eq_zero_or_pos fuel with rfl | h
        · simp at hn; omega
        · exact h
      have hp : (n >>> 7).toNat < 128 ^ fuel := by
        rw [hsh, Nat.div_lt_iff_lt_mul (by omega)]
        rwa [Nat.pow_succ] at hn
      obtain ⟨bs, h1, h2, h3, h4⟩ := leb_go (ε := ε) fuel (n >>> 7) hf hp
      have hor := u8_or80 (n &&& 0x7f).toUInt8 (by omega)
      refine ⟨((n &&& 0x7f).toUInt8 ||| 0x80) :: bs, by simp [h0, h1], ?_, by simp; omega, .inr ?_⟩
      · have := leb_cons (b := (n &&& 0x7f).toUInt8 ||| 0x80) (by omega) h2
        have e : ((n &&& 0x7f).toUInt8 ||| 0x80).toNat % 128 + 128 * (n >>> 7).toNat = n.toNat := by
          rw [hor, hsh, hlow]; omega
        rwa [e] at this
      · obtain ⟨init, last, rfl, h5, h6, h7⟩ := h2
        rw [← List.cons_append, List.getLast?_concat, ne_eq, Option.some.injEq]
        rintro rfl
        rcases h4 with h4 | h4
        · have : init = [] := by
            cases init with
            | nil => rfl
            | cons x xs => simp at h4
          subst this
          simp only [List.nil_append, lebValue] at h7
          rw [hsh] at h7
          simp at h7
          omega
        · rw [List.getLast?_concat] at h4
          exact h4 rfl

theorem lebValue_zero_last {init : Bytes} {last : UInt8} (h : lebValue (init ++ [last]) = 0)
    (hl : last.toNat < 128) : last = 0 := by
  induction init with
  | nil =>
    simp only [List.nil_append, lebValue] at h
    apply UInt8.toNat_inj.mp
    show last.toNat = 0
    omega
  | cons b bs ih =>
    simp only [List.cons_append, lebValue] at h
    exact ih (by omega)

theorem leb_cases {n : Nat} {bs : Bytes} (h : IsLeb128 n bs) (hm : MinimalLeb bs) :
    (∃ last, bs = [last] ∧ last.toNat = n ∧ n < 128) ∨
    (∃ b rest, bs = b :: rest ∧ 128 ≤ b.toNat ∧ b.toNat % 128 = n % 128 ∧ IsLeb128 (n / 128) rest ∧
      MinimalLeb rest ∧ 128 ≤ n) := by
  obtain ⟨init, last, rfl, h1, h2, h3⟩ := h
  cases init with
  | nil =>
    left
    simp only [List.nil_append, lebValue] at h3
    exact ⟨last, rfl, by omega, by omega⟩
  | cons b init =>
    right
    have hl : last ≠ 0 := by
      rcases hm with hm | hm
      · simp at hm
      · rw [List.getLast?_concat] at hm
        simpa using hm
    simp only [List.cons_append, lebValue] at h3
    have hb := b.toNat_lt
    have hv : lebValue (init ++ [last]) ≠ 0 := fun h => hl (lebValue_zero_last h h2)
    refine ⟨b, init ++ [last], rfl, h1 b (by simp), by omega,
      ⟨init, last, rfl, fun x hx => h1 x (by simp [hx]), h2, by omega⟩, .inr ?_, by omega⟩
    rw [List.getLast?_concat]
    simpa using hl

theorem leb_unique : ∀ (bs bs' : Bytes) (n : Nat), IsLeb128 n bs → MinimalLeb bs → IsLeb128 n bs' →
    MinimalLeb bs' → bs = bs'
  | bs, bs', n, h, hm, h', hm' => by
    rcases leb_cases h hm with ⟨l, rfl, e1, _⟩ | ⟨b, rest, rfl, e1, e2, e3, e4, e5⟩
    · rcases leb_cases h' hm' with ⟨l', rfl, e1', _⟩ | ⟨b', rest', rfl, _, _, _, _, _⟩
      · rw [UInt8.toNat_inj.mp (e1.trans e1'.symm)]
      · omega
    · rcases leb_cases h' hm' with ⟨l', rfl, e1', _⟩ | ⟨b', rest', rfl, e1', e2', e3', e4', e5'⟩
      · omega
      · have := leb_unique rest rest' (n / 128) e3 e4 e3' e4'
        have hb := b.toNat_lt
        have hb' := b'.toNat_lt
        rw [this, UInt8.toNat_inj.mp (show b.toNat = b'.toNat by omega)]
termination_by bs => bs.length

theorem leb_value_unique {bs : Bytes} {n n' : Nat} (h : IsLeb128 n bs) (h' : IsLeb128 n' bs) : n = n' := by
  obtain ⟨_, _, _, _, _, h1⟩ := h
  obtain ⟨_, _, _, _, _, h2⟩ := h'
  omega

theorem lebValue_lt : ∀ bs : Bytes, lebValue bs < 128 ^ bs.length
  | [] => by simp [lebValue]
  | b :: bs => by
    have := lebValue_lt bs
    rw [lebValue, List.length_cons, Nat.pow_succ]
    omega

/-- A minimal encoding is no longer than any other. -/
theorem leb_minimal : ∀ (bs bs' : Bytes) (n : Nat), IsLeb128 n bs → MinimalLeb bs → IsLeb128 n bs' →
    bs.length ≤ bs'.length
  | bs, bs', n, h, hm, h' => by
    rcases leb_cases h hm with ⟨l, rfl, _, _⟩ | ⟨b, rest, rfl, e1, e2, e3, e4, e5⟩
    · obtain ⟨i, l, rfl, _⟩ := h'
      simp
    · obtain ⟨i, l, rfl, h1, h2, h3⟩ := h'
      cases i with
      | nil => simp only [List.nil_append, lebValue] at h3; omega
      | cons b' i =>
        simp only [List.cons_append, lebValue] at h3
        have := leb_minimal rest (i ++ [l]) (n / 128) e3 e4
          ⟨i, l, rfl, fun x hx => h1 x (by simp [hx]), h2, by omega⟩
        simp only [List.length_cons, List.cons_append] at *
        omega
termination_by bs => bs.length

end Siwe
