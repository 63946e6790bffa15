import Verif.Model.Der
import Verif.Spec.Der
import Mathlib.Tactic.NormNum
/- The parser of DER accepts the sequences of values of X.690. -/
namespace Siwe.Der
open Siwe.Spec

theorem base128_iff (bs : Bytes) : ∀ acc v rest, base128 acc bs = some (v, rest) ↔
    ∃ ds : Bytes, ∃ last : UInt8, (∀ d ∈ ds, 128 ≤ d.toNat) ∧ last.toNat < 128 ∧ bs = ds ++ last :: rest ∧
      v = (ds ++ [last]).foldl (fun n d => n * 128 + d.toNat % 128) acc := by
  induction bs with
  | nil => intro acc v rest; simp [base128]
  | cons b bs ih =>
    intro acc v rest
    have hb : (b < 128) ↔ b.toNat < 128 := Iff.rfl
    have h256 := b.toNat_lt
    unfold base128
    by_cases hlt : b < 128
    · simp only [if_pos hlt, Option.some.injEq, Prod.mk.injEq]
      constructor
      · rintro ⟨rfl, rfl⟩
        exact ⟨[], b, by simp, hb.1 hlt, rfl, by simp [Nat.mod_eq_of_lt (hb.1 hlt)]⟩
      · rintro ⟨ds, last, h1, h2, h3, h4⟩
        cases ds with
        | nil =>
          simp only [List.nil_append, List.cons.injEq] at h3
          obtain ⟨rfl, rfl⟩ := h3
          refine ⟨?_, rfl⟩
          rw [h4]; simp [Nat.mod_eq_of_lt h2]
        | cons d ds =>
          simp only [List.cons_append, List.cons.injEq] at h3
          have := h1 d (by simp)
          rw [← h3.1] at this
          have := hb.1 hlt
          omega
    · simp only [if_neg hlt, ih]
      have hge : 128 ≤ b.toNat := Nat.le_of_not_lt (fun h => hlt (hb.2 h))
      have hm : b.toNat % 128 = b.toNat - 128 := by omega
      constructor
      · rintro ⟨ds, last, h1, h2, h3, h4⟩
        refine ⟨b :: ds, last, ?_, h2, by rw [h3]; rfl, ?_⟩
        · intro d hd
          rcases List.mem_cons.1 hd with rfl | hd
          · exact hge
          · exact h1 d hd
        · rw [h4, List.cons_append, List.foldl_cons, hm]
      · rintro ⟨ds, last, h1, h2, h3, h4⟩
        cases ds with
        | nil =>
          simp only [List.nil_append, List.cons.injEq] at h3
          rw [← h3.1] at h2
          omega
        | cons d ds =>
          simp only [List.cons_append, List.cons.injEq] at h3
          obtain ⟨rfl, h3⟩ := h3
          refine ⟨ds, last, fun d hd => h1 d (List.mem_cons_of_mem _ hd), h2, h3, ?_⟩
          rw [h4, List.cons_append, List.foldl_cons, hm]

theorem decodeTag_iff (bs : Bytes) (cls tag : Nat) (rest : Bytes) :
    decodeTag bs = some (cls, tag, rest) ↔ ∃ idn, IsIdentifier idn cls tag ∧ bs = idn ++ rest := by
  cases bs with
  | nil =>
    simp only [decodeTag]
    constructor
    · intro h; cases h
    · rintro ⟨idn, h1, h2⟩
      cases h1 <;> simp at h2
  | cons b bs =>
    have h32 : b.toNat % 32 < 32 := Nat.mod_lt _ (by decide)
    simp only [decodeTag]
    by_cases hb : b.toNat % 32 = 31
    · rw [if_pos hb]
      constructor
      · intro h
        cases hd : base128 0 bs with
        | none => rw [hd] at h; cases h
        | some p =>
          obtain ⟨v, r⟩ := p
          rw [hd] at h
          simp only [Option.some.injEq, Prod.mk.injEq] at h
          obtain ⟨rfl, rfl, rfl⟩ := h
          obtain ⟨ds, last, h1, h2, h3, h4⟩ := (base128_iff bs 0 v r).1 hd
          refine ⟨b :: (ds ++ [last]), ?_, by rw [h3]; simp⟩
          rw [h4]
          exact .high b ds last hb h1 h2
      · rintro ⟨idn, h1, h2⟩
        cases h1 with
        | low b' h' =>
          simp only [List.cons_append, List.cons.injEq] at h2
          obtain ⟨rfl, -⟩ := h2
          omega
        | high b' ds last h' h1 h3 =>
          simp only [List.cons_append, List.cons.injEq] at h2
          obtain ⟨rfl, h2⟩ := h2
          have := (base128_iff bs 0 (base128Value (ds ++ [last])) rest).2 ⟨ds, last, h1, h3, by rw [h2]; simp, rfl⟩
          rw [this]
    · rw [if_neg hb]
      simp only [Option.some.injEq, Prod.mk.injEq]
      constructor
      · rintro ⟨rfl, rfl, rfl⟩
        exact ⟨[b], .low b (by omega), rfl⟩
      · rintro ⟨idn, h1, h2⟩
        cases h1 with
        | low b' h' =>
          simp only [List.cons_append, List.nil_append, List.cons.injEq] at h2
          obtain ⟨rfl, rfl⟩ := h2
          exact ⟨rfl, rfl, rfl⟩
        | high b' ds last h' h1 h3 =>
          simp only [List.cons_append, List.cons.injEq] at h2
          obtain ⟨rfl, -⟩ := h2
          exact absurd h' hb

theorem lengthBytes_iff (n : Nat) : ∀ acc bs v rest, lengthBytes n acc bs = some (v, rest) ↔
    ∃ ds : Bytes, ds.length = n ∧ bs = ds ++ rest ∧ v = ds.foldl (fun n d => n * 256 + d.toNat) acc := by
  induction n with
  | zero =>
    intro acc bs v rest
    simp only [lengthBytes, Option.some.injEq, Prod.mk.injEq]
    constructor
    · rintro ⟨rfl, rfl⟩; exact ⟨[], rfl, rfl, rfl⟩
    · rintro ⟨ds, h1, h2, h3⟩
      obtain rfl := List.length_eq_zero_iff.1 h1
      exact ⟨h3.symm, h2⟩
  | succ n ih =>
    intro acc bs v rest
    cases bs with
    | nil =>
      simp only [lengthBytes]
      constructor
      · intro h; cases h
      · rintro ⟨ds, h1, h2, -⟩
        cases ds with
        | nil => cases h1
        | cons => cases h2
    | cons b bs =>
      simp only [lengthBytes, ih]
      constructor
      · rintro ⟨ds, h1, h2, h3⟩
        exact ⟨b :: ds, by simp [h1], by simp [h2], h3⟩
      · rintro ⟨ds, h1, h2, h3⟩
        cases ds with
        | nil => cases h1
        | cons d ds =>
          simp only [List.cons_append, List.cons.injEq] at h2
          obtain ⟨rfl, h2⟩ := h2
          exact ⟨ds, by simpa using h1, h2, h3⟩

theorem decodeLength_iff (bs : Bytes) (len : Nat) (rest : Bytes) :
    decodeLength bs = some (len, rest) ↔ ∃ l, IsLength l len ∧ bs = l ++ rest := by
  cases bs with
  | nil =>
    simp only [decodeLength]
    constructor
    · intro h; cases h
    · rintro ⟨l, h1, h2⟩
      cases h1 <;> simp at h2
  | cons b bs =>
    have hb : (b < 128) ↔ b.toNat < 128 := Iff.rfl
    simp only [decodeLength]
    by_cases hlt : b < 128
    · have hlt' := hb.1 hlt
      simp only [if_pos hlt, Option.some.injEq, Prod.mk.injEq]
      constructor
      · rintro ⟨rfl, rfl⟩; exact ⟨[b], .short b hlt', rfl⟩
      · rintro ⟨l, h1, h2⟩
        cases h1 with
        | short b' h' =>
          simp only [List.cons_append, List.nil_append, List.cons.injEq] at h2
          obtain ⟨rfl, rfl⟩ := h2
          exact ⟨rfl, rfl⟩
        | long b' ds h' h3 =>
          simp only [List.cons_append, List.cons.injEq] at h2
          obtain ⟨rfl, -⟩ := h2
          omega
    · have hge : 128 ≤ b.toNat := Nat.le_of_not_lt (fun h => hlt (hb.2 h))
      simp only [if_neg hlt]
      by_cases h4 : 4 < b.toNat - 128
      · rw [if_pos h4]
        constructor
        · intro h; cases h
        · rintro ⟨l, h1, h2⟩
          cases h1 with
          | short b' h' =>
            simp only [List.cons_append, List.nil_append, List.cons.injEq] at h2
            obtain ⟨rfl, -⟩ := h2
            omega
          | long b' ds h' h3 =>
            simp only [List.cons_append, List.cons.injEq] at h2
            obtain ⟨rfl, -⟩ := h2
            omega
      · rw [if_neg h4, lengthBytes_iff]
        constructor
        · rintro ⟨ds, h1, h2, h3⟩
          refine ⟨b :: ds, ?_, by rw [h2]; rfl⟩
          rw [h3]
          exact .long b ds (by omega) (by omega)
        · rintro ⟨l, h1, h2⟩
          cases h1 with
          | short b' h' =>
            simp only [List.cons_append, List.nil_append, List.cons.injEq] at h2
            obtain ⟨rfl, -⟩ := h2
            omega
          | long b' ds h' h3 =>
            simp only [List.cons_append, List.cons.injEq] at h2
            obtain ⟨rfl, h2⟩ := h2
            exact ⟨ds, by omega, h2, rfl⟩

theorem base128_none (bs : Bytes) : ∀ acc, base128 acc bs = none ↔ ∀ d ∈ bs, 128 ≤ d.toNat := by
  induction bs with
  | nil => intro acc; simp [base128]
  | cons b bs ih =>
    intro acc
    have hb : (b < 128) ↔ b.toNat < 128 := Iff.rfl
    unfold base128
    by_cases hlt : b < 128
    · have := hb.1 hlt
      simp only [if_pos hlt, List.mem_cons, forall_eq_or_imp]
      constructor
      · intro h; cases h
      · intro h; omega
    · have : 128 ≤ b.toNat := Nat.le_of_not_lt (fun h => hlt (hb.2 h))
      simp [if_neg hlt, ih, this]

theorem components_iff (n : Nat) : ∀ bs : Bytes, bs.length ≤ n →
    (components n bs = true ↔ ∀ d, bs.getLast? = some d → d.toNat < 128) := by
  induction n with
  | zero =>
    intro bs h
    obtain rfl := List.length_eq_zero_iff.1 (Nat.le_zero.1 h)
    simp [components]
  | succ n ih =>
    intro bs h
    cases bs with
    | nil => simp [components]
    | cons b bs =>
      simp only [components]
      cases hd : base128 0 (b :: bs) with
      | none =>
        have hall := (base128_none _ _).1 hd
        simp only [Bool.false_eq_true, false_iff]
        intro hl
        have h1 : (b :: bs).getLast? = some ((b :: bs).getLast (by simp)) := List.getLast?_eq_some_getLast _
        have := hl _ h1
        have := hall _ (List.getLast_mem (l := b :: bs) (by simp))
        omega
      | some p =>
        obtain ⟨v, rest⟩ := p
        obtain ⟨ds, last, h1, h2, h3, -⟩ := (base128_iff _ _ _ _).1 hd
        have hlen : rest.length ≤ n := by
          have := congrArg List.length h3
          simp at this h
          omega
        simp only
        rw [ih rest hlen, h3]
        cases rest with
        | nil => simp [h2]
        | cons r rs =>
          have : (ds ++ last :: r :: rs).getLast? = (r :: rs).getLast? := by
            rw [show ds ++ last :: r :: rs = (ds ++ [last]) ++ (r :: rs) by simp, List.getLast?_append]
            rw [List.getLast?_eq_some_getLast (l := r :: rs) (by simp)]
            rfl
          rw [this]

theorem contents_iff (texts : Nat → Bytes → Bool) (nested : Bytes → Bool) (tag : Nat) (body : Bytes) :
    contents texts nested tag body = true ↔
      ContentsOk (fun t b => texts t b = true) tag body ∧ (tag = 16 ∨ tag = 17 → nested body = true) := by
  have key : ∀ {P : Prop}, (ContentsOk (fun t b => texts t b = true) tag body ↔ P) →
      (contents texts nested tag body = true ↔ P ∧ (tag = 16 ∨ tag = 17 → nested body = true)) →
      (contents texts nested tag body = true ↔
      ContentsOk (fun t b => texts t b = true) tag body ∧ (tag = 16 ∨ tag = 17 → nested body = true)) := by
    intro P h1 h2; rw [h1, h2]
  by_cases h1 : tag = 1
  · subst h1
    refine key (P := body.length = 1) ⟨fun h => h.boolean rfl, fun h => ⟨fun _ => h, by simp, by simp, by simp⟩⟩ ?_
    simp [contents]
  by_cases h3 : tag = 3
  · subst h3
    refine key (P := ∀ b bs, body = b :: bs → b.toNat ≤ 8 * bs.length)
      ⟨fun h => h.bitString rfl, fun h => ⟨by simp, fun _ => h, by simp, by simp⟩⟩ ?_
    cases body with
    | nil => simp [contents, bitString]
    | cons b bs =>
      simp only [contents, bitString]
      simp [Nat.mul_comm]
  by_cases h6 : tag = 6
  · subst h6
    refine key (P := ∃ b bs, body = b :: bs ∧ ∀ d, bs.getLast? = some d → d.toNat < 128)
      ⟨fun h => h.objectId rfl, fun h => ⟨by simp, by simp, fun _ => h, by simp⟩⟩ ?_
    cases body with
    | nil => simp [contents, objectIdentifier]
    | cons b bs =>
      have := components_iff bs.length bs (Nat.le_refl _)
      have e : contents texts nested 6 (b :: bs) = components bs.length bs := rfl
      rw [e, this]
      constructor
      · intro h; exact ⟨⟨b, bs, rfl, h⟩, by simp⟩
      · rintro ⟨⟨b', bs', e', h⟩, -⟩
        obtain ⟨-, rfl⟩ := List.cons.inj e'
        exact h
  by_cases hs : tag = 16 ∨ tag = 17
  · refine key (P := True) ⟨fun _ => trivial, fun _ => ⟨fun h => absurd h h1, fun h => absurd h h3, fun h => absurd h h6, ?_⟩⟩ ?_
    · intro h
      rcases hs with rfl | rfl <;> simp at h
    · simp only [contents, if_neg h1, if_neg h3, if_neg h6, if_pos hs, true_and]
      exact ⟨fun h _ => h, fun h => h hs⟩
  by_cases ht : tag ∈ [12, 19, 20, 22, 23, 24, 28, 30]
  · refine key (P := texts tag body = true)
      ⟨fun h => h.text ht, fun h => ⟨fun h' => absurd h' h1, fun h' => absurd h' h3, fun h' => absurd h' h6, fun _ => h⟩⟩ ?_
    simp only [contents, if_neg h1, if_neg h3, if_neg h6, if_neg hs, if_pos ht]
    exact ⟨fun h => ⟨h, fun h' => absurd h' hs⟩, fun h => h.1⟩
  · refine key (P := True) ⟨fun _ => trivial, fun _ => ⟨fun h => absurd h h1, fun h => absurd h h3, fun h => absurd h h6,
      fun h => absurd h ht⟩⟩ ?_
    simp only [contents, if_neg h1, if_neg h3, if_neg h6, if_neg hs, if_neg ht]
    exact ⟨fun _ => ⟨trivial, fun h' => absurd h' hs⟩, fun _ => trivial⟩

theorem identifier_pos {idn : Bytes} {c t : Nat} (h : IsIdentifier idn c t) : 0 < idn.length := by
  cases h <;> simp

theorem values_iff (texts : Nat → Bytes → Bool) (n : Nat) : ∀ bs : Bytes, bs.length ≤ n →
    (values texts n bs = true ↔ IsValues (fun t b => texts t b = true) bs) := by
  induction n with
  | zero =>
    intro bs h
    obtain rfl := List.length_eq_zero_iff.1 (Nat.le_zero.1 h)
    exact ⟨fun _ => .nil, fun _ => rfl⟩
  | succ n ih =>
    intro bs h
    cases bs with
    | nil => exact ⟨fun _ => .nil, fun _ => rfl⟩
    | cons b bs =>
      constructor
      · intro hv
        simp only [values] at hv
        cases ht : decodeTag (b :: bs) with
        | none => rw [ht] at hv; cases hv
        | some p =>
          obtain ⟨cls, tag, r1⟩ := p
          rw [ht] at hv
          simp only at hv
          cases hl : decodeLength r1 with
          | none => rw [hl] at hv; cases hv
          | some q =>
            obtain ⟨len, r2⟩ := q
            rw [hl] at hv
            simp only at hv
            obtain ⟨idn, hi, hb⟩ := (decodeTag_iff _ _ _ _).1 ht
            obtain ⟨l, hl', hr⟩ := (decodeLength_iff _ _ _).1 hl
            split at hv
            · cases hv
            · rename_i hlen
              split at hv
              · cases hv
              · rename_i hc
                have hpos := identifier_pos hi
                have htot : idn.length + (l.length + r2.length) ≤ n + 1 := by
                  have := congrArg List.length hb
                  rw [hr] at this
                  simp only [List.length_append] at this
                  omega
                have hbl : (r2.take len).length = len := by rw [List.length_take]; omega
                have e : b :: bs = idn ++ l ++ r2.take len ++ r2.drop len := by
                  rw [hb, hr]; simp
                rw [e]
                have hcont : cls = 0 → contents texts (values texts n) tag (r2.take len) = true := by
                  intro h0
                  cases hcc : contents texts (values texts n) tag (r2.take len)
                  · exact absurd ⟨h0, hcc⟩ hc
                  · rfl
                refine .cons cls tag idn l _ _ hi (by rw [hbl]; exact hl') ?_ ?_ ?_
                · intro h0; exact ((contents_iff _ _ _ _).1 (hcont h0)).1
                · intro h0 h16
                  exact (ih _ (by rw [hbl]; omega)).1 (((contents_iff _ _ _ _).1 (hcont h0)).2 h16)
                · exact (ih _ (by rw [List.length_drop]; omega)).1 hv
      · intro hv
        generalize hbb : b :: bs = w at hv h
        cases hv with
        | nil => cases hbb
        | cons cls tag idn l body rest hi hl hc hn hr =>
          have ht := (decodeTag_iff (idn ++ l ++ body ++ rest) cls tag (l ++ body ++ rest)).2 ⟨idn, hi, by simp⟩
          have hl2 := (decodeLength_iff (l ++ body ++ rest) body.length (body ++ rest)).2 ⟨l, hl, by simp⟩
          have hpos := identifier_pos hi
          have hlen : body.length ≤ n ∧ rest.length ≤ n := by
            simp only [List.length_append] at h
            omega
          rw [← hbb] at ht ⊢
          simp only [values, ht, hl2]
          rw [if_neg (by simp), if_neg, List.drop_left]
          · exact (ih _ hlen.2).2 hr
          · rintro ⟨h0, hcc⟩
            rw [List.take_left] at hcc
            rw [(contents_iff _ _ _ _).2 ⟨hc h0, fun h16 => (ih _ hlen.1).2 (hn h0 h16)⟩] at hcc
            cases hcc

theorem fromDer_iff (texts : Nat → Bytes → Bool) (bs : Bytes) :
    fromDer texts bs = true ↔ bs ≠ [] ∧ IsValues (fun t b => texts t b = true) bs := by
  rw [fromDer, Bool.and_eq_true, values_iff texts bs.length bs (Nat.le_refl _)]
  simp

/-- What follows a value does not change whether it is accepted. -/
theorem values_append {P : Nat → Bytes → Prop} {a b : Bytes} (ha : IsValues P a) (hb : IsValues P b) : IsValues P (a ++ b) := by
  induction ha with
  | nil => exact hb
  | cons cls tag idn len body rest h1 h2 h3 h4 _ _ ih =>
    rw [List.append_assoc]
    exact .cons cls tag idn len body _ h1 h2 h3 h4 ih

/-- The parts of the first value of a sequence are determined. -/
theorem values_head {P : Nat → Bytes → Prop} {idn len body rest : Bytes} {cls tag : Nat} (hi : IsIdentifier idn cls tag)
    (hl : IsLength len body.length) (h : IsValues P (idn ++ len ++ body ++ rest)) : IsValues P rest := by
  generalize hw : idn ++ len ++ body ++ rest = w at h
  cases h with
  | nil =>
    have := identifier_pos hi
    have := congrArg List.length hw
    simp only [List.length_append, List.length_nil] at this
    omega
  | cons cls' tag' idn' len' body' rest' hi' hl' _ _ hr' =>
    have e1 := (decodeTag_iff _ cls tag (len ++ (body ++ rest))).2 ⟨idn, hi, rfl⟩
    have e2 := (decodeTag_iff _ cls' tag' (len' ++ (body' ++ rest'))).2 ⟨idn', hi', rfl⟩
    simp only [List.append_assoc] at hw
    rw [hw, e2] at e1
    simp only [Option.some.injEq, Prod.mk.injEq] at e1
    have f1 := (decodeLength_iff _ body.length (body ++ rest)).2 ⟨len, hl, rfl⟩
    have f2 := (decodeLength_iff _ body'.length (body' ++ rest')).2 ⟨len', hl', rfl⟩
    rw [← e1.2.2, f2] at f1
    simp only [Option.some.injEq, Prod.mk.injEq] at f1
    rw [← (List.append_inj f1.2 f1.1).2]
    exact hr'

/-- A sequence of values that begins like a value reaches to its end. -/
theorem values_prefix {P : Nat → Bytes → Prop} {idn len body a b : Bytes} {cls tag : Nat} (hi : IsIdentifier idn cls tag)
    (hl : IsLength len body.length) (h : IsValues P a) (ha : a ≠ []) (e : a ++ b = idn ++ len ++ body) : b = [] := by
  cases h with
  | nil => exact absurd rfl ha
  | cons cls' tag' idn' len' body' rest' hi' hl' _ _ hr' =>
    have e1 := (decodeTag_iff _ cls tag (len ++ body)).2 ⟨idn, hi, rfl⟩
    have e2 := (decodeTag_iff _ cls' tag' (len' ++ (body' ++ (rest' ++ b)))).2 ⟨idn', hi', rfl⟩
    simp only [List.append_assoc] at e
    rw [← e, e2] at e1
    simp only [Option.some.injEq, Prod.mk.injEq] at e1
    have f1 := (decodeLength_iff _ body.length body).2 ⟨len, hl, rfl⟩
    have f2 := (decodeLength_iff _ body'.length (body' ++ (rest' ++ b))).2 ⟨len', hl', rfl⟩
    rw [← e1.2.2, f2] at f1
    simp only [Option.some.injEq, Prod.mk.injEq] at f1
    have := congrArg List.length f1.2
    simp only [List.length_append] at this
    exact List.length_eq_zero_iff.1 (by omega)

theorem tlv_parts {tag : UInt8} {body bs : Bytes} (h : IsTlv tag body bs) (hs : bs.length < 2 ^ 32) (ht : tag.toNat % 32 < 31) :
    ∃ len, IsIdentifier [tag] (tag.toNat / 64) (tag.toNat % 32) ∧ IsLength len body.length ∧ bs = [tag] ++ len ++ body := by
  rcases h with ⟨h1, rfl⟩ | ⟨_, ds, h2, h3, rfl⟩
  · refine ⟨[UInt8.ofNat body.length], .low tag ht, ?_, rfl⟩
    have e : (UInt8.ofNat body.length).toNat = body.length := by rw [UInt8.toNat_ofNat']; omega
    have := IsLength.short (UInt8.ofNat body.length) (by omega)
    rwa [e] at this
  · have hlen : ds.length ≤ 4 := by
      cases ds with
      | nil => simp
      | cons d ds =>
        by_contra hc
        have hd : 1 ≤ d.toNat := by
          rcases Nat.eq_zero_or_pos d.toNat with h0 | h0
          · exact absurd (by rw [List.head?_cons, show d = 0 from UInt8.toNat_inj.1 h0]) h2
          · exact h0
        have grow : ∀ (l : Bytes) (a : Nat), a * 256 ^ l.length ≤ l.foldl (fun n d => n * 256 + d.toNat) a := by
          intro l
          induction l with
          | nil => intro a; simp
          | cons x xs ih =>
            intro a
            refine Nat.le_trans ?_ (ih _)
            rw [List.length_cons, Nat.pow_succ, Nat.mul_comm (256 ^ xs.length) 256, ← Nat.mul_assoc]
            exact Nat.mul_le_mul_right _ (Nat.le_add_right (a * 256) x.toNat)
        have g := grow ds (0 * 256 + d.toNat)
        have e : base256Value (d :: ds) = ds.foldl (fun n d => n * 256 + d.toNat) (0 * 256 + d.toNat) := rfl
        rw [← e, h3] at g
        have h4 : 256 ^ 4 ≤ 256 ^ ds.length := Nat.pow_le_pow_right (by decide) (by simp at hc; omega)
        have h5 : 256 ^ ds.length ≤ (0 * 256 + d.toNat) * 256 ^ ds.length := Nat.le_mul_of_pos_left _ (by omega)
        simp only [List.length_cons, List.length_append] at hs
        norm_num at h4 hs
        omega
    refine ⟨UInt8.ofNat (128 + ds.length) :: ds, .low tag ht, ?_, by simp⟩
    rw [← h3]
    exact .long _ ds hlen (by rw [UInt8.toNat_ofNat']; omega)

theorem tlv_length {tag : UInt8} {body bs : Bytes} (h : IsTlv tag body bs) : body.length + 2 ≤ bs.length := by
  rcases h with ⟨h1, rfl⟩ | ⟨_, ds, h2, h3, rfl⟩ <;> simp

/-- Public keys are single values. -/
theorem publicKey_values {P : Nat → Bytes → Prop} {bs : Bytes} (h : IsPublicKey P bs) : IsValues P bs := by
  obtain ⟨first, comps, params, key, oid, alg, bits, hc, hp, ho, ha, hb, hw, hs⟩ := h
  have l1 := tlv_length hw
  have l2 := tlv_length ha
  simp only [List.length_append] at l1 l2
  have one : ∀ {tag : UInt8} {body w : Bytes}, IsTlv tag body w → w.length < 2 ^ 32 → tag.toNat % 32 < 31 →
      ContentsOk P (tag.toNat % 32) body → (tag.toNat % 32 = 16 ∨ tag.toNat % 32 = 17 → IsValues P body) → IsValues P w := by
    intro tag body w h1 h2 h3 h4 h5
    obtain ⟨len, g1, g2, g3⟩ := tlv_parts h1 h2 h3
    rw [g3, ← List.append_nil ([tag] ++ len ++ body)]
    exact .cons _ _ _ _ _ _ g1 g2 (fun _ => h4) (fun _ => h5) .nil
  have v1 : IsValues P oid := one ho (by omega) (by decide)
    ⟨fun h => absurd h (by decide), fun h => absurd h (by decide), fun _ => ⟨first, comps, rfl, hc⟩, fun h => absurd h (by decide)⟩
    (fun h => absurd h (by decide))
  have v2 : IsValues P alg := one ha (by omega) (by decide)
    ⟨fun h => absurd h (by decide), fun h => absurd h (by decide), fun h => absurd h (by decide), fun h => absurd h (by decide)⟩
    (fun _ => values_append v1 hp)
  have v3 : IsValues P bits := one hb (by omega) (by decide)
    ⟨fun h => absurd h (by decide), fun _ => (by
      intro b bs e
      obtain ⟨rfl, rfl⟩ := List.cons.inj e
      exact Nat.zero_le _), fun h => absurd h (by decide), fun h => absurd h (by decide)⟩
    (fun h => absurd h (by decide))
  exact one hw hs (by decide)
    ⟨fun h => absurd h (by decide), fun h => absurd h (by decide), fun h => absurd h (by decide), fun h => absurd h (by decide)⟩
    (fun _ => values_append v2 v3)

theorem publicKey_parts {P : Nat → Bytes → Prop} {bs : Bytes} (h : IsPublicKey P bs) :
    ∃ len body, IsIdentifier [48] 0 16 ∧ IsLength len body.length ∧ bs = [48] ++ len ++ body := by
  obtain ⟨_, _, _, _, _, alg, bits, _, _, _, _, _, hw, hs⟩ := h
  obtain ⟨len, h1, h2, h3⟩ := tlv_parts hw hs (by decide)
  exact ⟨len, _, h1, h2, h3⟩

theorem ed25519_publicKey (P : Nat → Bytes → Prop) {bs : Bytes} (h : IsEd25519Key bs) : IsPublicKey P bs := by
  obtain ⟨key, hk, rfl⟩ := h
  refine ⟨0x2b, [0x65, 0x70], [], key, [0x06, 0x03, 0x2b, 0x65, 0x70], [0x30, 0x05, 0x06, 0x03, 0x2b, 0x65, 0x70],
    [0x03, 0x21, 0x00] ++ key, (by simp), .nil, .inl ⟨by decide, rfl⟩, .inl ⟨by decide, rfl⟩, .inl ⟨?_, ?_⟩, .inl ⟨?_, ?_⟩, ?_⟩ <;> simp [hk]

theorem p256_publicKey (P : Nat → Bytes → Prop) {bs : Bytes} (h : IsP256Key bs) : IsPublicKey P bs := by
  obtain ⟨key, hk, rfl⟩ := h
  have hp : IsValues P [0x06, 0x08, 0x2a, 0x86, 0x48, 0xce, 0x3d, 0x03, 0x01, 0x07] :=
    .cons 0 6 [0x06] [0x08] [0x2a, 0x86, 0x48, 0xce, 0x3d, 0x03, 0x01, 0x07] [] (.low 6 (by decide)) (.short 8 (by decide))
      (fun _ => ⟨fun h => absurd h (by decide), fun h => absurd h (by decide), fun _ => ⟨_, _, rfl, (by simp)⟩, fun h => absurd h (by decide)⟩)
      (fun _ h => absurd h (by decide)) .nil
  refine ⟨0x2a, [0x86, 0x48, 0xce, 0x3d, 0x02, 0x01], _, key, [0x06, 0x07, 0x2a, 0x86, 0x48, 0xce, 0x3d, 0x02, 0x01],
    [0x30, 0x13, 0x06, 0x07, 0x2a, 0x86, 0x48, 0xce, 0x3d, 0x02, 0x01, 0x06, 0x08, 0x2a, 0x86, 0x48, 0xce, 0x3d, 0x03, 0x01, 0x07],
    [0x03, 0x42, 0x00] ++ key, (by simp), hp, .inl ⟨by decide, rfl⟩, .inl ⟨by decide, rfl⟩, .inl ⟨?_, ?_⟩, .inl ⟨?_, ?_⟩, ?_⟩ <;> simp [hk]

end Siwe.Der
