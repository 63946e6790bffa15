import Verif.Lemmas.CandidWire
/- Helper lemmas for C107: what is read is of the type it was sent at. -/
namespace Siwe.Candid.Wire
open Spec

theorem each_mem {α : Type} {R : α → Bytes → Prop} {as : List α} {b : Bytes} (h : Each R as b) : ∀ a ∈ as, ∃ b, R a b := by
  induction h with
  | nil => exact fun _ h => nomatch h
  | cons h1 _ ih =>
    intro x hx
    rcases List.mem_cons.1 hx with rfl | hx
    · exact ⟨_, h1⟩
    · exact ih x hx

theorem fieldBytes_mem {fs : List (UInt32 × Ref)} {b : Bytes} (h : Each FieldBytes fs b) : ∀ f ∈ fs, ∃ b, RefBytes f.2 b := by
  intro f hf
  obtain ⟨_, _, b, _, _, hb⟩ := each_mem h f hf
  exact ⟨b, hb⟩

theorem denotes_tidy {table : List Entry} {size : Nat} (hb : ∀ e ∈ table, ∃ b, EntryBytes e b) (ho : ∀ e ∈ table, EntryOk size e) :
    ∀ (t : Ty) (r : Ref), (∃ b, RefBytes r b) → Denotes table r t → Tidy t := by
  intro t
  induction t using Ty.rec (motive_2 := fun ts => ∀ fs : List (UInt32 × Ref), (∀ f ∈ fs, ∃ b, RefBytes f.2 b) →
    DenoteFields table fs ts → TidyFields ts ∧ ts.labels = fs.map (·.1)) with
  | prim p =>
    rintro r ⟨b, hr⟩ h
    rw [Denotes] at h
    subst h
    rw [Tidy]
    cases hr with
    | prim _ i _ h _ => exact ⟨i, h⟩
  | opt t ih =>
    rintro r - h
    rw [Denotes] at h
    obtain ⟨i, r', rfl, h1, h2⟩ := h
    obtain ⟨b, hb⟩ := hb _ (List.mem_of_getElem? h1)
    rw [Tidy]
    cases hb with
    | opt _ b hb => exact ih r' ⟨b, hb⟩ h2
  | vec t ih =>
    rintro r - h
    rw [Denotes] at h
    obtain ⟨i, r', rfl, h1, h2⟩ := h
    obtain ⟨b, hb⟩ := hb _ (List.mem_of_getElem? h1)
    rw [Tidy]
    cases hb with
    | vec _ b hb => exact ih r' ⟨b, hb⟩ h2
  | record ts ih =>
    rintro r - h
    rw [Denotes] at h
    obtain ⟨i, fs, rfl, h1, h2⟩ := h
    obtain ⟨b, hb⟩ := hb _ (List.mem_of_getElem? h1)
    have ho := ho _ (List.mem_of_getElem? h1)
    rw [Tidy]
    cases hb with
    | record _ l b hl _ hb =>
      obtain ⟨g1, g2⟩ := ih fs (fieldBytes_mem hb) h2
      exact ⟨by rw [g2]; exact ho.1, by rw [g2, List.length_map]; exact hl, g1⟩
  | variant ts ih =>
    rintro r - h
    rw [Denotes] at h
    obtain ⟨i, fs, rfl, h1, h2⟩ := h
    obtain ⟨b, hb⟩ := hb _ (List.mem_of_getElem? h1)
    have ho := ho _ (List.mem_of_getElem? h1)
    rw [Tidy]
    cases hb with
    | variant _ l b hl _ hb =>
      obtain ⟨g1, g2⟩ := ih fs (fieldBytes_mem hb) h2
      exact ⟨by rw [g2]; exact ho.1, by rw [g2, List.length_map]; exact hl, g1⟩
  | nil =>
    rename_i fs hf h
    rw [DenoteFields] at h
    subst h
    exact ⟨by rw [TidyFields]; trivial, rfl⟩
  | cons l t ts ih1 ih2 =>
    rename_i fs hf h
    rw [DenoteFields] at h
    obtain ⟨r, fs, rfl, h1, h2⟩ := h
    obtain ⟨g1, g2⟩ := ih2 fs (fun f hx => hf f (by simp [hx])) h2
    exact ⟨by rw [TidyFields]; exact ⟨ih1 r (hf (l, r) (by simp)) h1, g1⟩, by rw [Fields.labels, g2]; rfl⟩

theorem prim_typed {p : Prim} {v : Val} {b : Bytes} (h : PrimBytes p v b) : v.prim? = some p ∧ Fits v := by
  cases h with
  | null => exact ⟨rfl, .null⟩
  | nat n => exact ⟨rfl, .nat n⟩
  | nat8 n => exact ⟨rfl, .nat8 n⟩
  | nat32 n => exact ⟨rfl, .nat32 n⟩
  | nat64 n => exact ⟨rfl, .nat64 n⟩
  | text s l hu h => exact ⟨rfl, .text s hu h.2.2⟩
  | principal q l h => exact ⟨rfl, .principal q h⟩
  | other c b h => exact ⟨rfl, .other c b h⟩

theorem val_typed : ∀ (t : Ty), Tidy t → ∀ v b, ValBytes t v b → HasType t v ∧ Fits v := by
  intro t
  induction t using Ty.rec (motive_2 := fun fs => TidyFields fs → fs.labels.Pairwise (· < ·) →
    (∀ vs b, ValsBytes fs vs b → HasFields fs vs ∧ ∀ f ∈ vs, Fits f.2) ∧
    ∀ n v b, CaseBytes fs n v b → ∃ l w, v = .variant l w ∧ l ∈ fs.labels ∧ HasCase fs l w ∧ Fits w) with
  | prim p =>
    intro _ v b h
    rw [ValBytes] at h
    obtain ⟨h1, h2⟩ := prim_typed h
    exact ⟨by rw [HasType.eq_def]; exact h1, h2⟩
  | opt t ih =>
    intro ht v b h
    rw [Tidy] at ht
    rw [ValBytes] at h
    rcases h with ⟨rfl, _⟩ | ⟨w, b', rfl, _, h⟩
    · exact ⟨by rw [HasType.eq_def]; trivial, .none⟩
    · obtain ⟨h1, h2⟩ := ih ht w b' h
      exact ⟨by rw [HasType.eq_def]; exact h1, .some w h2⟩
  | vec t ih =>
    intro ht v b h
    rw [Tidy] at ht
    rw [ValBytes] at h
    obtain ⟨vs, l, b', rfl, _, hl, h⟩ := h
    have key : ∀ v ∈ vs, HasType t v ∧ Fits v := by
      intro v hv
      obtain ⟨b, hb⟩ := each_mem h v hv
      exact ih ht v b hb
    exact ⟨by rw [HasType.eq_def]; exact fun v hv => (key v hv).1, .vec vs hl.2.2 fun v hv => (key v hv).2⟩
  | record fs ih =>
    intro ht v b h
    rw [Tidy] at ht
    rw [ValBytes] at h
    obtain ⟨vs, rfl, h⟩ := h
    obtain ⟨h1, h2⟩ := (ih ht.2.2 ht.1).1 vs b h
    exact ⟨by rw [HasType.eq_def]; exact h1, .record vs h2⟩
  | variant fs ih =>
    intro ht v b h
    rw [Tidy] at ht
    rw [ValBytes] at h
    obtain ⟨n, l, b', _, _, h⟩ := h
    obtain ⟨k, w, rfl, _, h1, h2⟩ := (ih ht.2.2 ht.1).2 n v b' h
    exact ⟨by rw [HasType.eq_def]; exact h1, .variant k w h2⟩
  | nil =>
    refine ⟨fun vs b h => ?_, fun n v b h => ?_⟩
    · rw [ValsBytes] at h
      obtain ⟨rfl, _⟩ := h
      exact ⟨by rw [HasFields.eq_def], (fun _ h => nomatch h)⟩
    · rw [CaseBytes] at h
      exact h.elim
  | cons l t fs ih1 ih2 =>
    rename_i ht hp
    rw [TidyFields] at ht
    rw [Fields.labels, List.pairwise_cons] at hp
    obtain ⟨g1, g2⟩ := ih2 ht.2 hp.2
    refine ⟨fun vs b h => ?_, fun n v b h => ?_⟩
    · rw [ValsBytes] at h
      obtain ⟨v, vs, b1, b2, rfl, _, h1, h2⟩ := h
      obtain ⟨q1, q2⟩ := ih1 ht.1 v b1 h1
      obtain ⟨q3, q4⟩ := g1 vs b2 h2
      refine ⟨by rw [HasFields.eq_def]; exact ⟨rfl, q1, q3⟩, ?_⟩
      intro f hf
      rcases List.mem_cons.1 hf with rfl | hf
      · exact q2
      · exact q4 f hf
    · cases n with
      | zero =>
        rw [CaseBytes] at h
        obtain ⟨w, rfl, h⟩ := h
        obtain ⟨q1, q2⟩ := ih1 ht.1 w b h
        exact ⟨l, w, rfl, by simp [Fields.labels], by rw [HasCase, if_pos rfl]; exact q1, q2⟩
      | succ n =>
        rw [CaseBytes] at h
        obtain ⟨k, w, rfl, q1, q2, q3⟩ := g2 n v b h
        refine ⟨k, w, rfl, by simp [Fields.labels, q1], ?_, q3⟩
        have : l ≠ k := by
          rintro rfl
          exact absurd (hp.1 l q1) (by simp)
        rw [HasCase, if_neg this]
        exact q2

theorem forall₂_right {α β : Type} {R : α → β → Prop} {as : List α} {bs : List β} (h : List.Forall₂ R as bs) :
    ∀ b ∈ bs, ∃ a ∈ as, R a b := by
  induction h with
  | nil => exact fun _ h => nomatch h
  | cons h1 _ ih =>
    intro x hx
    rcases List.mem_cons.1 hx with rfl | hx
    · exact ⟨_, by simp, h1⟩
    · obtain ⟨a, ha, hr⟩ := ih x hx
      exact ⟨a, by simp [ha], hr⟩

theorem message_typed {bs : Bytes} {args : Args} (h : IsMessage bs args) : ∀ a ∈ args, Tidy a.1 ∧ HasType a.1 a.2 ∧ Fits a.2 := by
  obtain ⟨table, refs, tl, tb, rl, rb, vb, _, _, h1, h2, _, h3, h4, h5⟩ := h
  intro a ha
  obtain ⟨r, hr, hd⟩ := forall₂_right h4 a.1 (List.mem_map.2 ⟨a, ha, rfl⟩)
  have ht := denotes_tidy (each_mem h1) h2 a.1 r (each_mem h3 r hr) hd
  obtain ⟨b, hb⟩ := each_mem h5 a ha
  exact ⟨ht, val_typed a.1 ht a.2 b hb⟩

end Siwe.Candid.Wire
