import Verif.Lemmas.Interface
import Verif.Spec.Candid
/- The decoder's comparison of types and the specification's subtyping agree. -/
namespace Siwe.Candid
open Spec

theorem optional_iff (e : Ty) : e.optional = true ↔ MayBeMissing e := by
  unfold Ty.optional MayBeMissing
  split <;> simp_all

theorem find_none {l : UInt32} : ∀ {fs : Fields}, fs.find l = none ↔ l ∉ fs.labels
  | .nil => by simp [Fields.find, Fields.labels]
  | .cons k t rest => by
    rw [Fields.find, Fields.labels, List.mem_cons, not_or]
    split
    · next h => simp [h]
    · next h => rw [find_none (fs := rest)]; exact ⟨fun x => ⟨Ne.symm h, x⟩, fun x => x.2⟩

theorem find_cons_self (l : UInt32) (t : Ty) (rest : Fields) : (Fields.cons l t rest).find l = some t := by
  rw [Fields.find, if_pos rfl]

theorem find_cons_tail {l k : UInt32} {t u : Ty} {rest : Fields} (hl : l ∉ rest.labels) (h : rest.find k = some u) :
    (Fields.cons l t rest).find k = some u := by
  rw [Fields.find, if_neg]
  · exact h
  · rintro rfl; exact hl (find_mem _ _ _ h)

theorem find_cons_cases {l k : UInt32} {t u : Ty} {rest : Fields} (h : (Fields.cons l t rest).find k = some u) :
    (k = l ∧ u = t) ∨ rest.find k = some u := by
  rw [Fields.find] at h
  split at h
  · next e => exact .inl ⟨e.symm, (Option.some.inj h).symm⟩
  · exact .inr h

mutual
theorem sub_iff : ∀ (e : Ty), e.wf = true → ∀ w, sub w e = true ↔ CanSend w e
  | .prim p, _, w => by
    rw [sub_prim]
    exact ⟨fun h => h ▸ .prim p, fun h => by cases h; rfl⟩
  | .opt e, _, w => by
    rw [sub]
    exact ⟨fun _ => .opt w e, fun _ => rfl⟩
  | .vec e, he, w => by
    have ih := sub_iff e (by simpa [Ty.wf] using he)
    rw [sub.eq_def]
    cases w with
    | vec w =>
      simp only
      rw [ih w]
      exact ⟨.vec, fun h => by cases h; assumption⟩
    | _ => exact ⟨(fun h => (nomatch h)), fun h => (by cases h)⟩
  | .record es, he, w => by
    have ih := subFields_iff es (by simpa [Ty.wf] using he)
    rw [sub.eq_def]
    cases w with
    | record ws =>
      simp only
      rw [ih ws]
      exact ⟨fun h => .record h.1 h.2, fun h => by cases h with | record h1 h2 => exact ⟨h1, h2⟩⟩
    | _ => exact ⟨(fun h => (nomatch h)), fun h => (by cases h)⟩
  | .variant es, he, w => by
    have ih := subCases_iff es (by simpa [Ty.wf] using he)
    rw [sub.eq_def]
    cases w with
    | variant ws =>
      simp only
      rw [Bool.and_eq_true, ih ws]
      have hl : (ws.labels.all fun l => es.labels.contains l) = true ↔ ∀ l w, ws.find l = some w → es.find l ≠ none := by
        simp only [List.all_eq_true, List.contains_eq_mem, decide_eq_true_eq]
        constructor
        · intro h l w hw hn
          exact find_none.1 hn (h l (find_mem _ _ _ hw))
        · intro h l hl
          cases hf : ws.find l with
          | none => exact absurd hl (find_none.1 hf)
          | some w =>
            have := h l w hf
            rw [Ne, find_none] at this
            exact Decidable.not_not.1 this
      rw [hl]
      exact ⟨fun h => .variant h.2 h.1, fun h => by cases h with | variant h1 h2 => exact ⟨h2, h1⟩⟩
    | _ => exact ⟨(fun h => (nomatch h)), fun h => (by cases h)⟩
theorem subFields_iff : ∀ (es : Fields), es.wf = true → ∀ ws, subFields ws es = true ↔
    (∀ l w e, ws.find l = some w → es.find l = some e → CanSend w e) ∧ (∀ l e, ws.find l = none → es.find l = some e → MayBeMissing e)
  | .nil, _, ws => by simp [subFields, Fields.find]
  | .cons l t rest, h, ws => by
    obtain ⟨h1, h2, h3⟩ := wf_cons h
    have ih := sub_iff t h2
    have ihr := subFields_iff rest h3 ws
    rw [subFields, Bool.and_eq_true, ihr]
    constructor
    · rintro ⟨a, b, c⟩
      refine ⟨fun k w e hw he => ?_, fun k e hw he => ?_⟩
      · rcases find_cons_cases he with ⟨rfl, rfl⟩ | he
        · rw [hw] at a; exact (ih w).1 a
        · exact b k w e hw he
      · rcases find_cons_cases he with ⟨rfl, rfl⟩ | he
        · rw [hw] at a; exact (optional_iff _).1 a
        · exact c k e hw he
    · rintro ⟨a, b⟩
      refine ⟨?_, fun k w e hw he => a k w e hw (find_cons_tail h1 he), fun k e hw he => b k e hw (find_cons_tail h1 he)⟩
      cases hf : ws.find l with
      | none => exact (optional_iff _).2 (b l t hf (find_cons_self ..))
      | some w => exact (ih w).2 (a l w t hf (find_cons_self ..))
theorem subCases_iff : ∀ (es : Fields), es.wf = true → ∀ ws, subCases ws es = true ↔
    ∀ l w e, ws.find l = some w → es.find l = some e → CanSend w e
  | .nil, _, ws => by simp [subCases, Fields.find]
  | .cons l t rest, h, ws => by
    obtain ⟨h1, h2, h3⟩ := wf_cons h
    have ih := sub_iff t h2
    have ihr := subCases_iff rest h3 ws
    rw [subCases, Bool.and_eq_true, ihr]
    constructor
    · rintro ⟨a, b⟩ k w e hw he
      rcases find_cons_cases he with ⟨rfl, rfl⟩ | he
      · rw [hw] at a; exact (ih w).1 a
      · exact b k w e hw he
    · intro a
      refine ⟨?_, fun k w e hw he => a k w e hw (find_cons_tail h1 he)⟩
      cases hf : ws.find l with
      | none => rfl
      | some w => exact (ih w).2 (a l w t hf (find_cons_self ..))
end

theorem feature_find (l : UInt32) (e : Ty) :
    (Fields.cons 370021722 null (.cons 686444076 null (.cons 2293436726 null .nil))).find l = some e ↔
      e = null ∧ ∃ f, l = label (featureName f) := by
  constructor
  · intro h
    simp only [Fields.find] at h
    split at h
    · next hl => exact ⟨(Option.some.inj h).symm, .includeUriInSeed, by rw [label_feature, ← hl]⟩
    · split at h
      · next hl => exact ⟨(Option.some.inj h).symm, .disableEthToPrincipalMapping, by rw [label_feature, ← hl]⟩
      · split at h
        · next hl => exact ⟨(Option.some.inj h).symm, .disablePrincipalToEthMapping, by rw [label_feature, ← hl]⟩
        · exact (nomatch h)
  · rintro ⟨rfl, f, rfl⟩
    rw [label_feature]
    cases f <;> rfl

theorem featureList_iff (t : Ty) : sub t (.vec Rust.runtimeFeature) = true ↔ FeatureList t := by
  rw [sub_iff _ (by decide +kernel), runtimeFeature_eq]
  constructor
  · intro h
    cases h with
    | vec h =>
      cases h with
      | variant h1 h2 =>
        refine ⟨_, rfl, fun l w hw => ?_⟩
        cases hf : (Fields.cons 370021722 null (.cons 686444076 null (.cons 2293436726 null .nil))).find l with
        | none => exact absurd hf (h2 l w hw)
        | some e =>
          have := h1 l w e hw hf
          obtain ⟨rfl, hl⟩ := (feature_find l e).1 hf
          cases this
          exact ⟨rfl, hl⟩
  · rintro ⟨ws, rfl, h⟩
    refine .vec (.variant (fun l w e hw he => ?_) fun l w hw hn => ?_)
    · obtain ⟨rfl, _⟩ := h l w hw
      obtain ⟨rfl, _⟩ := (feature_find l e).1 he
      exact .prim _
    · obtain ⟨_, hl⟩ := h l w hw
      rw [(feature_find l null).2 ⟨rfl, hl⟩] at hn
      exact (nomatch hn)

theorem hasCase_of_find {l : UInt32} {t : Ty} {v : Val} : ∀ {fs : Fields}, fs.find l = some t → HasType t v → HasCase fs l v
  | .nil, h, _ => by simp [Fields.find] at h
  | .cons k u rest, h, hv => by
    rw [Fields.find] at h
    rw [HasCase]
    split
    · next e => rw [if_pos e] at h; rw [Option.some.inj h]; exact hv
    · next e => rw [if_neg e] at h; exact hasCase_of_find h hv

theorem mapM_each {f : Val → Option Val} : ∀ {vs us : List Val}, vs.mapM f = some us → ∀ v ∈ vs, ∃ u, f v = some u
  | [], _, _, v, hv => by simp at hv
  | a :: vs, us, h, v, hv => by
    simp only [List.mapM_cons, Option.bind_eq_bind, Option.bind_eq_some_iff, Option.pure_def, Option.some.injEq] at h
    obtain ⟨b, h1, bs, h2, rfl⟩ := h
    rcases List.mem_cons.1 hv with rfl | hv
    · exact ⟨b, h1⟩
    · exact mapM_each h2 v hv

/-- A list of features that was read was of the type it was sent at. -/
theorem features_sent_typed {t : Ty} {fs : List ProviderFeature} {u : Val} (ht : FeatureList t)
    (h : coerce t (.vec Rust.runtimeFeature) (.vec (fs.map fun f => caseVal (featureName f) .null)) = some u) :
    HasType t (.vec (fs.map fun f => caseVal (featureName f) .null)) := by
  obtain ⟨ws, rfl, hw⟩ := ht
  rw [coerce.eq_def] at h
  simp only [Option.map_eq_some_iff] at h
  obtain ⟨us, h1, _⟩ := h
  rw [HasType.eq_def]
  simp only
  intro v hv
  obtain ⟨f, hf, rfl⟩ := List.mem_map.1 hv
  obtain ⟨u', hu⟩ := mapM_each h1 _ hv
  rw [runtimeFeature_eq, coerce.eq_def, caseVal] at hu
  simp only [Option.map_eq_some_iff] at hu
  obtain ⟨u'', h2, _⟩ := hu
  have hfind : ∃ w, ws.find (label (featureName f)) = some w := by
    have hl := label_feature f
    cases hx : ws.find (label (featureName f)) with
    | some w => exact ⟨w, rfl⟩
    | none =>
      rw [hl] at h2 hx
      cases f <;> simp only at hx h2 <;> simp [coerceCase, hx] at h2
  obtain ⟨w, hx⟩ := hfind
  obtain ⟨rfl, _⟩ := hw _ _ hx
  rw [caseVal, HasType.eq_def]
  exact hasCase_of_find hx (by rw [HasType.eq_def]; rfl)

/-- A list of features at its type is read. -/
theorem features_read {t : Ty} {v : Val} (ht : FeatureList t) (hv : HasType t v) :
    coerce t (.vec Rust.runtimeFeature) v = some v := by
  obtain ⟨v', h1, _⟩ := coerce_sound _ _ ((featureList_iff t).2 ht) v hv
  rw [h1, features_kept h1]

theorem vec_features (fs : List ProviderFeature) :
    (Val.vec (fs.map fun f => caseVal (featureName f) .null)).vec? readFeature = some fs :=
  mapM_read _ readFeature readFeature_name fs

/-- Features are read exactly when a list of them was sent under the name. -/
theorem readField_features_iff {ws : Fields} {vs : List (UInt32 × Val)} {name : String} {v : Val} {o : Option (List ProviderFeature)}
    (h : readField ws vs (label name) (.opt (.vec Rust.runtimeFeature)) = some v)
    (hv : v.opt? (Val.vec? readFeature) = some o) (fs : List ProviderFeature) :
    o = some fs ↔ ∃ t, FeatureList t ∧ HasType t (.vec (fs.map fun f => caseVal (featureName f) .null)) ∧
      Given ws vs name t (.vec (fs.map fun f => caseVal (featureName f) .null)) := by
  have inner : ∀ w u x, (if sub w (.vec Rust.runtimeFeature) then
        match coerce w (.vec Rust.runtimeFeature) u with
        | .some v => some (Val.some v)
        | .none => some Val.none
      else some Val.none) = some x → x.opt? (Val.vec? readFeature) = some o →
      (o = some fs ↔ FeatureList w ∧ HasType w (.vec (fs.map fun f => caseVal (featureName f) .null)) ∧
        u = .vec (fs.map fun f => caseVal (featureName f) .null)) := by
    intro w u x hx ho
    constructor
    · rintro rfl
      split at hx
      · next hs =>
        cases hc : coerce w (.vec Rust.runtimeFeature) u with
        | none => rw [hc] at hx; cases hx; cases ho
        | some u' =>
          rw [hc] at hx
          cases hx
          have := features_kept hc
          subst this
          rw [Val.opt?, Option.map_eq_some_iff] at ho
          obtain ⟨gs, h1, h2⟩ := ho
          cases h2
          have hl := (featureList_iff w).1 hs
          have hu : u' = .vec (fs.map fun f => caseVal (featureName f) .null) := by
            cases u' <;> simp only [Val.vec?, reduceCtorEq] at h1
            rw [mapM_inv (g := fun f => caseVal (featureName f) .null) (fun _ _ => readFeature_some) h1]
          subst hu
          exact ⟨hl, features_sent_typed hl hc, rfl⟩
      · cases hx; cases ho
    · rintro ⟨hl, ht, rfl⟩
      rw [if_pos ((featureList_iff w).2 hl), features_read hl ht] at hx
      cases hx
      rw [Val.opt?, vec_features] at ho
      exact (Option.some.inj ho).symm
  unfold readField at h
  unfold Given FieldSent
  cases hf : ws.find (label name) with
  | none =>
    rw [hf] at h
    cases h
    cases hv
    simp
  | some w =>
    cases hl : vs.lookup (label name) with
    | none => rw [hf, hl] at h; cases h
    | some u =>
      rw [hf, hl] at h
      simp only [Option.some.injEq] at h ⊢
      -- the value is not sent as an option
      have bare : (∀ t, w ≠ .opt t) → (o = some fs ↔ FeatureList w ∧ HasType w (.vec (fs.map fun f => caseVal (featureName f) .null)) ∧
          u = .vec (fs.map fun f => caseVal (featureName f) .null)) →
          (o = some fs ↔ ∃ t, FeatureList t ∧ HasType t (.vec (fs.map fun f => caseVal (featureName f) .null)) ∧
            ((w = t ∧ u = .vec (fs.map fun f => caseVal (featureName f) .null)) ∨
              (w = .opt t ∧ u = .some (.vec (fs.map fun f => caseVal (featureName f) .null))))) := by
        intro hw hi
        rw [hi]
        constructor
        · rintro ⟨a, b, c⟩
          exact ⟨w, a, b, .inl ⟨rfl, c⟩⟩
        · rintro ⟨t, a, b, ⟨rfl, c⟩ | ⟨c, _⟩⟩
          · exact ⟨a, b, c⟩
          · exact absurd c (hw t)
      cases w with
      | opt w =>
        cases u with
        | none =>
          rw [coerce.eq_def] at h
          cases h
          cases hv
          simp
        | some u =>
          rw [coerce.eq_def] at h
          rw [inner w u v h hv]
          constructor
          · rintro ⟨a, b, rfl⟩
            exact ⟨w, a, b, .inr ⟨rfl, rfl⟩⟩
          · rintro ⟨t, a, b, ⟨rfl, c⟩ | ⟨c, d⟩⟩
            · exact (nomatch c)
            · cases c; cases d; exact ⟨a, b, rfl⟩
        | _ => rw [coerce.eq_def] at h; cases h
      | prim p =>
        cases p with
        | null =>
          rw [coerce.eq_def] at h
          cases h
          cases hv
          constructor
          · exact (nomatch ·)
          · rintro ⟨t, ⟨ws', rfl, _⟩, _, ⟨c, _⟩ | ⟨c, _⟩⟩ <;> exact (nomatch c)
        | _ => rw [coerce.eq_def] at h; exact bare nofun (inner _ u v h hv)
      | _ => rw [coerce.eq_def] at h; exact bare nofun (inner _ u v h hv)

end Siwe.Candid
