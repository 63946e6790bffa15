import Verif.Model.Candid
/- Facts about decoding. -/
namespace Siwe.Candid

theorem sub_prim (w : Ty) (p : Prim) : sub w (.prim p) = true ↔ w = .prim p := by
  cases w <;> simp [sub]

theorem sub_vec_prim (w : Ty) (p : Prim) : sub w (.vec (.prim p)) = true ↔ w = .vec (.prim p) := by
  cases w with
  | vec t => rw [sub]; simp [sub_prim]
  | _ => simp [sub]

theorem coerce_prim (p : Prim) (v : Val) : coerce (.prim p) (.prim p) v = some v := by simp [coerce]

theorem mapM_some {α : Type} (vs : List α) : vs.mapM (fun v => some v) = some vs := by
  induction vs with
  | nil => rfl
  | cons v vs ih => simp [List.mapM_cons, ih]

theorem coerce_vec_prim (p : Prim) (vs : List Val) :
    coerce (.vec (.prim p)) (.vec (.prim p)) (.vec vs) = some (.vec vs) := by
  simp [coerce, mapM_some]

/-- What is read for one field. -/
def readField (ws : Fields) (vs : List (UInt32 × Val)) (l : UInt32) (e : Ty) : Option Val :=
  match ws.find l, vs.lookup l with
  | .some w, .some v => coerce w e v
  | .none, _ => e.missing
  | _, _ => .none

theorem coerceFields_cons (ws : Fields) (vs : List (UInt32 × Val)) (l : UInt32) (e : Ty) (es : Fields) (out : List (UInt32 × Val)) :
    coerceFields ws vs (.cons l e es) = some out ↔
      ∃ v rest, readField ws vs l e = some v ∧ coerceFields ws vs es = some rest ∧ out = (l, v) :: rest := by
  have h : coerceFields ws vs (.cons l e es) =
      (readField ws vs l e >>= fun v => coerceFields ws vs es >>= fun rest => some ((l, v) :: rest)) := by
    rw [coerceFields, readField]
    cases ws.find l <;> cases vs.lookup l <;> rfl
  rw [h]
  cases readField ws vs l e with
  | none => simp
  | some v =>
    cases coerceFields ws vs es with
    | none => simp
    | some rest => simp [eq_comm]

theorem coerceFields_find (ws : Fields) (vs : List (UInt32 × Val)) (es : Fields) : ∀ (out : List (UInt32 × Val)) (l : UInt32) (e : Ty),
    coerceFields ws vs es = some out → es.find l = some e → ∃ v, out.lookup l = some v ∧ readField ws vs l e = some v := by
  induction es using Fields.rec (motive_1 := fun _ => True) with
  | prim | opt | vec | record | variant => trivial
  | nil => intro out l e _ h; simp [Fields.find] at h
  | cons k t rest _ ih =>
    intro out l e h hf
    obtain ⟨v, r, h1, h2, rfl⟩ := (coerceFields_cons ..).mp h
    rw [Fields.find] at hf
    by_cases hk : k = l
    · subst hk
      rw [if_pos rfl] at hf
      cases hf
      exact ⟨v, by simp [List.lookup], h1⟩
    · rw [if_neg hk] at hf
      obtain ⟨v', g1, g2⟩ := ih r l e h2 hf
      refine ⟨v', ?_, g2⟩
      have : (l == k) = false := by simp [Ne.symm hk]
      rw [List.lookup, this]
      exact g1

mutual
/-- Labels are used once, everywhere inside the type. -/
def Ty.wf : Ty → Bool
  | .prim _ => true
  | .opt t => t.wf
  | .vec t => t.wf
  | .record fs => fs.wf
  | .variant fs => fs.wf
/-- The same of fields. -/
def Fields.wf : Fields → Bool
  | .nil => true
  | .cons l t rest => !rest.labels.contains l && t.wf && rest.wf
end

theorem find_mem (l : UInt32) (fs : Fields) : ∀ t, fs.find l = some t → l ∈ fs.labels := by
  induction fs using Fields.rec (motive_1 := fun _ => True) with
  | prim | opt | vec | record | variant => trivial
  | nil => intro t h; simp [Fields.find] at h
  | cons k u rest _ ih =>
    intro t h
    rw [Fields.find] at h
    by_cases hk : k = l
    · simp [Fields.labels, hk]
    · rw [if_neg hk] at h
      simp [Fields.labels, ih t h]

/-- The fields `fs` are among `ws`. -/
def Among (fs ws : Fields) : Prop := ∀ l t, fs.find l = some t → ws.find l = some t

theorem Among.head {l : UInt32} {t : Ty} {rest ws : Fields} (h : Among (.cons l t rest) ws) : ws.find l = some t :=
  h l t (by simp [Fields.find])

theorem Among.tail {l : UInt32} {t : Ty} {rest ws : Fields} (hl : l ∉ rest.labels) (h : Among (.cons l t rest) ws) :
    Among rest ws := by
  intro k u hk
  refine h k u ?_
  rw [Fields.find, if_neg]
  · exact hk
  · rintro rfl
    exact hl (find_mem _ _ _ hk)

theorem wf_cons {l : UInt32} {t : Ty} {rest : Fields} (h : (Fields.cons l t rest).wf = true) :
    l ∉ rest.labels ∧ t.wf = true ∧ rest.wf = true := by
  simp only [Fields.wf, Bool.and_eq_true, Bool.not_eq_true', List.contains_eq_mem, decide_eq_false_iff_not] at h
  exact ⟨h.1.1, h.1.2, h.2⟩

mutual
theorem sub_self : ∀ (t : Ty), t.wf = true → sub t t = true
  | .prim p, _ => by simp [sub]
  | .opt t, _ => by simp [sub]
  | .vec t, h => by rw [sub]; exact sub_self t (by simpa [Ty.wf] using h)
  | .record fs, h => by rw [sub]; exact subFields_self fs (by simpa [Ty.wf] using h) fs (fun _ _ h => h)
  | .variant fs, h => by
    rw [sub, Bool.and_eq_true]
    exact ⟨by simp, subCases_self fs (by simpa [Ty.wf] using h) fs (fun _ _ h => h)⟩
theorem subFields_self : ∀ (fs : Fields), fs.wf = true → ∀ ws, Among fs ws → subFields ws fs = true
  | .nil, _, ws, _ => by simp [subFields]
  | .cons l t rest, h, ws, ha => by
    obtain ⟨h1, h2, h3⟩ := wf_cons h
    rw [subFields, ha.head, Bool.and_eq_true]
    exact ⟨sub_self t h2, subFields_self rest h3 ws (ha.tail h1)⟩
theorem subCases_self : ∀ (fs : Fields), fs.wf = true → ∀ ws, Among fs ws → subCases ws fs = true
  | .nil, _, ws, _ => by simp [subCases]
  | .cons l t rest, h, ws, ha => by
    obtain ⟨h1, h2, h3⟩ := wf_cons h
    rw [subCases, ha.head, Bool.and_eq_true]
    exact ⟨sub_self t h2, subCases_self rest h3 ws (ha.tail h1)⟩
end

theorem mapM_self {α : Type} (f : α → Option α) (vs : List α) (h : ∀ v ∈ vs, f v = some v) : vs.mapM f = some vs := by
  induction vs with
  | nil => rfl
  | cons v vs ih =>
    rw [List.mapM_cons, h v (by simp), ih (fun v hv => h v (by simp [hv]))]
    rfl

/-- The values `us` are among `vs`, as far as the labels of the fields go. -/
def AmongVals (us vs : List (UInt32 × Val)) : Prop := ∀ l v, us.lookup l = some v → vs.lookup l = some v

theorem hasFields_labels : ∀ (fs : Fields) (us : List (UInt32 × Val)), HasFields fs us → us.map Prod.fst = fs.labels
  | .nil, us, h => by rw [HasFields] at h; subst h; rfl
  | .cons l t rest, us, h => by
    rw [HasFields.eq_def] at h
    match us, h with
    | (k, v) :: us, h => rw [List.map_cons, hasFields_labels rest us h.2.2, Fields.labels, h.1]

theorem lookup_mem {l : UInt32} {v : Val} : ∀ {us : List (UInt32 × Val)}, us.lookup l = some v → l ∈ us.map Prod.fst
  | [], h => by simp at h
  | (k, u) :: us, h => by
    rw [List.lookup] at h
    split at h
    · next hk => simp [eq_of_beq hk]
    · simp [lookup_mem h]

mutual
theorem coerce_self : ∀ (t : Ty), t.wf = true → ∀ v, HasType t v → coerce t t v = some v
  | .prim p, _, v, _ => coerce_prim p v
  | .opt t, h, v, hv => by
    have hw : t.wf = true := by simpa [Ty.wf] using h
    match v, hv with
    | .none, _ => rw [coerce.eq_def]
    | .some v, hv =>
      rw [HasType.eq_def] at hv
      rw [coerce.eq_def]
      simp [sub_self t hw, coerce_self t hw v hv]
  | .vec t, h, v, hv => by
    have hw : t.wf = true := by simpa [Ty.wf] using h
    match v, hv with
    | .vec vs, hv =>
      rw [HasType.eq_def] at hv
      rw [coerce.eq_def]
      simp only
      rw [mapM_self _ vs (fun v hm => coerce_self t hw v (hv v hm))]
      rfl
  | .record fs, h, v, hv => by
    have hw : fs.wf = true := by simpa [Ty.wf] using h
    match v, hv with
    | .record vs, hv =>
      rw [HasType.eq_def] at hv
      rw [coerce.eq_def]
      simp only
      rw [coerceFields_self fs hw fs (fun _ _ h => h) vs vs hv (fun _ _ h => h)]
      rfl
  | .variant fs, h, v, hv => by
    have hw : fs.wf = true := by simpa [Ty.wf] using h
    match v, hv with
    | .variant l v, hv =>
      rw [HasType.eq_def] at hv
      rw [coerce.eq_def]
      simp only
      rw [coerceCase_self fs hw fs (fun _ _ h => h) l v hv]
      rfl
theorem coerceFields_self : ∀ (fs : Fields), fs.wf = true → ∀ ws, Among fs ws → ∀ us vs, HasFields fs us → AmongVals us vs →
    coerceFields ws vs fs = some us
  | .nil, _, ws, _, us, vs, h, _ => by
    rw [HasFields] at h
    rw [coerceFields, h]
  | .cons l t rest, hw, ws, ha, us, vs, h, hu => by
    obtain ⟨h1, h2, h3⟩ := wf_cons hw
    rw [HasFields.eq_def] at h
    match us, h with
    | (k, v) :: us, h =>
      obtain ⟨rfl, hv, hr⟩ := h
      refine (coerceFields_cons ..).mpr ⟨v, us, ?_, ?_, rfl⟩
      · rw [readField, ha.head, hu k v (by simp [List.lookup])]
        exact coerce_self t h2 v hv
      · refine coerceFields_self rest h3 ws (ha.tail h1) us vs hr ?_
        intro m x hm
        refine hu m x ?_
        have : m ≠ k := by
          rintro rfl
          have := lookup_mem hm
          rw [hasFields_labels rest us hr] at this
          exact h1 this
        have hb : (m == k) = false := by simp [this]
        rw [List.lookup, hb]
        exact hm
theorem coerceCase_self : ∀ (fs : Fields), fs.wf = true → ∀ ws, Among fs ws → ∀ l v, HasCase fs l v → coerceCase ws l v fs = some v
  | .nil, _, ws, _, l, v, h => by simp [HasCase] at h
  | .cons k t rest, hw, ws, ha, l, v, h => by
    obtain ⟨h1, h2, h3⟩ := wf_cons hw
    rw [HasCase] at h
    rw [coerceCase]
    by_cases hk : k = l
    · subst hk
      rw [if_pos rfl] at h ⊢
      rw [ha.head]
      exact coerce_self t h2 v h
    · rw [if_neg hk] at h ⊢
      exact coerceCase_self rest h3 ws (ha.tail h1) l v h
end

theorem hasFields_find : ∀ (fs : Fields) (vs : List (UInt32 × Val)), HasFields fs vs → ∀ l t, fs.find l = some t →
    ∃ v, vs.lookup l = some v ∧ HasType t v
  | .nil, _, _, l, t, h => by simp [Fields.find] at h
  | .cons k u rest, vs, h, l, t, hf => by
    rw [HasFields.eq_def] at h
    match vs, h with
    | (k', v) :: vs, h =>
      obtain ⟨rfl, hv, hr⟩ := h
      rw [Fields.find] at hf
      by_cases hk : k' = l
      · subst hk
        rw [if_pos rfl] at hf
        cases hf
        exact ⟨v, by simp [List.lookup], hv⟩
      · rw [if_neg hk] at hf
        obtain ⟨x, g1, g2⟩ := hasFields_find rest vs hr l t hf
        refine ⟨x, ?_, g2⟩
        have hb : (l == k') = false := by simp [Ne.symm hk]
        rw [List.lookup, hb]
        exact g1

theorem hasCase_find : ∀ (fs : Fields) (l : UInt32) (v : Val), HasCase fs l v → ∃ t, fs.find l = some t ∧ HasType t v
  | .nil, _, _, h => by simp [HasCase] at h
  | .cons k t rest, l, v, h => by
    rw [HasCase] at h
    rw [Fields.find]
    by_cases hk : k = l
    · rw [if_pos hk] at h ⊢
      exact ⟨t, rfl, h⟩
    · rw [if_neg hk] at h ⊢
      exact hasCase_find rest l v h

theorem mapM_typed {f : Val → Option Val} {P Q : Val → Prop} (h : ∀ v, P v → ∃ v', f v = some v' ∧ Q v') :
    ∀ vs : List Val, (∀ v ∈ vs, P v) → ∃ ws, vs.mapM f = some ws ∧ ∀ w ∈ ws, Q w
  | [], _ => ⟨[], rfl, nofun⟩
  | v :: vs, hv => by
    obtain ⟨w, h1, h2⟩ := h v (hv v (by simp))
    obtain ⟨ws, h3, h4⟩ := mapM_typed h vs (fun v hm => hv v (by simp [hm]))
    refine ⟨w :: ws, by rw [List.mapM_cons, h1, h3]; rfl, ?_⟩
    intro x hx
    rcases List.mem_cons.mp hx with rfl | hx
    · exact h2
    · exact h4 x hx

theorem missing_typed {e : Ty} (h : e.optional = true) : ∃ v, e.missing = some v ∧ HasType e v := by
  cases e with
  | opt t => exact ⟨_, rfl, by rw [HasType.eq_def]; trivial⟩
  | prim p =>
    cases p with
    | null => exact ⟨_, rfl, by rw [HasType.eq_def]; rfl⟩
    | _ => cases h
  | _ => cases h

mutual
/-- Decoding succeeds on values of a subtype, and gives a value of the type that is read. -/
theorem coerce_sound : ∀ (e w : Ty), sub w e = true → ∀ v, HasType w v → ∃ v', coerce w e v = some v' ∧ HasType e v'
  | .prim p, w, hs, v, hv => by
    have := (sub_prim w p).mp hs
    subst this
    exact ⟨v, coerce_prim p v, hv⟩
  | .opt e, w, _, v, hv => by
    have some_or : ∀ w v, HasType w v → ∃ v', (if sub w e then
        match coerce w e v with
        | .some v => some (Val.some v)
        | .none => some Val.none
      else some Val.none) = some v' ∧ HasType (.opt e) v' := by
      intro w v hv
      by_cases hs : sub w e = true
      · obtain ⟨v', h1, h2⟩ := coerce_sound e w hs v hv
        rw [if_pos hs, h1]
        exact ⟨_, rfl, by rw [HasType.eq_def]; exact h2⟩
      · rw [if_neg hs]
        exact ⟨_, rfl, by rw [HasType.eq_def]; trivial⟩
    have none_ok : HasType (.opt e) .none := by rw [HasType.eq_def]; trivial
    cases w with
    | opt w =>
      rw [HasType.eq_def] at hv
      cases v with
      | none => rw [coerce.eq_def]; exact ⟨_, rfl, none_ok⟩
      | some v => rw [coerce.eq_def]; exact some_or w v hv
      | _ => exact hv.elim
    | prim p =>
      cases p with
      | null => rw [coerce.eq_def]; exact ⟨_, rfl, none_ok⟩
      | _ => rw [coerce.eq_def]; exact some_or _ v hv
    | vec => rw [coerce.eq_def]; exact some_or _ v hv
    | record => rw [coerce.eq_def]; exact some_or _ v hv
    | variant => rw [coerce.eq_def]; exact some_or _ v hv
  | .vec e, w, hs, v, hv => by
    cases w with
    | vec w =>
      rw [sub] at hs
      rw [HasType.eq_def] at hv
      cases v with
      | vec vs =>
        obtain ⟨ws, h1, h2⟩ := mapM_typed (coerce_sound e w hs) vs hv
        rw [coerce.eq_def]
        exact ⟨.vec ws, by simp only [h1]; rfl, by rw [HasType.eq_def]; exact h2⟩
      | _ => exact hv.elim
    | _ => simp [sub] at hs
  | .record es, w, hs, v, hv => by
    cases w with
    | record ws =>
      rw [sub] at hs
      rw [HasType.eq_def] at hv
      cases v with
      | record vs =>
        obtain ⟨us, h1, h2⟩ := coerceFields_sound es ws hs vs hv
        rw [coerce.eq_def]
        exact ⟨.record us, by simp only [h1]; rfl, by rw [HasType.eq_def]; exact h2⟩
      | _ => exact hv.elim
    | _ => simp [sub] at hs
  | .variant es, w, hs, v, hv => by
    cases w with
    | variant ws =>
      rw [sub, Bool.and_eq_true] at hs
      rw [HasType.eq_def] at hv
      cases v with
      | variant l v =>
        obtain ⟨t, h1, h2⟩ := hasCase_find ws l v hv
        have hl : l ∈ es.labels := by
          have := List.all_eq_true.mp hs.1 l (find_mem _ _ _ h1)
          simpa using this
        obtain ⟨v', h3, h4⟩ := coerceCase_sound es ws hs.2 l t h1 hl v h2
        rw [coerce.eq_def]
        exact ⟨.variant l v', by simp only [h3]; rfl, by rw [HasType.eq_def]; exact h4⟩
      | _ => exact hv.elim
    | _ => simp [sub] at hs
theorem coerceFields_sound : ∀ (es ws : Fields), subFields ws es = true → ∀ vs, HasFields ws vs →
    ∃ us, coerceFields ws vs es = some us ∧ HasFields es us
  | .nil, ws, _, vs, _ => ⟨[], by rw [coerceFields], by rw [HasFields]⟩
  | .cons l e es, ws, hs, vs, hv => by
    rw [subFields, Bool.and_eq_true] at hs
    obtain ⟨us, h1, h2⟩ := coerceFields_sound es ws hs.2 vs hv
    have hs1 := hs.1
    have : ∃ v', readField ws vs l e = some v' ∧ HasType e v' := by
      cases hf : ws.find l with
      | none =>
        rw [hf] at hs1
        rw [readField, hf]
        exact missing_typed hs1
      | some w =>
        rw [hf] at hs1
        obtain ⟨v, g1, g2⟩ := hasFields_find ws vs hv l w hf
        rw [readField, hf, g1]
        exact coerce_sound e w hs1 v g2
    obtain ⟨v', g1, g2⟩ := this
    refine ⟨(l, v') :: us, (coerceFields_cons ..).mpr ⟨v', us, g1, h1, rfl⟩, ?_⟩
    rw [HasFields.eq_def]
    exact ⟨rfl, g2, h2⟩
theorem coerceCase_sound : ∀ (es ws : Fields), subCases ws es = true → ∀ l t, ws.find l = some t → l ∈ es.labels → ∀ v, HasType t v →
    ∃ v', coerceCase ws l v es = some v' ∧ HasCase es l v'
  | .nil, _, _, l, t, _, hl, _, _ => by simp [Fields.labels] at hl
  | .cons k e es, ws, hs, l, t, hf, hl, v, hv => by
    rw [subCases, Bool.and_eq_true] at hs
    rw [coerceCase]
    by_cases hk : k = l
    · subst hk
      have hs1 := hs.1
      rw [hf] at hs1
      obtain ⟨v', g1, g2⟩ := coerce_sound e t hs1 v hv
      rw [if_pos rfl, hf]
      exact ⟨v', g1, by rw [HasCase, if_pos rfl]; exact g2⟩
    · rw [if_neg hk]
      simp only [Fields.labels, List.mem_cons] at hl
      obtain ⟨v', g1, g2⟩ := coerceCase_sound es ws hs.2 l t hf (hl.resolve_left (Ne.symm hk)) v hv
      exact ⟨v', g1, by rw [HasCase, if_neg hk]; exact g2⟩
end

/-- What is sent at the type that is read arrives unchanged. -/
theorem decode_self (t : Ty) (h : t.wf = true) (v : Val) (hv : HasType t v) : decode t t v = some v := by
  rw [decode, if_pos (sub_self t h), coerce_self t h v hv]

end Siwe.Candid
