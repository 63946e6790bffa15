import Verif.Spec.Interface
import Verif.Lemmas.Candid
/- The interface's types and values with their labels computed, and what the decoder makes of single fields. -/
namespace Siwe.Candid
open Spec

theorem label_domain : label "domain" = 763408708 := by decide +kernel
theorem label_uri : label "uri" = 5843820 := by decide +kernel
theorem label_salt : label "salt" = 1280148118 := by decide +kernel
theorem label_chain_id : label "chain_id" = 2313761689 := by decide +kernel
theorem label_scheme : label "scheme" = 1086398501 := by decide +kernel
theorem label_statement : label "statement" = 1076336687 := by decide +kernel
theorem label_sign_in : label "sign_in_expires_in" = 3922906472 := by decide +kernel
theorem label_session : label "session_expires_in" = 1517798489 := by decide +kernel
theorem label_targets : label "targets" = 2288514050 := by decide +kernel
theorem label_features : label "runtime_features" = 439047300 := by decide +kernel

/-- The labels of a configuration's fields, ascending. -/
def settingsFields (chainId : Ty) : Fields :=
  .cons 5843820 text <| .cons 439047300 (.opt (.vec Rust.runtimeFeature)) <| .cons 763408708 text <|
  .cons 1076336687 (.opt text) <| .cons 1086398501 (.opt text) <| .cons 1280148118 text <|
  .cons 1517798489 (.opt nat64) <| .cons 2288514050 (.opt (.vec text)) <| .cons 2313761689 chainId <|
  .cons 3922906472 (.opt nat64) .nil

theorem rust_settings : Rust.settingsInput = .record (settingsFields (.opt nat32)) := by decide +kernel
theorem did_settings : Did.settingsInput = .record (settingsFields (.opt nat)) := by decide +kernel

theorem config_val (c : Config) : c.val = .record
    [(5843820, .text c.uri),
     (439047300, optVal (fun fs => .vec (fs.map fun f => caseVal (featureName f) .null)) c.runtimeFeatures),
     (763408708, .text c.domain), (1076336687, optVal .text c.statement), (1086398501, optVal .text c.scheme),
     (1280148118, .text c.salt), (1517798489, optVal .nat64 c.sessionExpiresIn),
     (2288514050, optVal (fun ts => .vec (ts.map .text)) c.targets), (2313761689, optVal .nat c.chainId),
     (3922906472, optVal .nat64 c.signInExpiresIn)] := by
  simp [Config.val, recordVal, sortBy, insertSorted, label_domain, label_uri, label_salt, label_chain_id, label_scheme,
    label_statement, label_sign_in, label_session, label_targets, label_features]

theorem coerce_opt_prim {α : Type} (p : Prim) (f : α → Val) (o : Option α) :
    coerce (.opt (.prim p)) (.opt (.prim p)) (optVal f o) = some (optVal f o) := by
  cases o with
  | none => rw [optVal, coerce.eq_def]
  | some a => rw [optVal, coerce.eq_def]; simp [sub, coerce_prim]

theorem coerce_opt_vec_prim {α : Type} (p : Prim) (f : α → List Val) (o : Option α) :
    coerce (.opt (.vec (.prim p))) (.opt (.vec (.prim p))) (optVal (fun a => .vec (f a)) o) = some (optVal (fun a => .vec (f a)) o) := by
  cases o with
  | none => rw [optVal, coerce.eq_def]
  | some a => rw [optVal, coerce.eq_def]; simp [sub, coerce_vec_prim]

/-- An option of a primitive type that is read at another one is read as absent. -/
theorem coerce_opt_other {α : Type} (p q : Prim) (h : p ≠ q) (f : α → Val) (o : Option α) :
    coerce (.opt (.prim p)) (.opt (.prim q)) (optVal f o) = some .none := by
  cases o with
  | none => rw [optVal, coerce.eq_def]
  | some a => rw [optVal, coerce.eq_def]; simp [sub, h]

theorem features_wf : (Ty.opt (.vec Rust.runtimeFeature)).wf = true := by decide +kernel

theorem runtimeFeature_eq : Rust.runtimeFeature =
    .variant (.cons 370021722 null (.cons 686444076 null (.cons 2293436726 null .nil))) := by decide +kernel

theorem label_feature (f : ProviderFeature) : label (featureName f) =
    match f with
    | .includeUriInSeed => 370021722
    | .disableEthToPrincipalMapping => 686444076
    | .disablePrincipalToEthMapping => 2293436726 := by
  cases f <;> decide +kernel

theorem feature_typed (f : ProviderFeature) : HasType Rust.runtimeFeature (caseVal (featureName f) .null) := by
  rw [runtimeFeature_eq, caseVal, label_feature]
  cases f <;> simp [HasType, HasCase, Val.prim?]

theorem readFeature_name (f : ProviderFeature) : readFeature (caseVal (featureName f) .null) = some f := by
  cases f <;> decide +kernel

theorem mapM_read {α β : Type} (g : α → β) (f : β → Option α) (h : ∀ a, f (g a) = some a) (l : List α) : (l.map g).mapM f = some l := by
  induction l with
  | nil => rfl
  | cons a l ih => rw [List.map_cons, List.mapM_cons, h, ih]; rfl

theorem opt?_optVal {α : Type} (g : α → Val) (f : Val → Option α) (h : ∀ a, f (g a) = some a) (o : Option α) :
    (optVal g o).opt? f = some o := by
  cases o with
  | none => rfl
  | some a => simp [optVal, Val.opt?, h]

theorem features_typed (o : Option (List ProviderFeature)) :
    HasType (.opt (.vec Rust.runtimeFeature)) (optVal (fun fs => .vec (fs.map fun f => caseVal (featureName f) .null)) o) := by
  cases o with
  | none => simp [optVal, HasType]
  | some fs =>
    simp only [optVal, HasType, List.mem_map]
    rintro v ⟨f, _, rfl⟩
    exact feature_typed f

theorem blob?_blob (b : Bytes) : (Val.blob b).blob? = some b := mapM_read Val.nat8 Val.nat8? (fun _ => rfl) b

/-- The fields a configuration is read from. -/
theorem sent_fields (c : Config) : decodeArgs [Rust.settingsInput] c.sent = some [.record
    [(5843820, .text c.uri),
     (439047300, optVal (fun fs => .vec (fs.map fun f => caseVal (featureName f) .null)) c.runtimeFeatures),
     (763408708, .text c.domain), (1076336687, optVal .text c.statement), (1086398501, optVal .text c.scheme),
     (1280148118, .text c.salt), (1517798489, optVal .nat64 c.sessionExpiresIn),
     (2288514050, optVal (fun ts => .vec (ts.map .text)) c.targets), (2313761689, .none),
     (3922906472, optVal .nat64 c.signInExpiresIn)]] := by
  have hs : sub Did.settingsInput Rust.settingsInput = true := by decide +kernel
  have key : coerce Did.settingsInput Rust.settingsInput c.val = some (.record
    [(5843820, .text c.uri),
     (439047300, optVal (fun fs => .vec (fs.map fun f => caseVal (featureName f) .null)) c.runtimeFeatures),
     (763408708, .text c.domain), (1076336687, optVal .text c.statement), (1086398501, optVal .text c.scheme),
     (1280148118, .text c.salt), (1517798489, optVal .nat64 c.sessionExpiresIn),
     (2288514050, optVal (fun ts => .vec (ts.map .text)) c.targets), (2313761689, .none),
     (3922906472, optVal .nat64 c.signInExpiresIn)]) := by
    rw [did_settings, rust_settings, config_val, coerce.eq_def]
    simp only [Option.map_eq_some_iff, Val.record.injEq, exists_eq_right]
    simp only [settingsFields]
    refine (coerceFields_cons ..).mpr ⟨_, _, ?_, (coerceFields_cons ..).mpr ⟨_, _, ?_, (coerceFields_cons ..).mpr ⟨_, _, ?_,
      (coerceFields_cons ..).mpr ⟨_, _, ?_, (coerceFields_cons ..).mpr ⟨_, _, ?_, (coerceFields_cons ..).mpr ⟨_, _, ?_,
      (coerceFields_cons ..).mpr ⟨_, _, ?_, (coerceFields_cons ..).mpr ⟨_, _, ?_, (coerceFields_cons ..).mpr ⟨_, _, ?_,
      (coerceFields_cons ..).mpr ⟨_, _, ?_, by rw [coerceFields], rfl⟩, rfl⟩, rfl⟩, rfl⟩, rfl⟩, rfl⟩, rfl⟩, rfl⟩, rfl⟩, rfl⟩ <;>
      simp [readField, Fields.find, List.lookup]
    · exact coerce_prim ..
    · exact coerce_self _ features_wf _ (features_typed _)
    · exact coerce_prim ..
    · exact coerce_opt_prim ..
    · exact coerce_opt_prim ..
    · exact coerce_prim ..
    · exact coerce_opt_prim ..
    · exact coerce_opt_vec_prim ..
    · exact coerce_opt_other _ _ (by decide) ..
    · exact coerce_opt_prim ..
  rw [Config.sent, decodeArgs, decode, if_pos hs, key]
  rfl

/-- A type that is read only if it was sent as such. -/
structure Rigid (e : Ty) : Prop where
  same : ∀ w, sub w e = true → w = e
  refl : sub e e = true
  kept : ∀ v v', coerce e e v = some v' → v' = v
  typed : ∀ v, HasType e v → coerce e e v = some v
  needed : e.missing = none

theorem rigid_prim (p : Prim) (h : p ≠ .null) : Rigid (.prim p) where
  same w hw := (sub_prim w p).mp hw
  refl := by simp [sub]
  kept v v' hv := by rw [coerce_prim] at hv; exact (Option.some.inj hv).symm
  typed v _ := coerce_prim p v
  needed := by cases p <;> first | rfl | exact absurd rfl h

theorem rigid_vec_prim (p : Prim) : Rigid (.vec (.prim p)) where
  same w hw := (sub_vec_prim w p).mp hw
  refl := by simp [sub]
  kept v v' hv := by
    cases v with
    | vec vs => rw [coerce_vec_prim] at hv; exact (Option.some.inj hv).symm
    | _ => rw [coerce.eq_def] at hv; simp at hv
  typed v hv := coerce_self _ (by simp [Ty.wf]) v hv
  needed := rfl

theorem method_rigid (f : Function) : ∀ e ∈ f.method.args, Rigid e := by
  have h1 := rigid_prim .text (by decide)
  have h2 := rigid_prim .nat64 (by decide)
  have h3 := rigid_vec_prim .nat8
  cases f <;> simp [Function.method, h1, h2, h3]

theorem decode_rigid {e w : Ty} {v v' : Val} (h : Rigid e) (hd : decode e w v = some v') : w = e ∧ v' = v := by
  unfold decode at hd
  split at hd
  · next hs =>
    have := h.same w hs
    subst this
    exact ⟨rfl, h.kept _ _ hd⟩
  · cases hd

/-- Arguments at rigid types: they are sent as they are read, further ones are skipped. -/
theorem decodeArgs_rigid {es : List Ty} (h : ∀ e ∈ es, Rigid e) : ∀ {args : Args} {vs : List Val}, decodeArgs es args = some vs →
    vs.length = es.length ∧ ∃ rest, args = es.zip vs ++ rest := by
  induction es with
  | nil =>
    intro args vs hd
    rw [decodeArgs] at hd
    cases hd
    exact ⟨rfl, args, rfl⟩
  | cons e es ih =>
    intro args vs hd
    have he := h e (by simp)
    match args with
    | [] => rw [decodeArgs, he.needed] at hd; cases hd
    | (w, v) :: rest =>
      rw [decodeArgs] at hd
      simp only [Option.bind_eq_bind, Option.bind_eq_some_iff, Option.some.injEq] at hd
      obtain ⟨v', h1, vs', h2, rfl⟩ := hd
      obtain ⟨rfl, rfl⟩ := decode_rigid he h1
      obtain ⟨g1, rest', rfl⟩ := ih (fun e he => h e (by simp [he])) h2
      exact ⟨by simp [g1], rest', rfl⟩

theorem decodeArgs_zip {es : List Ty} (h : ∀ e ∈ es, Rigid e) : ∀ {vs : List Val} (rest : Args), vs.length = es.length →
    (∀ a ∈ es.zip vs, HasType a.1 a.2) → decodeArgs es (es.zip vs ++ rest) = some vs := by
  induction es with
  | nil =>
    intro vs rest hl _
    rw [decodeArgs]
    exact congrArg some (List.length_eq_zero_iff.mp hl).symm
  | cons e es ih =>
    intro vs rest hl ht
    match vs with
    | v :: vs =>
      have he := h e (by simp)
      have hv : HasType e v := ht (e, v) (by simp)
      have h1 : decode e e v = some v := by rw [decode, if_pos he.refl, he.typed v hv]
      have h2 := ih (fun e he => h e (by simp [he])) (vs := vs) rest (by simpa using hl) (fun a ha => ht a (by simp [ha]))
      rw [List.zip_cons_cons, List.cons_append, decodeArgs, h1, h2]
      rfl

theorem mapM_nat8 {vs : List Val} {b : Bytes} (h : vs.mapM Val.nat8? = some b) : vs = b.map .nat8 := by
  induction vs generalizing b with
  | nil => cases h; rfl
  | cons v vs ih =>
    rw [List.mapM_cons] at h
    simp only [Option.bind_eq_bind, Option.bind_eq_some_iff] at h
    obtain ⟨x, h1, bs, h2, h3⟩ := h
    cases h3
    cases v with
    | nat8 n => cases h1; rw [ih h2]; rfl
    | _ => cases h1

theorem blob?_some {v : Val} {b : Bytes} (h : v.blob? = some b) : v = .blob b := by
  cases v with
  | vec vs => exact congrArg Val.vec (mapM_nat8 h)
  | _ => cases h

theorem text?_some {v : Val} {b : Bytes} (h : v.text? = some b) : v = .text b := by
  cases v with
  | text b => cases h; rfl
  | _ => cases h

theorem nat64?_some {v : Val} {n : UInt64} (h : v.nat64? = some n) : v = .nat64 n := by
  cases v with
  | nat64 n => cases h; rfl
  | _ => cases h

theorem receiveCall_iff (f : Function) (caller : Bytes) (cert : Option Bytes) (args : Args) (op : Op) :
    receiveCall f caller cert args = some op ↔ ∃ vs, decodeArgs f.method.args args = some vs ∧ Asks f vs caller cert op := by
  constructor
  · intro h
    simp only [receiveCall, Option.bind_eq_bind, Option.bind_eq_some_iff] at h
    obtain ⟨vs, h1, h⟩ := h
    refine ⟨vs, h1, ?_⟩
    split at h <;> simp only [Option.bind_eq_some_iff, Option.some.injEq, reduceCtorEq] at h
    · obtain ⟨a, e1, rfl⟩ := h
      rw [text?_some e1]; constructor
    · obtain ⟨a, e1, b, e2, c, e3, d, e4, rfl⟩ := h
      rw [text?_some e1, text?_some e2, blob?_some e3, text?_some e4]; constructor
    · obtain ⟨a, e1, b, e2, c, e3, rfl⟩ := h
      rw [text?_some e1, blob?_some e2, nat64?_some e3]; constructor
    · obtain ⟨a, e1, rfl⟩ := h
      rw [blob?_some e1]; constructor
    · subst h; constructor
    · obtain ⟨a, e1, rfl⟩ := h
      rw [text?_some e1]; constructor
  · rintro ⟨vs, h1, h⟩
    rw [receiveCall, h1]
    cases h <;> simp [Val.text?, Val.nat64?, blob?_blob]

/-- What an optional field of a rigid type is read as: the value that was given at that type, bare or as an option. -/
theorem readField_opt {α : Type} {e : Ty} (he : Rigid e) (hn : e ≠ null) (ho : ∀ t, e ≠ .opt t) {f : Val → Option α} {g : α → Val}
    (hfg : ∀ v a, f v = some a ↔ v = g a) (hgs : ∀ a, coerce e e (g a) = some (g a))
    {ws : Fields} {vs : List (UInt32 × Val)} {name : String} {v : Val} {o : Option α}
    (h : readField ws vs (label name) (.opt e) = some v) (hv : v.opt? f = some o) (a : α) :
    o = some a ↔ Given ws vs name e (g a) := by
  -- the value a sender's value becomes, when it is sent at type `w`
  have inner : ∀ w u x, (if sub w e then
        match coerce w e u with
        | .some v => some (Val.some v)
        | .none => some Val.none
      else some Val.none) = some x → x.opt? f = some o → (o = some a ↔ w = e ∧ u = g a) := by
    intro w u x hx ho
    by_cases hs : sub w e = true
    · have := he.same w hs
      subst this
      rw [if_pos hs] at hx
      cases hc : coerce w w u with
      | none =>
        rw [hc] at hx
        cases hx
        cases ho
        refine ⟨(fun h => (nomatch h)), ?_⟩
        rintro ⟨_, rfl⟩
        rw [hgs] at hc
        cases hc
      | some u' =>
        rw [hc] at hx
        cases hx
        rw [Val.opt?, Option.map_eq_some_iff] at ho
        obtain ⟨b, h1, rfl⟩ := ho
        have := he.kept _ _ hc
        subst this
        rw [Option.some.injEq, ← hfg, h1, Option.some.injEq]
        simp
    · rw [if_neg hs] at hx
      cases hx
      cases ho
      refine ⟨(fun h => (nomatch h)), ?_⟩
      rintro ⟨rfl, _⟩
      exact absurd he.refl hs
  unfold Given FieldSent
  unfold readField at h
  cases hf : ws.find (label name) with
  | none =>
    rw [hf] at h
    cases h
    cases hv
    simp
  | some w =>
    cases hl : vs.lookup (label name) with
    | none => rw [hf, hl] at h; cases h
    | some u =>
      rw [hf, hl] at h
      simp only [Option.some.injEq] at h ⊢
      have hbare : ∀ w, (∀ t, w ≠ .opt t) → ((w = e ∧ u = g a) ↔ ((w = e ∧ u = g a) ∨ (w = .opt e ∧ u = .some (g a)))) := by
        intro w hw
        exact ⟨.inl, fun h => h.resolve_right fun h => hw _ h.1⟩
      cases w with
      | opt w =>
        have hne : ¬(Ty.opt w = e ∧ u = g a) := fun h => ho _ h.1.symm
        cases u with
        | none =>
          rw [coerce.eq_def] at h
          cases h
          cases hv
          simp [Ne.symm (ho w)]
        | some u =>
          rw [coerce.eq_def] at h
          rw [inner w u v h hv]
          simp only [hne, false_or, Ty.opt.injEq, Val.some.injEq]
        | _ => rw [coerce.eq_def] at h; cases h
      | prim p =>
        cases p with
        | null =>
          rw [coerce.eq_def] at h
          cases h
          cases hv
          simp [Ne.symm hn]
        | _ => rw [coerce.eq_def] at h; rw [inner _ u v h hv]; exact hbare _ nofun
      | vec => rw [coerce.eq_def] at h; rw [inner _ u v h hv]; exact hbare _ nofun
      | record => rw [coerce.eq_def] at h; rw [inner _ u v h hv]; exact hbare _ nofun
      | variant => rw [coerce.eq_def] at h; rw [inner _ u v h hv]; exact hbare _ nofun

theorem readField_rigid {e : Ty} (he : Rigid e) {ws : Fields} {vs : List (UInt32 × Val)} {name : String} {v : Val}
    (hs : ∀ w, ws.find (label name) = some w → sub w e = true)
    (h : readField ws vs (label name) e = some v) : FieldSent ws vs name e v := by
  unfold readField at h
  cases hf : ws.find (label name) with
  | none => rw [hf, he.needed] at h; cases h
  | some w =>
    have := he.same w (hs w hf)
    subst this
    cases hl : vs.lookup (label name) with
    | none => rw [hf, hl] at h; cases h
    | some u =>
      rw [hf, hl] at h
      simp only at h
      have := he.kept _ _ h
      subst this
      exact ⟨hf, hl⟩

theorem subFields_find : ∀ (es ws : Fields), subFields ws es = true → ∀ l e, es.find l = some e → ∀ w, ws.find l = some w → sub w e = true
  | .nil, _, _, l, e, h, _, _ => by simp [Fields.find] at h
  | .cons k t es, ws, hs, l, e, h, w, hw => by
    rw [subFields, Bool.and_eq_true] at hs
    rw [Fields.find] at h
    by_cases hk : k = l
    · subst hk
      rw [if_pos rfl] at h
      cases h
      have := hs.1
      rw [hw] at this
      exact this
    · rw [if_neg hk] at h
      exact subFields_find es ws hs.2 l e h w hw

/-- Decoding a configuration, field by field. -/
theorem receiveSettings_fields {args : Args} {i : SettingsInput} (h : receiveSettings args = some i) :
    ∃ ws vs rest us, args = (.record ws, .record vs) :: rest ∧ subFields ws (settingsFields (.opt nat32)) = true ∧
      coerceFields ws vs (settingsFields (.opt nat32)) = some us ∧ readSettings (.record us) = some i := by
  rw [receiveSettings, rust_settings] at h
  simp only [Option.bind_eq_bind, Option.bind_eq_some_iff] at h
  obtain ⟨xs, h1, h2⟩ := h
  match args with
  | [] => rw [decodeArgs] at h1; cases h1
  | (w, v) :: rest =>
    rw [decodeArgs] at h1
    simp only [Option.bind_eq_bind, Option.bind_eq_some_iff, Option.some.injEq, decodeArgs] at h1
    obtain ⟨x, h3, y, h4, rfl⟩ := h1
    subst h4
    simp only at h2
    unfold decode at h3
    split at h3
    · next hs =>
      cases w with
      | record ws =>
        cases v with
        | record vs =>
          rw [coerce.eq_def] at h3
          simp only [Option.map_eq_some_iff] at h3
          obtain ⟨us, h3, rfl⟩ := h3
          exact ⟨ws, vs, rest, us, rfl, by rw [sub] at hs; exact hs, h3, h2⟩
        | _ => rw [coerce.eq_def] at h3; cases h3
      | _ => simp [sub] at hs
    · cases h3

theorem nat32?_some {v : Val} {n : UInt32} (h : v.nat32? = some n) : v = .nat32 n := by
  cases v <;> simp only [Val.nat32?, reduceCtorEq, Option.some.injEq] at h
  rw [h]

theorem mapM_inv {α : Type} {f : Val → Option α} {g : α → Val} (hfg : ∀ v a, f v = some a → v = g a) :
    ∀ {vs : List Val} {as : List α}, vs.mapM f = some as → vs = as.map g
  | [], as, h => by
    simp only [List.mapM_nil, Option.pure_def, Option.some.injEq] at h
    rw [← h]
    rfl
  | v :: vs, as, h => by
    simp only [List.mapM_cons, Option.bind_eq_bind, Option.bind_eq_some_iff, Option.pure_def, Option.some.injEq] at h
    obtain ⟨a, h1, bs, h2, rfl⟩ := h
    rw [List.map_cons, ← hfg v a h1, ← mapM_inv hfg h2]

theorem texts?_some {v : Val} {ts : List Bytes} (h : v.vec? Val.text? = some ts) : v = .vec (ts.map .text) := by
  cases v <;> simp only [Val.vec?, reduceCtorEq] at h
  rw [mapM_inv (g := Val.text) (fun _ _ => text?_some) h]

theorem readFeature_some {v : Val} {f : ProviderFeature} (h : readFeature v = some f) : v = caseVal (featureName f) .null := by
  unfold readFeature at h
  split at h
  · next l =>
    split at h
    · next h1 => cases h; rw [h1]; rfl
    · split at h
      · next h1 => cases h; rw [h1]; rfl
      · split at h
        · next h1 => cases h; rw [h1]; rfl
        · cases h
  · cases h

/-- Nothing is read into a feature but what was sent. -/
theorem feature_kept {w : Ty} {v v' : Val} (h : coerce w Rust.runtimeFeature v = some v') : v' = v := by
  rw [runtimeFeature_eq, coerce.eq_def] at h
  cases w with
  | variant ws =>
    cases v with
    | variant l u =>
      simp only [Option.map_eq_some_iff] at h
      obtain ⟨u', h1, rfl⟩ := h
      congr 1
      have null_kept : ∀ {o : Option Ty} {x : Val}, (match o with
          | .some w => coerce w null u
          | .none => none) = some x → x = u := by
        intro o x hx
        cases o with
        | none => cases hx
        | some w =>
          simp only at hx
          rw [coerce.eq_def] at hx
          cases w with
          | prim q =>
            simp only at hx
            split at hx
            · cases hx; rfl
            · cases hx
          | _ => cases hx
      simp only [coerceCase] at h1
      split at h1
      · exact null_kept h1
      · split at h1
        · exact null_kept h1
        · split at h1
          · exact null_kept h1
          · cases h1
    | _ => cases h
  | _ => cases h

theorem features_kept {w : Ty} {v v' : Val} (h : coerce w (.vec Rust.runtimeFeature) v = some v') : v' = v := by
  rw [coerce.eq_def] at h
  cases w with
  | vec w =>
    cases v with
    | vec vs =>
      simp only [Option.map_eq_some_iff] at h
      obtain ⟨us, h1, rfl⟩ := h
      congr 1
      induction vs generalizing us with
      | nil =>
        simp only [List.mapM_nil, Option.pure_def, Option.some.injEq] at h1
        exact h1.symm
      | cons v vs ih =>
        simp only [List.mapM_cons, Option.bind_eq_bind, Option.bind_eq_some_iff, Option.pure_def, Option.some.injEq] at h1
        obtain ⟨a, h1, bs, h2, rfl⟩ := h1
        rw [feature_kept h1, ih _ h2]
    | _ => cases h
  | _ => cases h

theorem readSettings_some {us : List (UInt32 × Val)} {i : SettingsInput} (h : readSettings (.record us) = some i) :
    ∃ v1 v2 v3 v4 v5 v6 v7 v8 v9 v10, (us.lookup (label "domain") = some v1 ∧ v1.text? = some i.domain) ∧
      (us.lookup (label "uri") = some v2 ∧ v2.text? = some i.uri) ∧
      (us.lookup (label "salt") = some v3 ∧ v3.text? = some i.salt) ∧
      (us.lookup (label "chain_id") = some v4 ∧ v4.opt? Val.nat32? = some i.chainId) ∧
      (us.lookup (label "scheme") = some v5 ∧ v5.opt? Val.text? = some i.scheme) ∧
      (us.lookup (label "statement") = some v6 ∧ v6.opt? Val.text? = some i.statement) ∧
      (us.lookup (label "sign_in_expires_in") = some v7 ∧ v7.opt? Val.nat64? = some i.signInExpiresIn) ∧
      (us.lookup (label "session_expires_in") = some v8 ∧ v8.opt? Val.nat64? = some i.sessionExpiresIn) ∧
      (us.lookup (label "targets") = some v9 ∧ v9.opt? (Val.vec? Val.text?) = some i.targets) ∧
      (us.lookup (label "runtime_features") = some v10 ∧ v10.opt? (Val.vec? readFeature) = some i.runtimeFeatures) := by
  unfold readSettings at h
  have q1 : (Val.record us).field "domain" = us.lookup (label "domain") := rfl
  have q2 : (Val.record us).field "uri" = us.lookup (label "uri") := rfl
  have q3 : (Val.record us).field "salt" = us.lookup (label "salt") := rfl
  have q4 : (Val.record us).field "chain_id" = us.lookup (label "chain_id") := rfl
  have q5 : (Val.record us).field "scheme" = us.lookup (label "scheme") := rfl
  have q6 : (Val.record us).field "statement" = us.lookup (label "statement") := rfl
  have q7 : (Val.record us).field "sign_in_expires_in" = us.lookup (label "sign_in_expires_in") := rfl
  have q8 : (Val.record us).field "session_expires_in" = us.lookup (label "session_expires_in") := rfl
  have q9 : (Val.record us).field "targets" = us.lookup (label "targets") := rfl
  have q10 : (Val.record us).field "runtime_features" = us.lookup (label "runtime_features") := rfl
  obtain ⟨v1, e1, h⟩ := Option.bind_eq_some_iff.mp h
  obtain ⟨a1, r1, h⟩ := Option.bind_eq_some_iff.mp h
  obtain ⟨v2, e2, h⟩ := Option.bind_eq_some_iff.mp h
  obtain ⟨a2, r2, h⟩ := Option.bind_eq_some_iff.mp h
  obtain ⟨v3, e3, h⟩ := Option.bind_eq_some_iff.mp h
  obtain ⟨a3, r3, h⟩ := Option.bind_eq_some_iff.mp h
  obtain ⟨v4, e4, h⟩ := Option.bind_eq_some_iff.mp h
  obtain ⟨a4, r4, h⟩ := Option.bind_eq_some_iff.mp h
  obtain ⟨v5, e5, h⟩ := Option.bind_eq_some_iff.mp h
  obtain ⟨a5, r5, h⟩ := Option.bind_eq_some_iff.mp h
  obtain ⟨v6, e6, h⟩ := Option.bind_eq_some_iff.mp h
  obtain ⟨a6, r6, h⟩ := Option.bind_eq_some_iff.mp h
  obtain ⟨v7, e7, h⟩ := Option.bind_eq_some_iff.mp h
  obtain ⟨a7, r7, h⟩ := Option.bind_eq_some_iff.mp h
  obtain ⟨v8, e8, h⟩ := Option.bind_eq_some_iff.mp h
  obtain ⟨a8, r8, h⟩ := Option.bind_eq_some_iff.mp h
  obtain ⟨v9, e9, h⟩ := Option.bind_eq_some_iff.mp h
  obtain ⟨a9, r9, h⟩ := Option.bind_eq_some_iff.mp h
  obtain ⟨v10, e10, h⟩ := Option.bind_eq_some_iff.mp h
  obtain ⟨a10, r10, h⟩ := Option.bind_eq_some_iff.mp h
  cases h
  exact ⟨v1, v2, v3, v4, v5, v6, v7, v8, v9, v10, ⟨q1 ▸ e1, r1⟩, ⟨q2 ▸ e2, r2⟩, ⟨q3 ▸ e3, r3⟩, ⟨q4 ▸ e4, r4⟩, ⟨q5 ▸ e5, r5⟩, ⟨q6 ▸ e6, r6⟩, ⟨q7 ▸ e7, r7⟩, ⟨q8 ▸ e8, r8⟩, ⟨q9 ▸ e9, r9⟩, ⟨q10 ▸ e10, r10⟩⟩

end Siwe.Candid
