import Verif.Spec.Builder
/- Chains of builder calls. -/
namespace Siwe
open Spec

theorem holds_foldl {α : Type} {about : BuilderCall → Option α} {proj : Settings → α}
    (hnone : ∀ b c, about c = none → proj (SettingsBuilder.call b c) = proj b)
    (hsome : ∀ b c v, about c = some v → proj (SettingsBuilder.call b c) = v) (calls : List BuilderCall) (b : Settings) :
    LastGiven about (proj b) calls (proj (calls.foldl SettingsBuilder.call b)) := by
  induction calls generalizing b with
  | nil => exact .untouched (by simp)
  | cons c cs ih =>
    rw [List.foldl_cons]
    have h := ih (SettingsBuilder.call b c)
    generalize proj (cs.foldl SettingsBuilder.call (SettingsBuilder.call b c)) = w at h
    cases h with
    | untouched hu =>
      cases hc : about c with
      | none =>
        rw [hnone b c hc]
        exact .untouched (by simpa [hc] using hu)
      | some v =>
        rw [hsome b c v hc]
        exact .last [] c cs v rfl hc hu
    | last pre d post v he hd hp => exact .last (c :: pre) d post w (by simp [he]) hd hp

theorem Spec.LastGiven.unique {α : Type} {about : BuilderCall → Option α} {d : α} {calls : List BuilderCall} {v w : α}
    (hv : LastGiven about d calls v) (hw : LastGiven about d calls w) : v = w := by
  have key : ∀ {x}, LastGiven about d calls x → x = calls.foldl (fun a c => (about c).getD a) d := by
    intro x hx
    have none_fold : ∀ (l : List BuilderCall) (a : α), (∀ c ∈ l, about c = none) →
        l.foldl (fun a c => (about c).getD a) a = a := by
      intro l
      induction l with
      | nil => simp
      | cons c l ih =>
        intro a h
        simp only [List.mem_cons, forall_eq_or_imp] at h
        simp [h.1, ih a h.2]
    cases hx with
    | untouched h => exact (none_fold calls d h).symm
    | last pre c post v he hc hp =>
      subst he
      simp [hc, none_fold post x hp]
  rw [key hv, key hw]

theorem callsMean_foldl (domain uri salt : Bytes) (calls : List BuilderCall) :
    CallsMean domain uri salt calls (calls.foldl SettingsBuilder.call (SettingsBuilder.new domain uri salt)) := by
  have same : ∀ (calls : List BuilderCall) (b : Settings),
      (calls.foldl SettingsBuilder.call b).domain = b.domain ∧ (calls.foldl SettingsBuilder.call b).uri = b.uri ∧
      (calls.foldl SettingsBuilder.call b).salt = b.salt := by
    intro calls
    induction calls with
    | nil => simp
    | cons c cs ih =>
      intro b
      rw [List.foldl_cons]
      obtain ⟨h1, h2, h3⟩ := ih (SettingsBuilder.call b c)
      rw [h1, h2, h3]
      cases c <;> exact ⟨rfl, rfl, rfl⟩
  obtain ⟨h1, h2, h3⟩ := same calls (SettingsBuilder.new domain uri salt)
  refine ⟨h1, h2, h3, ?_, ?_, ?_, ?_, ?_, ?_, ?_⟩
  · refine holds_foldl (about := givesChainId) (proj := Settings.chainId) ?_ ?_ calls (SettingsBuilder.new domain uri salt)
    · intro b c h; cases c <;> first | rfl | exact nomatch h
    · intro b c v h; cases c <;> first | exact Option.some.inj h | exact nomatch h
  · refine holds_foldl (about := givesScheme) (proj := Settings.scheme) ?_ ?_ calls (SettingsBuilder.new domain uri salt)
    · intro b c h; cases c <;> first | rfl | exact nomatch h
    · intro b c v h; cases c <;> first | exact Option.some.inj h | exact nomatch h
  · refine holds_foldl (about := givesStatement) (proj := Settings.statement) ?_ ?_ calls (SettingsBuilder.new domain uri salt)
    · intro b c h; cases c <;> first | rfl | exact nomatch h
    · intro b c v h; cases c <;> first | exact Option.some.inj h | exact nomatch h
  · refine holds_foldl (about := givesSignIn) (proj := Settings.signInExpiresIn) ?_ ?_ calls (SettingsBuilder.new domain uri salt)
    · intro b c h; cases c <;> first | rfl | exact nomatch h
    · intro b c v h; cases c <;> first | exact Option.some.inj h | exact nomatch h
  · refine holds_foldl (about := givesSession) (proj := Settings.sessionExpiresIn) ?_ ?_ calls (SettingsBuilder.new domain uri salt)
    · intro b c h; cases c <;> first | rfl | exact nomatch h
    · intro b c v h; cases c <;> first | exact Option.some.inj h | exact nomatch h
  · refine holds_foldl (about := givesTargets) (proj := Settings.targets) ?_ ?_ calls (SettingsBuilder.new domain uri salt)
    · intro b c h; cases c <;> first | rfl | exact nomatch h
    · intro b c v h; cases c <;> first | exact Option.some.inj h | exact nomatch h
  · refine holds_foldl (about := givesFeatures) (proj := Settings.runtimeFeatures) ?_ ?_ calls (SettingsBuilder.new domain uri salt)
    · intro b c h; cases c <;> first | rfl | exact nomatch h
    · intro b c v h; cases c <;> first | exact Option.some.inj h | exact nomatch h

theorem Spec.CallsMean.unique {domain uri salt : Bytes} {calls : List BuilderCall} {s t : Settings}
    (hs : CallsMean domain uri salt calls s) (ht : CallsMean domain uri salt calls t) : s = t := by
  obtain ⟨a1, a2, a3, a4, a5, a6, a7, a8, a9, a10⟩ := hs
  obtain ⟨b1, b2, b3, b4, b5, b6, b7, b8, b9, b10⟩ := ht
  cases s
  cases t
  simp only at *
  rw [a1, a2, a3, b1, b2, b3, a4.unique b4, a5.unique b5, a6.unique b6, a7.unique b7, a8.unique b8, a9.unique b9,
    a10.unique b10]

theorem Spec.LastGiven.perm {α : Type} {about : BuilderCall → Option α} {d : α} {calls calls' : List BuilderCall} {v : α}
    (hm : ∀ c c' v v', about c = some v → about c' = some v' → methodOf c = methodOf c')
    (hn : (calls'.map methodOf).Nodup) (hp : calls.Perm calls') (h : LastGiven about d calls v) : LastGiven about d calls' v := by
  cases h with
  | untouched hu => exact .untouched fun c hc => hu c (hp.mem_iff.2 hc)
  | last pre c post v he hc _ =>
    have hmem : c ∈ calls' := hp.mem_iff.1 (by simp [he])
    obtain ⟨pre', post', rfl⟩ := List.append_of_mem hmem
    refine .last pre' c post' v rfl hc fun e he => ?_
    cases hx : about e with
    | none => rfl
    | some w =>
      exfalso
      rw [List.map_append, List.map_cons] at hn
      have := (List.nodup_cons.1 (List.nodup_append.1 hn).2.1).1
      exact this (hm c e v w hc hx ▸ List.mem_map_of_mem he)

theorem Spec.CallsMean.perm {domain uri salt : Bytes} {calls calls' : List BuilderCall} {s : Settings}
    (hn : (calls'.map methodOf).Nodup) (hp : calls.Perm calls') (hs : CallsMean domain uri salt calls s) :
    CallsMean domain uri salt calls' s := by
  obtain ⟨a1, a2, a3, a4, a5, a6, a7, a8, a9, a10⟩ := hs
  refine ⟨a1, a2, a3, a4.perm ?_ hn hp, a5.perm ?_ hn hp, a6.perm ?_ hn hp, a7.perm ?_ hn hp, a8.perm ?_ hn hp,
    a9.perm ?_ hn hp, a10.perm ?_ hn hp⟩ <;>
  · intro c c' v v'
    cases c <;> cases c' <;> first | exact fun _ _ => rfl | exact nofun | exact fun _ => nofun

end Siwe
