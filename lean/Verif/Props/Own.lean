import Verif.Spec.Own
import Verif.Props.LoginHistory
import Verif.Props.MappingAnswers
import Verif.Props.Nonces
import Verif.Props.Delegations
/-
C125: what a user is answered depends on nobody else's calls.
-/
namespace Siwe
open Spec

namespace Own

theorem filter_split {α : Type} {p : α → Bool} {es b a : List α} {e : α} (h : es.filter p = b ++ e :: a) :
    ∃ b' a', es = b' ++ e :: a' ∧ b'.filter p = b ∧ a'.filter p = a ∧ p e = true := by
  obtain ⟨l1, l2, rfl, h1, h2⟩ := List.filter_eq_append_iff.mp h
  obtain ⟨l3, l4, rfl, h3, h4, h5⟩ := List.filter_eq_cons_iff.mp h2
  refine ⟨l1 ++ l3, l4, by simp, ?_, h5, h4⟩
  rw [List.filter_append, h1, List.filter_eq_nil_iff.mpr (fun x hx => h3 x hx), List.append_nil]

variable {addr : Bytes}

theorem about_append (b a : List Event) : about addr (b ++ a) = about addr b ++ about addr a := List.filter_append ..
theorem about_cons {e : Event} (a : List Event) (h : e.isAbout addr = true) : about addr (e :: a) = e :: about addr a :=
  List.filter_cons_of_pos h
theorem about_split {b a : List Event} {e : Event} (h : e.isAbout addr = true) :
    about addr (b ++ e :: a) = about addr b ++ e :: about addr a := by rw [about_append, about_cons _ h]
theorem mem_about {es : List Event} {e : Event} : e ∈ about addr es ↔ e ∈ es ∧ e.isAbout addr = true := List.mem_filter

theorem isAbout_reinstalls {e : Event} (h : e.Reinstalls) : e.isAbout addr = true := by
  obtain ⟨i, h | h, -⟩ := h <;> simp [Event.isAbout, h]
theorem isAbout_installs {e : Event} (h : e.Installs) : e.isAbout addr = true := by
  obtain ⟨i, h, -⟩ := h; simp [Event.isAbout, h]
theorem isAbout_issues {e : Event} {n t : Bytes} (h : e.Issues addr n t) : e.isAbout addr = true := by
  simp [Event.isAbout, h.1]
theorem isAbout_attempts {e : Event} {n : Bytes} (h : e.Attempts addr n) : e.isAbout addr = true := by
  obtain ⟨sig, key, h⟩ := h; simp [Event.isAbout, h]
theorem isAbout_concerns {e : Event} {n : Bytes} (h : e.Concerns addr n) : e.isAbout addr = true :=
  h.elim (fun ⟨_, h⟩ => isAbout_issues h) isAbout_attempts
theorem isAbout_logsIn {e : Event} {k n : Bytes} {d : LoginDetails} (h : e.LogsIn addr k n d) : e.isAbout addr = true := by
  obtain ⟨⟨sig, h⟩, -⟩ := h; simp [Event.isAbout, h]
theorem isAbout_seeded {e : Event} {s : Bytes} (h : e.call = .rngSeeded s) : e.isAbout addr = true := by
  simp [Event.isAbout, h]

theorem sameModule_about {es : List Event} : SameModule (about addr es) ↔ SameModule es :=
  ⟨fun h e he hr => h e (mem_about.mpr ⟨he, isAbout_reinstalls hr⟩) hr, fun h e he => h e (mem_about.mp he).1⟩

theorem inForce_about {E : Env} {es : List Event} {s : Settings} {p : ProviderSettings} :
    InForce E (about addr es) s p ↔ InForce E es s p := by
  constructor
  · rintro ⟨b, e, a, i, h1, h2, h3, h4, h5⟩
    obtain ⟨b', a', g1, -, g3, -⟩ := filter_split h1
    exact ⟨b', e, a', i, g1, sameModule_about.mp (by rw [← g3] at h2; exact h2), h3, h4, h5⟩
  · rintro ⟨b, e, a, i, rfl, h2, h3, h4, h5⟩
    exact ⟨about addr b, e, about addr a, i, about_split (isAbout_reinstalls ⟨i, h3, h4⟩), sameModule_about.mpr h2, h3, h4, h5⟩

theorem lastArgument_about {es : List Event} {i : SettingsInput} : LastArgument (about addr es) i ↔ LastArgument es i := by
  constructor
  · rintro ⟨b, e, a, h1, h2, h3, h4⟩
    obtain ⟨b', a', g1, -, g3, -⟩ := filter_split h1
    exact ⟨b', e, a', g1, sameModule_about.mp (by rw [← g3] at h2; exact h2), h3, h4⟩
  · rintro ⟨b, e, a, rfl, h2, h3, h4⟩
    exact ⟨about addr b, e, about addr a, about_split (isAbout_reinstalls ⟨i, h3, h4⟩), sameModule_about.mpr h2, h3, h4⟩

theorem hasFeature_about {es : List Event} {f : ProviderFeature} : HasFeature (about addr es) f ↔ HasFeature es f :=
  exists_congr fun _ => and_congr lastArgument_about Iff.rfl

theorem seeded_about {es : List Event} : (∃ seed since, SeededWith (about addr es) seed since) ↔ ∃ seed since, SeededWith es seed since := by
  constructor
  · rintro ⟨seed, since, b, e, h1, h2, h3, h4⟩
    obtain ⟨b', a', g1, -, g3, -⟩ := filter_split h1
    refine ⟨seed, a', b', e, g1, h2, sameModule_about.mp (by rw [← g3] at h3; exact h3), fun x hx seed' hs => ?_⟩
    exact h4 x (by rw [← g3]; exact mem_about.mpr ⟨hx, isAbout_seeded hs⟩) seed' hs
  · rintro ⟨seed, since, b, e, rfl, h2, h3, h4⟩
    exact ⟨seed, about addr since, about addr b, e, about_split (isAbout_seeded h2), h2, sameModule_about.mpr h3,
      fun x hx => h4 x (mem_about.mp hx).1⟩

/-- No event has a storage key that collides with that of the address and the nonce. -/
def Free (E : Env) (addr nonce : Bytes) (es : List Event) : Prop :=
  ∀ e ∈ es, ∀ a n, e.Concerns a n → ¬KeyCollision E addr nonce a n

theorem awaits_about {E : Env} {es : List Event} {now : UInt64} {nonce : Bytes} (hf : Free E addr nonce es)
    (hc : ∀ e ∈ es, e.time.toNat ≤ now.toNat) (t : UInt64) (txt : Bytes) :
    Awaits E (about addr es) now addr nonce t txt ↔ Awaits E es now addr nonce t txt := by
  have own : ∀ x ∈ es, ∀ a n, x.Concerns a n → SameSlot E addr nonce a n → a = addr ∧ n = nonce := by
    rintro x hx a n h1 (h2 | h2)
    · exact h2
    · exact absurd h2 (hf x hx a n h1)
  constructor
  · rintro ⟨b, e, a, addr', nonce', s, p, h1, h2, h3, h4, h5, h6, h7, h8⟩
    obtain ⟨b', a', g1, g2, g3, g4⟩ := filter_split h1
    refine ⟨b', e, a', addr', nonce', s, p, g1, sameModule_about.mp (by rw [← g3] at h2; exact h2), inForce_about.mp h3, h4, h5, h6, h7,
      fun x hx => ⟨fun a n t' hi hs => ?_, fun a n ht => ⟨fun hs => ?_, ?_⟩⟩⟩
    · obtain ⟨rfl, rfl⟩ := own x (by rw [g1]; simp [hx]) a n (.inl ⟨t', hi⟩) hs
      exact (h8 x (by rw [← g3]; exact mem_about.mpr ⟨hx, isAbout_issues hi⟩)).1 _ _ t' hi hs
    · obtain ⟨sig, key, hcall, hA, hS⟩ := ht
      obtain ⟨rfl, rfl⟩ := own x (by rw [g1]; simp [hx]) a n (.inr ⟨sig, key, hcall⟩) hs
      exact ((h8 x (by rw [← g3]; exact mem_about.mpr ⟨hx, isAbout_attempts ⟨sig, key, hcall⟩⟩)).2 _ _ ⟨sig, key, hcall, hA, hS⟩).1 hs
    · have := hc x (by rw [g1]; simp [hx])
      omega
  · rintro ⟨b, e, a, addr', nonce', s, p, h1, h2, h3, h4, h5, h6, h7, h8⟩
    obtain ⟨rfl, rfl⟩ := own e (by rw [h1]; simp) addr' nonce' (.inl ⟨txt, h5⟩) h6
    exact ⟨about addr' b, e, about addr' a, addr', nonce', s, p, by rw [h1, about_split (isAbout_issues h5)], sameModule_about.mpr h2,
      inForce_about.mpr h3, h4, h5, h6, h7, fun x hx => h8 x (mem_about.mp hx).1⟩

theorem loginAnswer_about {E : Env} {es : List Event} {now : UInt64} {nonce : Bytes} (hf : Free E addr nonce es)
    (hc : ∀ e ∈ es, e.time.toNat ≤ now.toNat) (sig key : Bytes) (r : Reply) :
    LoginAnswer E (about addr es) now sig addr key nonce r ↔ LoginAnswer E es now sig addr key nonce r := by
  have aw := fun t txt => awaits_about hf hc t txt
  constructor
  · intro h
    cases h with
    | badAddress e h => exact .badAddress e h
    | badSignature e h1 h2 => exact .badSignature e h1 h2
    | notFound h1 h2 h3 => exact .notFound h1 h2 fun ⟨t, txt, h⟩ => h3 ⟨t, txt, (aw t txt).mpr h⟩
    | unrecoverable t txt e h1 h2 h3 h4 => exact .unrecoverable t txt e h1 h2 ((aw t txt).mp h3) h4
    | otherSigner t txt pub h1 h2 h3 h4 h5 => exact .otherSigner t txt pub h1 h2 ((aw t txt).mp h3) h4 h5
    | badKey t txt e h1 h2 h3 h4 h5 => exact .badKey t txt e h1 h2 ((aw t txt).mp h3) h4 h5
    | success t txt s p seed d h1 h2 h3 h4 h5 h6 h7 h8 h9 h10 =>
      exact .success t txt s p seed d h1 h2 ((aw t txt).mp h3) h4 h5 h6 (inForce_about.mp h7) h8 h9 h10
  · intro h
    cases h with
    | badAddress e h => exact .badAddress e h
    | badSignature e h1 h2 => exact .badSignature e h1 h2
    | notFound h1 h2 h3 => exact .notFound h1 h2 fun ⟨t, txt, h⟩ => h3 ⟨t, txt, (aw t txt).mp h⟩
    | unrecoverable t txt e h1 h2 h3 h4 => exact .unrecoverable t txt e h1 h2 ((aw t txt).mpr h3) h4
    | otherSigner t txt pub h1 h2 h3 h4 h5 => exact .otherSigner t txt pub h1 h2 ((aw t txt).mpr h3) h4 h5
    | badKey t txt e h1 h2 h3 h4 h5 => exact .badKey t txt e h1 h2 ((aw t txt).mpr h3) h4 h5
    | success t txt s p seed d h1 h2 h3 h4 h5 h6 h7 h8 h9 h10 =>
      exact .success t txt s p seed d h1 h2 ((aw t txt).mpr h3) h4 h5 h6 (inForce_about.mpr h7) h8 h9 h10

theorem counts_about {before : List Event} {e : Event} :
    CountsForAddress addr (about addr before) e ↔ CountsForAddress addr before e :=
  and_congr (not_congr hasFeature_about) Iff.rfl

theorem principalFor_about {E : Env} {es : List Event} {p : Bytes} : PrincipalFor E (about addr es) addr p ↔ PrincipalFor E es addr p := by
  constructor
  · rintro ⟨b, e, key, nonce, d, ⟨a, h1, h2, h3, h4⟩, h5, h6⟩
    obtain ⟨b', a', g1, g2, g3, g4⟩ := filter_split h1
    change about addr b' = b at g2
    change about addr a' = a at g3
    refine ⟨b', e, key, nonce, d, ⟨a', g1, counts_about.mp (g2 ▸ h2),
      fun y hy hi => h3 y (by rw [← g3]; exact mem_about.mpr ⟨hy, isAbout_installs hi⟩) hi, fun m e' r hm hcnt => ?_⟩, h5, h6⟩
    have he' : e'.isAbout addr = true := by obtain ⟨_, k, n, d', hl⟩ := hcnt; exact isAbout_logsIn hl
    refine h4 (about addr m) e' (about addr r) (by rw [← g3, hm, about_split he']) ?_
    rw [← g2, ← about_split g4]
    exact counts_about.mpr hcnt
  · rintro ⟨b, e, key, nonce, d, ⟨a, rfl, h2, h3, h4⟩, h5, h6⟩
    have he := isAbout_logsIn h5
    refine ⟨about addr b, e, key, nonce, d, ⟨about addr a, about_split he, counts_about.mpr h2,
      fun y hy => h3 y (mem_about.mp hy).1, fun m e' r hm hcnt => ?_⟩, h5, h6⟩
    obtain ⟨m', r', g1, g2, g3, g4⟩ := filter_split hm
    change about addr m' = m at g2
    refine h4 m' e' r' g1 (counts_about.mp ?_)
    rw [about_split he, g2]
    exact hcnt

theorem principalAnswer_about {E : Env} {es : List Event} {r : Reply} :
    PrincipalAnswer E (about addr es) addr r ↔ PrincipalAnswer E es addr r := by
  constructor
  · intro h
    cases h with
    | disabled h => exact .disabled (hasFeature_about.mp h)
    | badAddress e h1 h2 => exact .badAddress e (fun h => h1 (hasFeature_about.mpr h)) h2
    | found p h1 h2 h3 => exact .found p (fun h => h1 (hasFeature_about.mpr h)) h2 (principalFor_about.mp h3)
    | none h1 h2 h3 => exact .none (fun h => h1 (hasFeature_about.mpr h)) h2 fun p h => h3 p (principalFor_about.mpr h)
  · intro h
    cases h with
    | disabled h => exact .disabled (hasFeature_about.mpr h)
    | badAddress e h1 h2 => exact .badAddress e (fun h => h1 (hasFeature_about.mp h)) h2
    | found p h1 h2 h3 => exact .found p (fun h => h1 (hasFeature_about.mp h)) h2 (principalFor_about.mpr h3)
    | none h1 h2 h3 => exact .none (fun h => h1 (hasFeature_about.mp h)) h2 fun p h => h3 p (principalFor_about.mp h)

end Own
open Own

/-- C125: a login is answered alike by two canisters that saw the same events about the address, whatever else they saw; or storage keys
collide. -/
theorem C125_login (E : Env) (h h' : History) (addr : Bytes) (hs : about addr (trace E h) = about addr (trace E h')) (now : UInt64)
    (hc : ∀ e ∈ trace E h ++ trace E h', e.time.toNat ≤ now.toNat) (sig key nonce : Bytes) :
    (step (stateAfter E h) now (.login sig addr key nonce)).2 = (step (stateAfter E h') now (.login sig addr key nonce)).2 ∨
      ∃ e ∈ trace E h ++ trace E h', ∃ a n, e.Concerns a n ∧ KeyCollision E addr nonce a n := by
  by_cases hf : ∃ e ∈ trace E h ++ trace E h', ∃ a n, e.Concerns a n ∧ KeyCollision E addr nonce a n
  · exact .inr hf
  have f1 : Free E addr nonce (trace E h) := fun e he a n h1 h2 => hf ⟨e, List.mem_append_left _ he, a, n, h1, h2⟩
  have f2 : Free E addr nonce (trace E h') := fun e he a n h1 h2 => hf ⟨e, List.mem_append_right _ he, a, n, h1, h2⟩
  refine .inl (C91_only_answer E h' now sig addr key nonce _ ?_)
  have := (loginAnswer_about f1 (fun e he => hc e (List.mem_append_left _ he)) sig key _).mpr (C91_answer E h now sig addr key nonce)
  rw [hs] at this
  exact (loginAnswer_about f2 (fun e he => hc e (List.mem_append_right _ he)) sig key _).mp this

/-- C125: and so is a request for a message, but for the nonce. -/
theorem C125_prepare (E : Env) (h h' : History) (addr : Bytes) (hs : about addr (trace E h) = about addr (trace E h')) (now : UInt64) :
    SameUpToNonce (step (stateAfter E h) now (.prepareLogin addr)).2 (step (stateAfter E h') now (.prepareLogin addr)).2 := by
  have f : ∀ s p, InForce E (trace E h) s p ↔ InForce E (trace E h') s p := fun s p => by
    rw [← inForce_about (addr := addr), hs, inForce_about]
  have g : (∃ seed since, SeededWith (trace E h) seed since) ↔ ∃ seed since, SeededWith (trace E h') seed since := by
    rw [← seeded_about (addr := addr), hs, seeded_about]
  have a1 := C89_answer E h now addr
  have a2 := C89_answer E h' now addr
  generalize (step (stateAfter E h) now (.prepareLogin addr)).2 = r1 at a1 ⊢
  generalize (step (stateAfter E h') now (.prepareLogin addr)).2 = r2 at a2 ⊢
  cases a1 with
  | badAddress e h1 =>
    cases a2 with
    | badAddress e' h2 =>
      have := ((addressError_iff E addr e).mpr h1).symm.trans ((addressError_iff E addr e').mpr h2)
      cases this
      exact .inl rfl
    | notReady h2 => exact absurd h2 (isAddress_not_error h1)
    | prepared _ _ _ _ _ _ h2 => exact absurd h2 (isAddress_not_error h1)
  | notReady h1 h2 =>
    cases a2 with
    | badAddress e h => exact absurd h1 (isAddress_not_error h)
    | notReady => exact .inl rfl
    | prepared s p seed since _ _ _ q1 q2 =>
      rcases h2 with h2 | h2
      · exact absurd (g.mpr ⟨seed, since, q2⟩) h2
      · exact absurd ⟨s, p, (f s p).mpr q1⟩ h2
  | prepared s p seed since text nonce h1 q1 q2 q3 q4 q5 =>
    cases a2 with
    | badAddress e h => exact absurd h1 (isAddress_not_error h)
    | notReady _ h2 =>
      rcases h2 with h2 | h2
      · exact absurd (g.mp ⟨seed, since, q2⟩) h2
      · exact absurd ⟨s, p, (f s p).mp q1⟩ h2
    | prepared s' p' seed' since' text' nonce' _ t1 t2 t3 t4 t5 =>
      have e1 := (inForce_state ((f s p).mp q1)).1
      have e2 := (inForce_state t1).1
      rw [e1] at e2
      cases Option.some.inj e2
      exact .inr ⟨⟨s.domain, addr, s.statement, s.uri, 1, s.chainId.toNat, nonce, now.toNat,
        min (now.toNat + s.signInExpiresIn.toNat) (2 ^ 64 - 1)⟩, text, nonce, text', nonce', rfl, rfl, q5, t5⟩

/-- C125: `get_principal` of the address is answered alike. -/
theorem C125_principal (E : Env) (h h' : History) (addr : Bytes) (hs : about addr (trace E h) = about addr (trace E h')) (now now' : UInt64) :
    (step (stateAfter E h) now (.getPrincipal addr)).2 = (step (stateAfter E h') now' (.getPrincipal addr)).2 := by
  have a1 := principalAnswer_about.mpr (C72_get_principal E h now addr)
  rw [hs] at a1
  have a1 := principalAnswer_about.mp a1
  have a2 := C72_get_principal E h' now' addr
  generalize (step (stateAfter E h) now (.getPrincipal addr)).2 = r1 at a1 ⊢
  generalize (step (stateAfter E h') now' (.getPrincipal addr)).2 = r2 at a2 ⊢
  cases a1 with
  | disabled h1 =>
    cases a2 with
    | disabled => rfl
    | badAddress _ h2 => exact absurd h1 h2
    | found _ h2 => exact absurd h1 h2
    | none h2 => exact absurd h1 h2
  | badAddress e h1 h2 =>
    cases a2 with
    | disabled h => exact absurd h h1
    | badAddress e' _ h3 =>
      have := ((addressError_iff E addr e).mpr h2).symm.trans ((addressError_iff E addr e').mpr h3)
      cases this
      rfl
    | found _ _ h3 => exact absurd h3 (isAddress_not_error h2)
    | none _ h3 => exact absurd h3 (isAddress_not_error h2)
  | found p h1 h2 h3 =>
    cases a2 with
    | disabled h => exact absurd h h1
    | badAddress _ _ h => exact absurd h2 (isAddress_not_error h)
    | found p' _ _ h4 => rw [(C72_unique E h').2 addr p p' h2 h3 h4]
    | none _ _ h4 => exact absurd h3 (h4 p)
  | none h1 h2 h3 =>
    cases a2 with
    | disabled h => exact absurd h h1
    | badAddress _ _ h => exact absurd h2 (isAddress_not_error h)
    | found p' _ _ h4 => exact absurd h4 (h3 p')
    | none => rfl

/-- C125: and the delegation is available alike, for a session key and an expiration that were granted to the address once, and not at
the very end of its minute; or hashes collide. -/
theorem C125_delegation (E : Env) (h h' : History) (addr : Bytes) (hs : about addr (trace E h) = about addr (trace E h')) (now : UInt64)
    (hc : ∀ e ∈ trace E h', e.time.toNat ≤ now.toNat) (key : Bytes) (expiration : UInt64)
    (honce : ∀ x ∈ trace E h, ∀ y ∈ trace E h, ∀ n d n' d', x.LogsIn addr key n d → y.LogsIn addr key n' d' →
      d.expiration = expiration → d'.expiration = expiration → x = y)
    (hend : ∀ x ∈ trace E h, ∀ n d, x.LogsIn addr key n d → now.toNat ≠ min (x.time.toNat + minute) (2 ^ 64 - 1)) (cert : Bytes)
    (sd : SignedDelegation) (hr : (step (stateAfter E h) now (.getDelegation (some cert) addr key expiration)).2 = .delegation sd) :
    (∃ sd', (step (stateAfter E h') now (.getDelegation (some cert) addr key expiration)).2 = .delegation sd' ∧
      sd'.delegation = sd.delegation) ∨
    ∃ x ∈ trace E h ++ trace E h', ∃ addr' key' n d s p, x.LogsIn addr' key' n d ∧ InForce E (trace E h) s p ∧
      GrantCollision E s addr key expiration addr' key' d.expiration := by
  have f : ∀ s p, InForce E (trace E h) s p ↔ InForce E (trace E h') s p := fun s p => by
    rw [← inForce_about (addr := addr), hs, inForce_about]
  obtain ⟨b, e, a, addr', key', nonce, ld, s, g1, g2, g3, g4, g5, g6⟩ := C27_needs_recent_login E h now (some cert) addr key expiration sd hr
  have hmem : e ∈ trace E h := by rw [g1]; simp
  rcases g6 with ⟨rfl, rfl, rfl⟩ | g6
  swap
  · exact .inr ⟨e, List.mem_append_left _ hmem, addr', key', nonce, ld, s, _, g3, g5, g6⟩
  have he := isAbout_logsIn g3
  have hab : about addr' (trace E h') = about addr' b ++ e :: about addr' a := by rw [← hs, g1, about_split he]
  obtain ⟨b', a', q1, q2, q3, -⟩ := filter_split hab
  have hsm : SameModule a' := (sameModule_about (addr := addr')).mp (by change about addr' a' = _ at q3; rw [q3]; exact sameModule_about.mpr g2)
  have hlt : now.toNat < min (e.time.toNat + minute) (2 ^ 64 - 1) := by
    have h1 := hend e hmem nonce ld g3
    have := now.toNat_lt
    omega
  rcases C28_single_login_partial E h' b' a' e addr' key' nonce ld now cert q1 hsm g3 hlt (fun y hy => hc y (by rw [q1]; simp [hy]))
      (fun b2 x a2 n2 d2 k1 _ k3 k4 => by
        have hx : x ∈ trace E h := by
          have : x ∈ about addr' (trace E h') := mem_about.mpr ⟨by rw [k1]; simp, isAbout_logsIn k3⟩
          rw [← hs] at this
          exact (mem_about.mp this).1
        exact honce x hx e hmem n2 d2 nonce ld k3 g3 k4 rfl) with ⟨sd', hsd'⟩ | ⟨x, hx, a2, k2, n2, d2, s2, t1, t2, t3⟩
  · refine .inl ⟨sd', hsd', ?_⟩
    have c1 := C52_decision E h now (some cert) addr' key' ld.expiration
    have c2 := C52_decision E h' now (some cert) addr' key' ld.expiration
    rw [hr] at c1
    rw [hsd'] at c2
    have e1 := (inForce_state g5).1
    have e2 := (inForce_state ((f _ _).mp g5)).1
    cases c1 with
    | success _ s1 sh dh w _ _ w2 _ _ _ _ _ _ _ w10 =>
      cases c2 with
      | success _ s2 sh' dh' w' _ _ v2 _ _ _ _ _ _ _ v10 =>
        rw [e1] at w2; cases w2
        rw [e2] at v2; cases v2
        rw [w10, v10]
  · exact .inr ⟨x, List.mem_append_right _ hx, a2, k2, n2, d2, s2, _, t1, (f _ _).mpr t2, t3⟩

/-- What the example's first user did, without the second. -/
def Ex.alone : History :=
  [(1, .install Ex.input), (2, .rngSeeded [1, 2, 3]), (5, .prepareLogin Ex.alice), (100, .login Ex.aliceSig Ex.alice Ex.key (Ex.nonce 3))]
/-- And with the second user all over the place. -/
def Ex.inCompany : History := Ex.loggedIn ++
  [(110, .login Ex.bobSig Ex.bob Ex.key (Ex.nonce 4)), (120, .prepareLogin Ex.bob), (120, .getPrincipal Ex.bob), (130, .getAddress [])]

/-- Non-vacuity of C125: two histories with the same events about the first user; the delegation is granted once, and available. -/
example : about Ex.alice (trace Toy.env Ex.alone) = about Ex.alice (trace Toy.env Ex.inCompany) ∧
    (about Ex.alice (trace Toy.env Ex.alone)).length = 4 ∧ (trace Toy.env Ex.inCompany).length = 9 ∧
    (∀ e ∈ trace Toy.env Ex.alone ++ trace Toy.env Ex.inCompany, e.time.toNat ≤ 200) ∧
    (∀ x ∈ trace Toy.env Ex.alone, ∀ y ∈ trace Toy.env Ex.alone, ∀ n d n' d', x.LogsIn Ex.alice Ex.key n d →
      y.LogsIn Ex.alice Ex.key n' d' → d.expiration = Ex.expiration → d'.expiration = Ex.expiration → x = y) ∧
    (∀ x ∈ trace Toy.env Ex.alone, ∀ n d, x.LogsIn Ex.alice Ex.key n d → 200 ≠ min (x.time.toNat + minute) (2 ^ 64 - 1)) ∧
    ∃ sd, (step (stateAfter Toy.env Ex.alone) 200 (.getDelegation (some [7]) Ex.alice Ex.key Ex.expiration)).2 = .delegation sd := by
  have hne : (Ex.bob == Ex.alice) = false := by decide +kernel
  refine ⟨?_, ?_, rfl, ?_, ?_, ?_, ?_⟩
  · have h : (about Ex.alice (trace Toy.env Ex.alone)).map (fun e => (e.time, e.call, e.reply)) =
        (about Ex.alice (trace Toy.env Ex.inCompany)).map (fun e => (e.time, e.call, e.reply)) := by decide +kernel
    exact List.map_injective_iff.mpr (fun x y hxy => by cases x; cases y; simp_all) h
  · decide +kernel
  · intro e he
    simp only [Ex.alone, Ex.inCompany, Ex.loggedIn, Ex.prepared, trace, traceFrom, List.cons_append, List.nil_append, List.mem_cons,
      List.not_mem_nil, or_false] at he
    rcases he with rfl | rfl | rfl | rfl | rfl | rfl | rfl | rfl | rfl | rfl | rfl | rfl | rfl <;> decide
  · intro x hx y hy n d n' d' h1 h2 _ _
    obtain ⟨⟨_, h1⟩, _⟩ := h1
    obtain ⟨⟨_, h2⟩, _⟩ := h2
    simp only [Ex.alone, trace, traceFrom, List.mem_cons, List.not_mem_nil, or_false] at hx hy
    rcases hx with rfl | rfl | rfl | rfl <;> cases h1
    rcases hy with rfl | rfl | rfl | rfl <;> cases h2
    rfl
  · intro x hx n d h1
    obtain ⟨⟨_, h1⟩, _⟩ := h1
    simp only [Ex.alone, trace, traceFrom, List.mem_cons, List.not_mem_nil, or_false] at hx
    rcases hx with rfl | rfl | rfl | rfl <;> cases h1
    unfold minute; decide
  · have h : (match (step (stateAfter Toy.env Ex.alone) 200 (.getDelegation (some [7]) Ex.alice Ex.key Ex.expiration)).2 with
      | .delegation _ => true | _ => false) = true := by decide +kernel
    split at h
    · next sd h' => exact ⟨sd, h'⟩
    · cases h

end Siwe
