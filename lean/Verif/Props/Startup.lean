import Verif.Lemmas.Startup
import Verif.Props.Nonces
/- C121: the start of a canister. -/
namespace Siwe.Startup
open Spec

variable {E : Env}

theorem mem_seenFrom {c : Running E} {ws : List (UInt64 × Happening)} {x : Seen} (h : x ∈ seenFrom c ws) :
    ∃ c' : Running E, x.outcome = (happen c' x.time x.what).2 := by
  obtain ⟨before, later, e⟩ := List.append_of_mem h
  obtain ⟨ws₁, _, _, _, e3, _⟩ := seenFrom_split e
  exact ⟨_, e3⟩

theorem seeded_iff {c : Running E} {ws : List (UInt64 × Happening)} {x : Seen} (h : x ∈ seenFrom c ws) :
    x.seeded = true ↔ ∃ seed, x.Seeds seed := by
  obtain ⟨c', e⟩ := mem_seenFrom h
  obtain ⟨t, w, o⟩ := x
  simp only at e
  constructor
  · intro hs
    unfold Seen.seeded at hs
    split at hs
    · next b h1 h2 =>
      simp only at h1 h2
      subst h1 h2
      refine ⟨b, rfl, ?_, rfl⟩
      simp only [happen] at e
      split at e
      · exact nomatch e
      · split at e
        · assumption
        · exact nomatch e
    · exact nomatch hs
  · rintro ⟨seed, h1, _, h3⟩
    simp only at h1 h3
    subst h1 h3
    rfl

theorem failed_iff (x : Seen) : x.failed = true ↔ x.Fails := by
  obtain ⟨t, w, o⟩ := x
  constructor
  · intro h
    unfold Seen.failed at h
    split at h
    · next h1 h2 => exact ⟨h2, .inr (.inr ⟨_, h1⟩)⟩
    · next h1 h2 => exact ⟨h2, .inl h1⟩
    · next h1 h2 => exact ⟨h2, .inr (.inl h1)⟩
    · exact nomatch h
  · rintro ⟨h1, h2⟩
    simp only at h1 h2
    subst h1
    rcases h2 with rfl | rfl | ⟨b, rfl⟩ <;> rfl

theorem renews_state {c : Running E} {x : Seen} (e : x.outcome = (happen c x.time x.what).2) (hr : x.Renews) :
    (happen c x.time x.what).1.timers = 1 ∧ (happen c x.time x.what).1.awaiting = 0 := by
  obtain ⟨t, w, o⟩ := x
  obtain ⟨i, h1, h2⟩ := hr
  simp only at e h1 h2 ⊢
  subst h2
  rcases h1 with rfl | rfl <;>
  · simp only [happen, settle] at e ⊢
    split
    · exact ⟨rfl, rfl⟩
    · next h =>
      rw [if_neg h] at e
      exact absurd (Option.some.inj e).symm h

theorem split_last {α : Type} {P : α → Prop} {xs : List α} (h : ∃ x ∈ xs, P x) :
    ∃ before r later, xs = before ++ r :: later ∧ P r ∧ ∀ x ∈ later, ¬P x := by
  induction xs with
  | nil => exact nomatch h
  | cons x xs ih =>
    by_cases hx : ∃ y ∈ xs, P y
    · obtain ⟨b, r, l, e, h1, h2⟩ := ih hx
      exact ⟨x :: b, r, l, by rw [e]; rfl, h1, h2⟩
    · obtain ⟨y, hy, hp⟩ := h
      rcases List.mem_cons.1 hy with rfl | hy
      · exact ⟨[], y, xs, rfl, hp, fun z hz hz' => hx ⟨z, hz, hz'⟩⟩
      · exact absurd ⟨y, hy, hp⟩ hx

theorem at_most_one (ws : List (UInt64 × Happening)) :
    (after (Running.fresh E) ws).timers + (after (Running.fresh E) ws).awaiting ≤ 1 := by
  by_cases hn : ∀ x ∈ seen E ws, ¬x.Renews
  · have := tokens (Running.fresh E) ws hn
    simp only [Running.fresh] at this ⊢
    omega
  · obtain ⟨before, r, life, h1, h2, h3⟩ := split_last (P := Seen.Renews) (xs := seen E ws) (by simpa using hn)
    obtain ⟨ws₁, ws₂, e1, e2, e3, e4⟩ := seenFrom_split h1
    have ht := tokens _ ws₂ (e4 ▸ h3)
    obtain ⟨t1, t2⟩ := renews_state e3 h2
    rw [e1, after_append]
    simp only [after]
    omega

/-- The life of the module that was installed or upgraded last. -/
theorem life_state {ws : List (UInt64 × Happening)} {before life : List Seen} {r : Seen}
    (hs : seen E ws = before ++ r :: life) (hr : r.Renews) (hl : ∀ x ∈ life, ¬x.Renews) :
    (after (Running.fresh E) ws).timers + (after (Running.fresh E) ws).awaiting + life.countP Seen.seeded
      + life.countP Seen.failed = 1 := by
  obtain ⟨ws₁, ws₂, e1, e2, e3, e4⟩ := seenFrom_split hs
  have ht := tokens _ ws₂ (e4 ▸ hl)
  obtain ⟨t1, t2⟩ := renews_state e3 hr
  rw [e1, after_append]
  simp only [after]
  rw [e4, t1, t2] at ht
  omega

/-! ### C121 -/

/-- C121: whatever happens to the canister and its system, what users see is a history of calls as in the other properties,
with a seed for every answer of `raw_rand`; so these hold for it. -/
theorem C121_history (ws : List (UInt64 × Happening)) :
    ∃ h, (after (Running.fresh E) ws).canister = stateAfter E h ∧ trace E h = (seen E ws).filterMap Seen.event :=
  ⟨history (Running.fresh E) ws, (history_spec (Running.fresh E) ws).1, (history_spec (Running.fresh E) ws).2⟩

/-- C121: a module is seeded once: between two seeds there is an installation or upgrade. -/
theorem C121_seeds_once (ws : List (UInt64 × Happening)) (before between later : List Seen) (x y : Seen) (s s' : Bytes)
    (hs : seen E ws = before ++ x :: (between ++ y :: later)) (hx : x.Seeds s) (hy : y.Seeds s') :
    ∃ z ∈ between, z.Renews := by
  refine Classical.byContradiction fun hn => ?_
  obtain ⟨ws₁, ws₂, e1, e2, e3, e4⟩ := seenFrom_split hs
  obtain ⟨ws₃, ws₄, f1, f2, f3, f4⟩ := seenFrom_split e4
  have hxs : x ∈ seen E ws := by rw [hs]; simp
  have hys : y ∈ seen E ws := by rw [hs]; simp
  have hsx := (seeded_iff hxs).2 ⟨s, hx⟩
  have hsy := (seeded_iff hys).2 ⟨s', hy⟩
  have key := tokens (after (Running.fresh E) ws₁) ((x.time, x.what) :: (ws₃ ++ [(y.time, y.what)]))
  have hseen : seenFrom (after (Running.fresh E) ws₁) ((x.time, x.what) :: (ws₃ ++ [(y.time, y.what)])) =
      x :: (between ++ [y]) := by
    simp only [seenFrom, seenFrom_append, f2]
    rw [← e3]
    simp only [← f3]
  rw [hseen] at key
  have h1 := key (by
    intro z hz
    simp only [List.mem_cons, List.mem_append, List.not_mem_nil, or_false] at hz
    rcases hz with rfl | hz | rfl
    · rintro ⟨i, h | h, _⟩ <;> rw [hx.1] at h <;> cases h
    · exact fun h => hn ⟨z, hz, h⟩
    · rintro ⟨i, h | h, _⟩ <;> rw [hy.1] at h <;> cases h)
  have h2 := at_most_one (E := E) ws₁
  simp only [List.countP_cons, List.countP_append, List.countP_nil, hsx, hsy, if_true] at h1
  omega

theorem event_seed {x : Seen} {e : Event} {seed : Bytes} {c : Running E} {ws : List (UInt64 × Happening)}
    (hm : x ∈ seenFrom c ws) (h : x.event = some e) (he : e.call = .rngSeeded seed) : x.Seeds seed := by
  have hs := seeded_iff hm
  obtain ⟨c', e'⟩ := mem_seenFrom hm
  obtain ⟨t, w, o⟩ := x
  unfold Seen.event at h
  split at h
  · next op r h1 h2 =>
    simp only at h1 h2
    subst h1 h2
    rw [← Option.some.inj h] at he
    simp only at he
    subst he
    exact nomatch e'
  · next b h1 h2 =>
    simp only at h1 h2
    subst h1 h2
    obtain ⟨s, h3⟩ := hs.1 rfl
    rw [← Option.some.inj h] at he
    cases he
    cases h3.1
    exact h3
  · exact nomatch h

theorem seeds_event {x : Seen} {seed : Bytes} (h : x.Seeds seed) : x.event = some ⟨x.time, .rngSeeded seed, .done⟩ := by
  obtain ⟨t, w, o⟩ := x
  obtain ⟨h1, _, h3⟩ := h
  simp only at h1 h3
  subst h1 h3
  rfl

theorem renews_event {x : Seen} (h : x.Renews) :
    ∃ i, x.event = some ⟨x.time, .install i, .done⟩ ∨ x.event = some ⟨x.time, .upgrade i, .done⟩ := by
  obtain ⟨t, w, o⟩ := x
  obtain ⟨i, h1, h3⟩ := h
  simp only at h1 h3
  subst h3
  rcases h1 with rfl | rfl
  · exact ⟨i, .inl rfl⟩
  · exact ⟨i, .inr rfl⟩

theorem event_renews {x : Seen} {e : Event} (h : x.event = some e) (he : e.Reinstalls) : x.Renews := by
  obtain ⟨t, w, o⟩ := x
  obtain ⟨i, h1, h3⟩ := he
  unfold Seen.event at h
  split at h
  · next op r h4 h5 =>
    simp only at h4 h5
    subst h4 h5
    rw [← Option.some.inj h] at h1 h3
    simp only at h1 h3
    subst h3
    rcases h1 with rfl | rfl
    · exact ⟨i, .inl rfl, rfl⟩
    · exact ⟨i, .inr rfl, rfl⟩
  · rw [← Option.some.inj h] at h1
    rcases h1 with h1 | h1 <;> cases h1
  · exact nomatch h

theorem event_issued (x : Seen) {c : Running E} {ws : List (UInt64 × Happening)} (hm : x ∈ seenFrom c ws) :
    x.issued = true ↔ ∃ e, x.event = some e ∧ e.issued = true := by
  obtain ⟨c', e'⟩ := mem_seenFrom hm
  obtain ⟨t, w, o⟩ := x
  constructor
  · intro h
    unfold Seen.issued at h
    split at h
    · next r h1 =>
      simp only at h1 e'
      subst h1
      cases w with
      | call op => exact ⟨_, rfl, rfl⟩
      | timer => simp only [happen] at e'; split at e' <;> exact nomatch e'
      | timerLost => simp only [happen] at e'; split at e' <;> exact nomatch e'
      | rejected => simp only [happen] at e'; split at e' <;> exact nomatch e'
      | answer b =>
        simp only [happen] at e'
        split at e'
        · exact nomatch e'
        · split at e' <;> exact nomatch e'
    · exact nomatch h
  · rintro ⟨e, h1, h2⟩
    unfold Seen.event at h1
    split at h1
    · next op r h4 h5 =>
      simp only at h4 h5
      subst h4 h5
      rw [← Option.some.inj h1] at h2
      unfold Event.issued at h2
      split at h2
      · next h3 => simp only at h3; subst h3; rfl
      · exact nomatch h2
    · rw [← Option.some.inj h1] at h2
      exact nomatch h2
    · exact nomatch h1

theorem issuedIn_events {c : Running E} {ws : List (UInt64 × Happening)} {xs : List Seen} (hm : ∀ x ∈ xs, x ∈ seenFrom c ws) :
    issuedIn (xs.filterMap Seen.event) = xs.countP Seen.issued := by
  induction xs with
  | nil => rfl
  | cons x xs ih =>
    have ih := ih fun y hy => hm y (List.mem_cons_of_mem _ hy)
    have hx := event_issued x (hm x List.mem_cons_self)
    unfold issuedIn at ih ⊢
    rw [List.countP_cons, ← ih]
    cases he : x.event with
    | none =>
      rw [List.filterMap_cons_none he]
      have : x.issued = false := by
        rw [he] at hx
        simpa using hx
      simp [this]
    | some e =>
      rw [List.filterMap_cons_some he, List.countP_cons]
      have : x.issued = e.issued := by
        rw [he] at hx
        simp only [Option.some.injEq, exists_eq_left'] at hx
        exact Bool.eq_iff_iff.2 hx
      rw [this]

/-- Within a life: the seed the canister has is the one that arrived. -/
theorem life_seed {ws : List (UInt64 × Happening)} {before life : List Seen} {r : Seen} {h : History}
    (hs : seen E ws = before ++ r :: life) (hr : r.Renews) (hl : ∀ x ∈ life, ¬x.Renews)
    (hh : trace E h = (seen E ws).filterMap Seen.event) (seed : Bytes) (since : List Event) :
    SeededWith (trace E h) seed since ↔
      ∃ l₁ x l₂, life = l₁ ++ x :: l₂ ∧ x.Seeds seed ∧ since = l₂.filterMap Seen.event := by
  have mem : ∀ x ∈ life, x ∈ seenFrom (Running.fresh E) ws := fun x hx => by
    rw [show seenFrom (Running.fresh E) ws = seen E ws from rfl, hs]
    simp [hx]
  have bwd : ∀ l₁ x l₂ seed, life = l₁ ++ x :: l₂ → x.Seeds seed →
      SeededWith (trace E h) seed (l₂.filterMap Seen.event) := by
    intro l₁ x l₂ seed e hx
    refine ⟨(before ++ r :: l₁).filterMap Seen.event, ⟨x.time, .rngSeeded seed, .done⟩, ?_, rfl, ?_, ?_⟩
    · rw [hh, hs, e, show before ++ r :: (l₁ ++ x :: l₂) = (before ++ r :: l₁) ++ x :: l₂ by simp,
        List.filterMap_append, List.filterMap_cons_some (seeds_event hx)]
    · intro e' he' hre
      obtain ⟨y, hy, hye⟩ := List.mem_filterMap.1 he'
      exact hl y (by rw [e]; simp [hy]) (event_renews hye hre)
    · intro e' he' seed' hse
      obtain ⟨y, hy, hye⟩ := List.mem_filterMap.1 he'
      obtain ⟨m₁, m₂, hm⟩ := List.append_of_mem hy
      have hy' := event_seed (mem y (by rw [e]; simp [hy])) hye hse
      obtain ⟨z, hz, hzr⟩ := C121_seeds_once ws (before ++ r :: l₁) m₁ m₂ x y seed seed'
        (by rw [hs, e, hm]; simp) hx hy'
      exact hl z (by rw [e, hm]; simp [hz]) hzr
  constructor
  · intro hsw
    have : ∃ x ∈ life, ∃ s, x.Seeds s := by
      obtain ⟨b, e, h1, h2, h3, h4⟩ := hsw
      rw [hh, hs, List.filterMap_append] at h1
      obtain ⟨er, her, hre⟩ : ∃ er, r.event = some er ∧ er.Reinstalls := by
        obtain ⟨i, hi | hi⟩ := renews_event hr
        · exact ⟨_, hi, i, .inl rfl, rfl⟩
        · exact ⟨_, hi, i, .inr rfl, rfl⟩
      rw [List.filterMap_cons_some her] at h1
      rcases List.append_eq_append_iff.1 h1 with ⟨m, g1, g2⟩ | ⟨m, g1, g2⟩
      · -- the seed comes after the renewal's predecessors
        cases m with
        | nil =>
          simp only [List.nil_append, List.cons.injEq] at g2
          obtain ⟨i, hi, _⟩ := hre
          rw [g2.1] at hi
          rcases hi with hi | hi <;> rw [h2] at hi <;> cases hi
        | cons y m =>
          simp only [List.cons_append, List.cons.injEq] at g2
          have he : e ∈ life.filterMap Seen.event := by rw [g2.2]; simp
          obtain ⟨x, hx, hxe⟩ := List.mem_filterMap.1 he
          exact ⟨x, hx, seed, event_seed (mem x hx) hxe h2⟩
      · cases m with
        | nil =>
          simp only [List.nil_append, List.cons.injEq] at g2
          obtain ⟨i, hi, _⟩ := hre
          rw [← g2.1] at hi
          rcases hi with hi | hi <;> rw [h2] at hi <;> cases hi
        | cons y m =>
          simp only [List.cons_append, List.cons.injEq] at g2
          exact absurd hre (h3 er (by rw [g2.2]; simp))
    obtain ⟨x, hx, s, hxs⟩ := this
    obtain ⟨l₁, l₂, e⟩ := List.append_of_mem hx
    obtain ⟨rfl, rfl⟩ := seededWith_unique hsw (bwd l₁ x l₂ s e hxs)
    exact ⟨l₁, x, l₂, e, hxs, rfl⟩
  · rintro ⟨l₁, x, l₂, e, hx, rfl⟩
    exact bwd l₁ x l₂ seed e hx

theorem prepared_by (st : State E) (now : UInt64) (op : Op) (m : PrepareLoginOkResponse)
    (h : (step st now op).2 = .prepared m) : ∃ a, op = .prepareLogin a := by
  cases op with
  | prepareLogin a => exact ⟨a, rfl⟩
  | getDelegation =>
    simp only [step] at h
    generalize siweGetDelegation _ _ _ _ _ _ = x at h; cases x <;> exact nomatch h
  | getAddress =>
    simp only [step] at h
    generalize getAddress _ _ = x at h; cases x <;> exact nomatch h
  | getCallerAddress =>
    simp only [step] at h
    generalize getCallerAddress _ _ = x at h; cases x <;> exact nomatch h
  | getPrincipal =>
    simp only [step] at h
    generalize getPrincipal _ _ = x at h; cases x <;> exact nomatch h
  | login =>
    simp only [step, commit] at h
    generalize siweLogin _ _ _ _ _ _ = x at h
    obtain ⟨x1, x2⟩ := x
    cases x2 <;> exact nomatch h
  | install =>
    simp only [step] at h
    generalize siweInit _ _ = x at h
    cases x with
    | err e => exact nomatch e
    | _ => exact nomatch h
  | upgrade =>
    simp only [step] at h
    generalize siweInit _ _ = x at h
    cases x with
    | err e => exact nomatch e
    | _ => exact nomatch h
  | rngSeeded => exact nomatch h

theorem issued_issues {x : Seen} {ws : List (UInt64 × Happening)} (hm : x ∈ seenFrom (Running.fresh E) ws) (h : x.issued = true) :
    ∃ addr nonce text, x.Issues addr nonce text := by
  obtain ⟨b, l, e⟩ := List.append_of_mem hm
  obtain ⟨ws₁, ws₂, e1, e2, e3, e4⟩ := seenFrom_split e
  obtain ⟨hh, h1, h2⟩ := C121_history (E := E) ws₁
  obtain ⟨ev, k1, k2⟩ := (event_issued x hm).1 h
  obtain ⟨t, w, o⟩ := x
  simp only at e3
  unfold Seen.event at k1
  split at k1
  · next op r g1 g2 =>
    simp only at g1 g2
    subst g1 g2
    rw [← Option.some.inj k1] at k2
    unfold Event.issued at k2
    split at k2
    · next m hm' =>
      simp only at hm'
      subst hm'
      have : ∃ a, op = .prepareLogin a := by
        rcases happen_case (after (Running.fresh E) ws₁) t (.call op) with ⟨op', q1, q2⟩ | ⟨q1, q2⟩
        · rw [← e3] at q1
          have := Option.some.inj q1
          simp only [Event.mk.injEq, true_and] at this
          obtain ⟨rfl, q3⟩ := this
          rw [h1] at q3
          exact prepared_by _ _ _ _ q3.symm
        · rw [← e3] at q1
          exact nomatch q1
      obtain ⟨a, rfl⟩ := this
      exact ⟨a, m.nonce, m.siweMessage, rfl, rfl⟩
    · exact nomatch k2
  · rw [← Option.some.inj k1] at k2
    exact nomatch k2
  · exact nomatch k1

/-- Within a life there are settings. -/
theorem life_settings {ws : List (UInt64 × Happening)} {before life : List Seen} {r : Seen} {h : History}
    (hs : seen E ws = before ++ r :: life) (hr : r.Renews) (hl : ∀ x ∈ life, ¬x.Renews)
    (hh : trace E h = (seen E ws).filterMap Seen.event) : ∃ s p, InForce E (trace E h) s p := by
  obtain ⟨i, hi⟩ := renews_event hr
  obtain ⟨er, her, hcall, hrep⟩ : ∃ er, r.event = some er ∧ (er.call = .install i ∨ er.call = .upgrade i) ∧ er.reply = .done := by
    rcases hi with hi | hi
    · exact ⟨_, hi, .inl rfl, rfl⟩
    · exact ⟨_, hi, .inr rfl, rfl⟩
  have ht : trace E h = before.filterMap Seen.event ++ er :: life.filterMap Seen.event := by
    rw [hh, hs, List.filterMap_append, List.filterMap_cons_some her]
  obtain ⟨h1, h2, e1, e2, e3, e4⟩ := traceFrom_split (show traceFrom (State.fresh E) h = _ from ht)
  have hconf : ∃ s p, Configures E i s p := by
    rcases hcall with hc | hc
    · rw [hc, hrep] at e3
      obtain ⟨s, p, h, _⟩ := (C42_install (run (State.fresh E) h1).1 _ er.time i).1 (Prod.ext rfl e3.symm)
      exact ⟨s, p, h⟩
    · rw [hc, hrep] at e3
      obtain ⟨s, p, h, _⟩ := (C42_upgrade (run (State.fresh E) h1).1 _ er.time i).1 (Prod.ext rfl e3.symm)
      exact ⟨s, p, h⟩
  obtain ⟨s, p, hc⟩ := hconf
  refine ⟨s, p, _, er, _, i, ht, ?_, hcall, hrep, hc⟩
  intro e he hre
  obtain ⟨y, hy, hye⟩ := List.mem_filterMap.1 he
  exact hl y hy (event_renews hye hre)

/-- C121: in the life of a module the canister issues messages exactly from the moment a seed has arrived: before it
`siwe_prepare_login` traps, from then on it answers every address with a message. -/
theorem C121_ready_exactly (ws : List (UInt64 × Happening)) (before life : List Seen) (r : Seen)
    (hs : seen E ws = before ++ r :: life) (hr : r.Renews) (hl : ∀ x ∈ life, ¬x.Renews) (now : UInt64) (addr : Bytes)
    (ha : IsAddress E.keccak addr) :
    ((∃ x ∈ life, ∃ seed, x.Seeds seed) →
      ∃ m, (happen (after (Running.fresh E) ws) now (.call (.prepareLogin addr))).2 = some (.prepared m)) ∧
    ((¬∃ x ∈ life, ∃ seed, x.Seeds seed) →
      (happen (after (Running.fresh E) ws) now (.call (.prepareLogin addr))).2 = some .trap) := by
  obtain ⟨h, h1, h2⟩ := C121_history (E := E) ws
  have hp : (happen (after (Running.fresh E) ws) now (.call (.prepareLogin addr))).2 =
      some (step (stateAfter E h) now (.prepareLogin addr)).2 := by rw [← h1]; rfl
  rw [hp]
  have hans := C89_answer E h now addr
  generalize (step (stateAfter E h) now (.prepareLogin addr)).2 = rep at hans
  cases hans with
  | badAddress e he =>
    exfalso
    have := (addressError_iff E addr e).mpr he
    rw [(ethAddress_new_ok_iff E addr ⟨addr⟩).mpr ⟨ha, rfl⟩] at this
    exact nomatch this
  | notReady _ hn =>
    refine ⟨fun ⟨x, hx, seed, hxs⟩ => ?_, fun _ => rfl⟩
    rcases hn with hn | hn
    · obtain ⟨l₁, l₂, e⟩ := List.append_of_mem hx
      exact absurd ⟨seed, _, (life_seed hs hr hl h2 seed _).2 ⟨l₁, x, l₂, e, hxs, rfl⟩⟩ hn
    · exact absurd (life_settings hs hr hl h2) hn
  | prepared s p seed since text nonce _ _ hsw =>
    refine ⟨fun _ => ⟨_, rfl⟩, fun hn => ?_⟩
    obtain ⟨l₁, x, l₂, e, hx, _⟩ := (life_seed hs hr hl h2 seed since).1 hsw
    exact absurd ⟨x, by rw [e]; simp, seed, hx⟩ hn

/-- C121: in the life of a module all nonces come from one seed, which `raw_rand` gave to this module: the nonce of the
`n`-th message is the `n`-th draw. -/
theorem C121_nonces (ws : List (UInt64 × Happening)) (before life : List Seen) (r : Seen)
    (hs : seen E ws = before ++ r :: life) (hr : r.Renews) (hl : ∀ x ∈ life, ¬x.Renews) :
    ∃ seed, ∀ l₁ x l₂ addr nonce text, life = l₁ ++ x :: l₂ → x.Issues addr nonce text →
      (∃ y ∈ l₁, y.Seeds seed) ∧ Spells nonce (draw E seed (l₁.countP Seen.issued)) := by
  -- the seed before the first message, if there is one
  have one : ∀ l₁ x l₂ addr nonce text, life = l₁ ++ x :: l₂ → x.Issues addr nonce text →
      ∃ seed m₁ y m₂, l₁ = m₁ ++ y :: m₂ ∧ y.Seeds seed ∧ Spells nonce (draw E seed (m₂.countP Seen.issued)) := by
    intro l₁ x l₂ addr nonce text e hx
    obtain ⟨ws₁, ws₂, e1, e2, e3, e4⟩ := seenFrom_split
      (show seenFrom (Running.fresh E) ws = (before ++ r :: l₁) ++ x :: l₂ by
        rw [show seenFrom (Running.fresh E) ws = seen E ws from rfl, hs, e]; simp)
    obtain ⟨h, h1, h2⟩ := C121_history (E := E) ws₁
    rw [hx.1] at e3
    have hp : (step (stateAfter E h) x.time (.prepareLogin addr)).2 = .prepared ⟨text, nonce⟩ := by
      have e5 : some (.prepared ⟨text, nonce⟩) = some (step (after (Running.fresh E) ws₁).canister x.time (.prepareLogin addr)).2 :=
        hx.2.symm.trans e3
      rw [h1] at e5
      exact (Option.some.inj e5).symm
    have hans := C89_answer E h x.time addr
    rw [hp] at hans
    cases hans with
    | prepared s p seed since _ _ _ _ hsw hsp =>
      obtain ⟨m₁, y, m₂, f1, f2, rfl⟩ := (life_seed e2 hr (fun z hz => hl z (by rw [e]; simp [hz])) h2 seed since).1 hsw
      refine ⟨seed, m₁, y, m₂, f1, f2, ?_⟩
      rwa [issuedIn_events (c := Running.fresh E) (ws := ws₁)] at hsp
      intro z hz
      rw [e2, f1]
      simp [hz]
  -- no message before the seed
  have none_before : ∀ m₁ y m₂ seed, life = m₁ ++ y :: m₂ → y.Seeds seed → m₁.countP Seen.issued = 0 := by
    intro m₁ y m₂ seed e hy
    rw [List.countP_eq_zero]
    intro x hx hi
    obtain ⟨k₁, k₂, hk⟩ := List.append_of_mem hx
    have hmem : x ∈ seenFrom (Running.fresh E) ws := by
      rw [show seenFrom (Running.fresh E) ws = seen E ws from rfl, hs, e, hk]; simp
    obtain ⟨addr, nonce, text, hxi⟩ := issued_issues hmem hi
    obtain ⟨seed', n₁, z, n₂, f1, f2, -⟩ := one k₁ x (k₂ ++ y :: m₂) addr nonce text (by rw [e, hk]; simp) hxi
    obtain ⟨w, hw, hwr⟩ := C121_seeds_once ws (before ++ r :: n₁) (n₂ ++ x :: k₂) m₂ z y seed' seed
      (by rw [hs, e, hk, f1]; simp) f2 hy
    refine hl w ?_ hwr
    rw [e, hk, f1]
    simp only [List.mem_append, List.mem_cons] at hw ⊢
    tauto
  have same : ∀ a y b a' y' b' seed seed', life = a ++ y :: b → life = a' ++ y' :: b' → y.Seeds seed → y'.Seeds seed' →
      a = a' ∧ y = y' := by
    have ordered : ∀ a y b m y' b' seed seed', life = a ++ y :: b → b = m ++ y' :: b' → y.Seeds seed → y'.Seeds seed' → False := by
      intro a y b m y' b' seed seed' e e' hy hy'
      obtain ⟨w, hw, hwr⟩ := C121_seeds_once ws (before ++ r :: a) m b' y y' seed seed' (by rw [hs, e, e']; simp) hy hy'
      exact hl w (by rw [e, e']; simp [hw]) hwr
    intro a y b a' y' b' seed seed' e e' hy hy'
    rcases List.append_eq_append_iff.1 (e.symm.trans e') with ⟨m, g1, g2⟩ | ⟨m, g1, g2⟩
    · cases m with
      | nil => simp only [List.nil_append, List.cons.injEq] at g2; exact ⟨by simpa using g1.symm, g2.1⟩
      | cons z m =>
        simp only [List.cons_append, List.cons.injEq] at g2
        exact absurd (ordered a y b m y' b' seed seed' e g2.2 hy hy') id
    · cases m with
      | nil => simp only [List.nil_append, List.cons.injEq] at g2; exact ⟨by simpa using g1, g2.1.symm⟩
      | cons z m =>
        simp only [List.cons_append, List.cons.injEq] at g2
        exact absurd (ordered a' y' b' m y b seed' seed e' g2.2 hy' hy) id
  by_cases hex : ∃ l₁ x l₂ addr nonce text, life = l₁ ++ x :: l₂ ∧ x.Issues addr nonce text
  · obtain ⟨l₁, x, l₂, addr, nonce, text, e, hx⟩ := hex
    obtain ⟨seed, m₁, y, m₂, f1, f2, f3⟩ := one l₁ x l₂ addr nonce text e hx
    refine ⟨seed, fun l₁' x' l₂' addr' nonce' text' e' hx' => ?_⟩
    obtain ⟨seed', m₁', y', m₂', f1', f2', f3'⟩ := one l₁' x' l₂' addr' nonce' text' e' hx'
    obtain ⟨-, rfl⟩ := same m₁ y (m₂ ++ x :: l₂) m₁' y' (m₂' ++ x' :: l₂') seed seed' (by rw [e, f1]; simp)
      (by rw [e', f1']; simp) f2 f2'
    have : seed' = seed := by
      have := f2'.1.symm.trans f2.1
      cases this
      rfl
    subst this
    refine ⟨⟨y, by rw [f1']; simp, f2'⟩, ?_⟩
    have h0 := none_before m₁' y (m₂' ++ x' :: l₂') _ (by rw [e', f1']; simp) f2'
    have hy : y.issued = false := by
      unfold Seen.issued
      rw [f2'.2.2]
    rwa [f1', List.countP_append, List.countP_cons, h0, hy, if_neg (by simp), Nat.zero_add, Nat.add_zero]
  · exact ⟨[], fun l₁ x l₂ addr nonce text e hx => absurd ⟨l₁, x, l₂, addr, nonce, text, e, hx⟩ hex⟩

/-- C121 is false of the code: once starting failed (the timer was lost, or `raw_rand` was rejected), the canister answers
no request for a message any more, whatever else happens and however often it is asked, until it is upgraded or installed
anew. -/
theorem C121_stuck (ws : List (UInt64 × Happening)) (before life : List Seen) (r : Seen)
    (hs : seen E ws = before ++ r :: life) (hr : r.Renews) (hl : ∀ x ∈ life, ¬x.Renews) (hf : ∃ x ∈ life, x.Fails)
    (x : Seen) (hx : x ∈ life) (addr : Bytes) (ha : IsAddress E.keccak addr) (hc : x.what = .call (.prepareLogin addr)) :
    x.outcome = some .trap := by
  have hnone : ∀ y ∈ life, ¬∃ seed, y.Seeds seed := by
    rintro y hy ⟨seed, hys⟩
    have h1 := life_state hs hr hl
    have hmem : y ∈ seenFrom (Running.fresh E) ws := by
      rw [show seenFrom (Running.fresh E) ws = seen E ws from rfl, hs]; simp [hy]
    have h2 : 0 < life.countP Seen.seeded := List.countP_pos_iff.2 ⟨y, hy, (seeded_iff hmem).2 ⟨seed, hys⟩⟩
    obtain ⟨z, hz, hzf⟩ := hf
    have h3 : 0 < life.countP Seen.failed := List.countP_pos_iff.2 ⟨z, hz, (failed_iff z).2 hzf⟩
    omega
  obtain ⟨l₁, l₂, e⟩ := List.append_of_mem hx
  obtain ⟨ws₁, ws₂, e1, e2, e3, e4⟩ := seenFrom_split
    (show seenFrom (Running.fresh E) ws = (before ++ r :: l₁) ++ x :: l₂ by
      rw [show seenFrom (Running.fresh E) ws = seen E ws from rfl, hs, e]; simp)
  rw [e3, hc]
  refine (C121_ready_exactly ws₁ before l₁ r e2 hr (fun z hz => hl z (by rw [e]; simp [hz])) x.time addr ha).2 ?_
  rintro ⟨y, hy, hys⟩
  exact hnone y (by rw [e]; simp [hy]) hys

/-- C121, partial: as long as starting has not failed, all that is missing is that the timer is run and `raw_rand` answers
with 32 bytes; then every address is answered with a message. -/
theorem C121_becomes_ready_partial (ws : List (UInt64 × Happening)) (before life : List Seen) (r : Seen)
    (hs : seen E ws = before ++ r :: life) (hr : r.Renews) (hl : ∀ x ∈ life, ¬x.Renews) (hf : ∀ x ∈ life, ¬x.Fails)
    (t t' now : UInt64) (seed : Bytes) (hseed : seed.length = 32) (addr : Bytes) (ha : IsAddress E.keccak addr) :
    ∃ m, (happen (after (Running.fresh E) (ws ++ [(t, .timer), (t', .answer seed)])) now (.call (.prepareLogin addr))).2 =
      some (.prepared m) := by
  have h1 := life_state hs hr hl
  have h0 : life.countP Seen.failed = 0 := List.countP_eq_zero.2 fun x hx hxf => hf x hx ((failed_iff x).1 hxf)
  have happ := seenFrom_append (Running.fresh E) ws [(t, .timer), (t', .answer seed)]
  rw [show seenFrom (Running.fresh E) ws = seen E ws from rfl, hs, List.append_assoc, List.cons_append] at happ
  refine (C121_ready_exactly _ before _ r happ hr ?_ now addr ha).1 ?_
  · intro x hx
    rcases List.mem_append.1 hx with hx | hx
    · exact hl x hx
    · simp only [seenFrom, List.mem_cons, List.not_mem_nil, or_false] at hx
      rcases hx with rfl | rfl <;> rintro ⟨i, h | h, _⟩ <;> cases h
  · by_cases hsd : life.countP Seen.seeded = 0
    · refine ⟨⟨t', .answer seed, some .done⟩, List.mem_append_right _ ?_, seed, rfl, hseed, rfl⟩
      generalize after (Running.fresh E) ws = c at h1 ⊢
      obtain ⟨st, n, a⟩ := c
      simp only at h1
      have : (n = 1 ∧ a = 0) ∨ (n = 0 ∧ a = 1) := by omega
      rcases this with ⟨rfl, rfl⟩ | ⟨rfl, rfl⟩ <;> simp [seenFrom, happen, hseed]
    · obtain ⟨x, hx, hxs⟩ := List.countP_pos_iff.1 (Nat.pos_of_ne_zero hsd)
      have hmem : x ∈ seenFrom (Running.fresh E) ws := by
        rw [show seenFrom (Running.fresh E) ws = seen E ws from rfl, hs]; simp [hx]
      exact ⟨x, List.mem_append_left _ hx, (seeded_iff hmem).1 hxs⟩

namespace Ex

/-- 32 bytes of randomness -/
def random : Bytes := List.replicate 31 7 ++ [1]

/-- installed, asked too early, started, asked twice -/
def started : List (UInt64 × Happening) :=
  [(1, .call (.install Siwe.Ex.input)), (2, .call (.prepareLogin Siwe.Ex.alice)), (3, .timer), (4, .answer random),
   (5, .call (.prepareLogin Siwe.Ex.alice)), (6, .answer random), (7, .call (.prepareLogin Siwe.Ex.alice))]

/-- `raw_rand` is rejected; later the canister is upgraded -/
def stuck : List (UInt64 × Happening) :=
  [(1, .call (.install Siwe.Ex.input)), (3, .timer), (4, .rejected), (5, .timer), (6, .answer random),
   (7, .call (.prepareLogin Siwe.Ex.alice))]

/-- what came of it, without the texts -/
def outcomes (ws : List (UInt64 × Happening)) : List (Option Bool) :=
  (seen Toy.env ws).map fun x => match x.outcome with
    | none => none
    | some .trap => some false
    | some _ => some true

end Ex

/-- Non-vacuity of C121: a canister that is started and gets only one seed; one that is stuck until it is upgraded. -/
example : Ex.outcomes Ex.started = [some true, some false, some true, some true, some true, none, some true] ∧
    Ex.outcomes Ex.stuck = [some true, some true, some false, none, none, some false] ∧
    Ex.outcomes (Ex.stuck ++ [(8, .call (.upgrade Siwe.Ex.input)), (9, .timer), (9, .answer Ex.random),
      (9, .call (.prepareLogin Siwe.Ex.alice))]) =
      [some true, some true, some false, none, none, some false, some true, some true, some true, some true] := by
  decide +kernel

/-- The hypotheses of C121 are met by these. -/
example : (∃ r life, seen Toy.env Ex.stuck = [] ++ r :: life ∧ r.Renews ∧ (∀ x ∈ life, ¬x.Renews) ∧ (∃ x ∈ life, x.Fails) ∧
      ∃ x ∈ life, x.what = .call (.prepareLogin Siwe.Ex.alice)) ∧
    IsAddress Toy.env.keccak Siwe.Ex.alice := by
  refine ⟨⟨⟨1, .call (.install Siwe.Ex.input), some .done⟩, [⟨3, .timer, some .done⟩, ⟨4, .rejected, some .trap⟩,
    ⟨5, .timer, none⟩, ⟨6, .answer Ex.random, none⟩, ⟨7, .call (.prepareLogin Siwe.Ex.alice), some .trap⟩],
    by decide +kernel, ⟨_, .inl rfl, rfl⟩, ?_, ⟨⟨4, .rejected, some .trap⟩, by simp, rfl, .inr (.inl rfl)⟩,
    ⟨7, .call (.prepareLogin Siwe.Ex.alice), some .trap⟩, by simp, rfl⟩,
    ((ethAddress_new_ok_iff Toy.env Siwe.Ex.alice ⟨Siwe.Ex.alice⟩).mp (by decide +kernel)).1⟩
  intro x hx
  simp only [List.mem_cons, List.not_mem_nil, or_false] at hx
  rcases hx with rfl | rfl | rfl | rfl | rfl <;> rintro ⟨i, h | h, _⟩ <;> cases h

end Siwe.Startup
