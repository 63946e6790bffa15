import Verif.Spec.Nonce
import Verif.Props.Sessions
/- Properties C89 and C90: what `siwe_prepare_login` answers, and where nonces come from. -/
namespace Siwe
open Spec

theorem issuedIn_issued {es : List Event} {e : Event} {r : PrepareLoginOkResponse} (h : e.reply = .prepared r) :
    issuedIn (es ++ [e]) = issuedIn es + 1 := by
  simp [issuedIn, List.countP_append, Event.issued, h]

theorem issuedIn_not {es : List Event} {e : Event} (h : ∀ r, e.reply ≠ .prepared r) : issuedIn (es ++ [e]) = issuedIn es := by
  have : e.issued = false := by
    unfold Event.issued
    split
    · next r hr => exact absurd hr (h r)
    · rfl
  simp [issuedIn, List.countP_append, this]

theorem seededWith_snoc {es : List Event} {e : Event} {seed : Bytes} {since : List Event} :
    SeededWith (es ++ [e]) seed since ↔ (since = [] ∧ e.call = .rngSeeded seed) ∨
      ∃ since', since = since' ++ [e] ∧ SeededWith es seed since' ∧ ¬e.Reinstalls ∧ ∀ seed', e.call ≠ .rngSeeded seed' := by
  constructor
  · rintro ⟨before, x, h1, h2, h3, h4⟩
    rcases List.eq_nil_or_concat since with rfl | ⟨a, y, rfl⟩
    · have := List.append_inj' h1 rfl
      simp only [List.cons.injEq, and_true] at this
      exact .inl ⟨rfl, this.2 ▸ h2⟩
    · rw [List.concat_eq_append] at *
      rw [show before ++ x :: (a ++ [y]) = (before ++ x :: a) ++ [y] by simp] at h1
      obtain ⟨e1, e2⟩ := List.append_inj' h1 rfl
      simp only [List.cons.injEq, and_true] at e2
      subst e2
      exact .inr ⟨a, rfl, ⟨before, x, e1, h2, fun z hz => h3 z (List.mem_append_left _ hz),
        fun z hz => h4 z (List.mem_append_left _ hz)⟩, h3 _ (by simp), h4 _ (by simp)⟩
  · rintro (⟨rfl, h⟩ | ⟨since', rfl, ⟨before, x, h1, h2, h3, h4⟩, h5, h6⟩)
    · exact ⟨es, e, rfl, h, by simp [SameModule], by simp⟩
    · refine ⟨before, x, by rw [h1]; simp, h2, fun z hz => ?_, fun z hz => ?_⟩
      · rcases List.mem_append.mp hz with hz | hz
        · exact h3 z hz
        · rw [List.mem_singleton.mp hz]; exact h5
      · rcases List.mem_append.mp hz with hz | hz
        · exact h4 z hz
        · rw [List.mem_singleton.mp hz]; exact h6

/-- The last seeding is unique. -/
theorem seededWith_unique {es : List Event} {seed seed' : Bytes} {since since' : List Event}
    (h : SeededWith es seed since) (h' : SeededWith es seed' since') : seed = seed' ∧ since = since' := by
  obtain ⟨b, e, h1, h2, _, h4⟩ := h
  obtain ⟨b', e', h1', h2', _, h4'⟩ := h'
  rw [h1] at h1'
  rcases List.append_eq_append_iff.mp h1' with ⟨a, g1, g2⟩ | ⟨a, g1, g2⟩
  · cases a with
    | nil => simp only [List.nil_append, List.cons.injEq] at g2; exact ⟨by rw [g2.1, h2'] at h2; cases h2; rfl, g2.2⟩
    | cons y a =>
      simp only [List.cons_append, List.cons.injEq] at g2
      exact absurd h2' (h4 e' (by rw [g2.2]; simp) seed')
  · cases a with
    | nil => simp only [List.nil_append, List.cons.injEq] at g2; exact ⟨by rw [← g2.1, h2'] at h2; cases h2; rfl, g2.2.symm⟩
    | cons y a =>
      simp only [List.cons_append, List.cons.injEq] at g2
      exact absurd h2 (h4' e (by rw [g2.2]; simp) seed)

/-- What a call does to the random generator. -/
theorem rng_step {E : Env} {st : State E} (hi : Inv st) (now : UInt64) (op : Op) :
    ((∃ seed, op = .rngSeeded seed ∧ (step st now op).1.lib.rng = some (E.rngFromSeed seed))) ∨
    (Event.Reinstalls ⟨now, op, (step st now op).2⟩ ∧ (∀ s, op ≠ .rngSeeded s) ∧ (step st now op).1.lib.rng = none) ∨
    (∃ g r, op ≠ .rngSeeded [] ∧ (∀ s, op ≠ .rngSeeded s) ∧ ¬Event.Reinstalls ⟨now, op, (step st now op).2⟩ ∧
      (step st now op).2 = .prepared r ∧ st.lib.rng = some g ∧ r.nonce = nonceOf E g ∧
      (step st now op).1.lib.rng = some (E.rngFill10 g).2) ∨
    ((∀ s, op ≠ .rngSeeded s) ∧ ¬Event.Reinstalls ⟨now, op, (step st now op).2⟩ ∧
      (∀ r, (step st now op).2 ≠ .prepared r) ∧ (step st now op).1.lib.rng = st.lib.rng) := by
  have h := step_case hi now op
  generalize (step st now op).1 = st' at h ⊢
  generalize (step st now op).2 = r at h ⊢
  cases h with
  | seeded s => exact .inl ⟨s, rfl, rfl⟩
  | installed i => exact .inr (.inl ⟨⟨i, .inl rfl, rfl⟩, fun _ => nofun, rfl⟩)
  | upgraded i => exact .inr (.inl ⟨⟨i, .inr rfl, rfl⟩, fun _ => nofun, rfl⟩)
  | prepared addr bs g s txt h1 h2 h3 h4 h5 h6 =>
    exact .inr (.inr (.inl ⟨g, _, nofun, fun _ => nofun, (fun ⟨i, h, _⟩ => by rcases h with h | h <;> cases h), rfl, h4, rfl, rfl⟩))
  | notInstalled i => exact .inr (.inr (.inr ⟨fun _ => nofun, (fun ⟨_, _, h⟩ => by cases h), fun _ => nofun, rfl⟩))
  | notUpgraded i => exact .inr (.inr (.inr ⟨fun _ => nofun, (fun ⟨_, _, h⟩ => by cases h), fun _ => nofun, rfl⟩))
  | found sig addr key nonce bs m txt st'' r' h1 h2 h3 h4 h5 h6 h7 hf =>
    refine .inr (.inr (.inr ⟨fun _ => nofun, (fun ⟨i, h, _⟩ => by rcases h with h | h <;> cases h), fun r => ?_, ?_⟩))
    · cases r' <;> exact nofun
    · cases hf <;> rfl
  | getDelegation => 
    refine .inr (.inr (.inr ⟨fun _ => nofun, (fun ⟨i, h, _⟩ => by rcases h with h | h <;> cases h), fun r => ?_, rfl⟩))
    generalize siweGetDelegation _ _ _ _ _ _ = x; cases x <;> exact nofun
  | getAddress => 
    refine .inr (.inr (.inr ⟨fun _ => nofun, (fun ⟨i, h, _⟩ => by rcases h with h | h <;> cases h), fun r => ?_, rfl⟩))
    generalize getAddress _ _ = x; cases x <;> exact nofun
  | getCallerAddress => 
    refine .inr (.inr (.inr ⟨fun _ => nofun, (fun ⟨i, h, _⟩ => by rcases h with h | h <;> cases h), fun r => ?_, rfl⟩))
    generalize getCallerAddress _ _ = x; cases x <;> exact nofun
  | getPrincipal => 
    refine .inr (.inr (.inr ⟨fun _ => nofun, (fun ⟨i, h, _⟩ => by rcases h with h | h <;> cases h), fun r => ?_, rfl⟩))
    generalize getPrincipal _ _ = x; cases x <;> exact nofun
  | _ => exact .inr (.inr (.inr ⟨fun _ => nofun, (fun ⟨i, h, _⟩ => by rcases h with h | h <;> cases h), fun _ => nofun, rfl⟩))

/-- The state of the generator: started from the last seed, and drawn from once for each message issued since. -/
theorem rng_state (E : Env) (h : History) :
    ((stateAfter E h).lib.rng = none ∧ ¬∃ seed since, SeededWith (trace E h) seed since) ∨
    ∃ seed since, SeededWith (trace E h) seed since ∧
      (stateAfter E h).lib.rng = some (afterDraws E (E.rngFromSeed seed) (issuedIn since)) := by
  induction h using history_induction with
  | nil =>
    refine .inl ⟨rfl, ?_⟩
    rintro ⟨_, _, b, e, h, _⟩
    simp [trace, traceFrom] at h
  | snoc h now op ih =>
    have e1 : trace E (h ++ [(now, op)]) = trace E h ++ [⟨now, op, (step (stateAfter E h) now op).2⟩] := traceFrom_snoc _ _ _ _
    have e2 : stateAfter E (h ++ [(now, op)]) = (step (stateAfter E h) now op).1 := run_snoc _ _ _ _
    rw [e1, e2]
    rcases rng_step (inv_stateAfter E h) now op with ⟨seed, h1, h2⟩ | ⟨h1, h2, h3⟩ | ⟨g, r, _, h1, h2, h3, h4, _, h5⟩ | ⟨h1, h2, h3, h4⟩
    · exact .inr ⟨seed, [], seededWith_snoc.mpr (.inl ⟨rfl, h1⟩), h2⟩
    · refine .inl ⟨h3, ?_⟩
      rintro ⟨seed, since, hs⟩
      rcases seededWith_snoc.mp hs with ⟨_, hs⟩ | ⟨_, _, _, hs, _⟩
      · exact h2 _ hs
      · exact hs h1
    · rcases ih with ⟨ih, _⟩ | ⟨seed, since, ih1, ih2⟩
      · rw [ih] at h4; cases h4
      · refine .inr ⟨seed, since ++ [_], seededWith_snoc.mpr (.inr ⟨since, rfl, ih1, h2, h1⟩), ?_⟩
        rw [issuedIn_issued h3, h5]
        rw [ih2] at h4
        rw [← Option.some.inj h4]
        rfl
    · rcases ih with ⟨ih1, ih2⟩ | ⟨seed, since, ih1, ih2⟩
      · refine .inl ⟨h4.trans ih1, ?_⟩
        rintro ⟨seed, since, hs⟩
        rcases seededWith_snoc.mp hs with ⟨_, hs⟩ | ⟨since', _, hs, _⟩
        · exact h1 _ hs
        · exact ih2 ⟨seed, since', hs⟩
      · refine .inr ⟨seed, since ++ [_], seededWith_snoc.mpr (.inr ⟨since, rfl, ih1, h2, h1⟩), ?_⟩
        rw [issuedIn_not h3, h4, ih2]

/-- Exactly if randomness has arrived since the last installation or upgrade, there is a generator. -/
theorem rng_ready (E : Env) (h : History) :
    (stateAfter E h).lib.rng = none ↔ ¬∃ seed since, SeededWith (trace E h) seed since := by
  rcases rng_state E h with ⟨h1, h2⟩ | ⟨seed, since, h1, h2⟩
  · exact ⟨fun _ => h2, fun _ => h1⟩
  · exact ⟨fun h => (by rw [h] at h2; cases h2), fun h => absurd ⟨seed, since, h1⟩ h⟩

theorem settings_ready (E : Env) (h : History) :
    (stateAfter E h).lib.settings = none ↔ ¬∃ s p, InForce E (trace E h) s p := by
  constructor
  · rintro h1 ⟨s, p, h2⟩
    rw [((C42_settings_in_force E h s p).mp h2).1] at h1
    cases h1
  · intro h1
    cases h2 : (stateAfter E h).lib.settings with
    | none => rfl
    | some s => exact absurd ⟨s, _, (C42_settings_in_force E h s _).mpr ⟨h2, rfl⟩⟩ h1

/-! ### C89 -/

/-- C89: what `siwe_prepare_login` answers, in every state: it is determined by the argument, the time, the settings in force, the seed
that arrived last and the number of messages issued since. -/
theorem C89_answer (E : Env) (h : History) (now : UInt64) (addr : Bytes) :
    PrepareReply E (trace E h) now addr (step (stateAfter E h) now (.prepareLogin addr)).2 := by
  by_cases hA : IsAddress E.keccak addr
  · have hc := step_case (inv_stateAfter E h) now (.prepareLogin addr)
    generalize (step (stateAfter E h) now (.prepareLogin addr)).1 = st' at hc
    generalize (step (stateAfter E h) now (.prepareLogin addr)).2 = r at hc ⊢
    cases hc with
    | badPrepare _ e h1 => exact absurd hA h1
    | notReady _ _ h2 => rw [rng_ready, settings_ready] at h2; exact .notReady hA h2
    | prepared _ bs g s txt _ h2 h3 h4 h5 h6 h7 =>
      rcases rng_state E h with ⟨k1, _⟩ | ⟨seed, since, k1, k2⟩
      · rw [k1] at h4; cases h4
      rw [k2] at h4
      have hg := Option.some.inj h4
      refine .prepared s _ seed since _ _ hA ((C42_settings_in_force E h s _).mpr ⟨h5, rfl⟩) k1 ?_
        (fun c hc => (nonceOf_hex E g c hc).2) ?_
      · rw [← hg]; exact hexEncode_spells _
      · simpa [shown, SiweMessage.new, satAdd_toNat] using h7
  · cases hn : EthAddress.new E addr with
    | panic => exact absurd hn (ethAddress_new_no_panic E addr)
    | ok a => exact absurd ((ethAddress_new_ok_iff E addr a).mp hn).1 hA
    | err e =>
      have : (step (stateAfter E h) now (.prepareLogin addr)).2 = .err (.eth e) := by
        simp [step, commit, reply, siwePrepareLogin, hn]
      rw [this]
      exact .badAddress e ((addressError_iff E addr e).mp hn)

/-! ### C90 -/

/-- The nonce is the next draw, in hexadecimal. -/
theorem nonce_is_draw {E : Env} {h : History} {seed : Bytes} {since : List Event} {now : UInt64} {addr : Bytes} {r : PrepareLoginOkResponse}
    (hs : SeededWith (trace E h) seed since) (hr : (step (stateAfter E h) now (.prepareLogin addr)).2 = .prepared r) :
    r.nonce = hexEncode (draw E seed (issuedIn since)) := by
  rcases rng_step (inv_stateAfter E h) now (.prepareLogin addr) with ⟨_, h, _⟩ | ⟨⟨_, h, _⟩, _⟩ | ⟨g, r', _, _, _, h3, h4, h6, _⟩ | ⟨_, _, h, _⟩
  · cases h
  · rcases h with h | h <;> cases h
  · rcases rng_state E h with ⟨k1, _⟩ | ⟨seed', since', k1, k2⟩
    · rw [k1] at h4; cases h4
    obtain ⟨rfl, rfl⟩ := seededWith_unique hs k1
    rw [k2] at h4
    rw [hr] at h3
    cases h3
    rw [h6, ← Option.some.inj h4]
    rfl
  · exact absurd hr (h r)

/-- C90: callers have no influence on nonces: if randomness arrived as the same seed and as many messages were issued since, then the
nonce is the same, whatever the calls, addresses, times and settings were. -/
theorem C90_only_the_seed_matters (E : Env) (h h' : History) (seed : Bytes) (since since' : List Event)
    (hs : SeededWith (trace E h) seed since) (hs' : SeededWith (trace E h') seed since') (hn : issuedIn since = issuedIn since')
    (now now' : UInt64) (addr addr' : Bytes) (r r' : PrepareLoginOkResponse)
    (hr : (step (stateAfter E h) now (.prepareLogin addr)).2 = .prepared r)
    (hr' : (step (stateAfter E h') now' (.prepareLogin addr')).2 = .prepared r') : r.nonce = r'.nonce := by
  rw [nonce_is_draw hs hr, nonce_is_draw hs' hr', hn]

/-- C90: two messages issued since the same seed arrived are different draws of the generator, and they have the same nonce exactly if the
generator gave the same ten bytes for these two draws. -/
theorem C90_nonces_differ (E : Env) (h : History) (before between after : List Event) (e e' : Event) (seed : Bytes)
    (since : List Event) (addr addr' nonce nonce' text text' : Bytes) (ht : trace E h = before ++ e :: between ++ e' :: after)
    (hs : SeededWith (before ++ e :: between) seed (since ++ e :: between)) (he : e.Issues addr nonce text) (he' : e'.Issues addr' nonce' text') :
    issuedIn since < issuedIn (since ++ e :: between) ∧
    (nonce = nonce' ↔ draw E seed (issuedIn since) = draw E seed (issuedIn (since ++ e :: between))) := by
  obtain ⟨c1, c2⟩ := he
  obtain ⟨c1', c2'⟩ := he'
  obtain ⟨h1, h2, -, e2, e3, -⟩ := traceFrom_split (show traceFrom (State.fresh E) h = (before ++ e :: between) ++ e' :: after from ht)
  obtain ⟨h3, h4, -, e6, e7, -⟩ := traceFrom_split (show traceFrom (State.fresh E) h = before ++ e :: (between ++ e' :: after) by
    rw [show traceFrom (State.fresh E) h = trace E h from rfl, ht]; simp)
  have hs0 : SeededWith before seed since := by
    obtain ⟨b, x, g1, g2, g3, g4⟩ := hs
    refine ⟨b, x, ?_, g2, fun z hz => g3 z (List.mem_append_left _ hz), fun z hz => g4 z (List.mem_append_left _ hz)⟩
    rw [show b ++ x :: (since ++ e :: between) = (b ++ x :: since) ++ e :: between by simp] at g1
    exact (List.append_inj' g1 rfl).1
  rw [c1, c2] at e7
  rw [c1', c2'] at e3
  have k1 := nonce_is_draw (hs := (show SeededWith (trace E h3) seed since by rw [show trace E h3 = before from e6.symm]; exact hs0)) e7.symm
  have k2 := nonce_is_draw (hs := (show SeededWith (trace E h1) seed (since ++ e :: between) by rw [show trace E h1 = _ from e2.symm]; exact hs)) e3.symm
  refine ⟨?_, ?_⟩
  · have : e.issued = true := by simp [Event.issued, c2]
    simp only [issuedIn, List.countP_append, List.countP_cons, this, if_true]
    omega
  · rw [show nonce = _ from k1, show nonce' = _ from k2]
    exact ⟨hexEncode_inj, congrArg _⟩

/-- Non-vacuity: the example's two messages, with the nonces of the generator's first two draws. -/
example : SeededWith (trace Toy.env Ex.prepared) [1, 2, 3] ((trace Toy.env Ex.prepared).drop 2) ∧
    issuedIn ((trace Toy.env Ex.prepared).drop 2) = 2 ∧
    ((trace Toy.env Ex.prepared).drop 2).map (fun e => match e.reply with | .prepared r => r.nonce | _ => []) =
      [hexEncode (draw Toy.env [1, 2, 3] 0), hexEncode (draw Toy.env [1, 2, 3] 1)] ∧
    draw Toy.env [1, 2, 3] 0 ≠ draw Toy.env [1, 2, 3] 1 := by
  refine ⟨⟨(trace Toy.env Ex.prepared).take 1, ⟨2, .rngSeeded [1, 2, 3], .done⟩, rfl, rfl, ?_, ?_⟩, by decide +kernel⟩
  · simp [Ex.prepared, trace, traceFrom, SameModule, Event.Reinstalls]
  · simp [Ex.prepared, trace, traceFrom]

end Siwe
