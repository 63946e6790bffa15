import Verif.Spec.Startup
import Verif.Lemmas.History
/- The start of a canister. -/
namespace Siwe.Startup
open Spec

variable {E : Env}

theorem after_append (c : Running E) (ws ws' : List (UInt64 × Happening)) :
    after c (ws ++ ws') = after (after c ws) ws' := by
  induction ws generalizing c with
  | nil => rfl
  | cons w ws ih => exact ih _

theorem seenFrom_append (c : Running E) (ws ws' : List (UInt64 × Happening)) :
    seenFrom c (ws ++ ws') = seenFrom c ws ++ seenFrom (after c ws) ws' := by
  induction ws generalizing c with
  | nil => rfl
  | cons w ws ih => simp [seenFrom, ih, after]

theorem seenFrom_split {c : Running E} {ws : List (UInt64 × Happening)} {before after' : List Seen} {x : Seen}
    (h : seenFrom c ws = before ++ x :: after') :
    ∃ ws₁ ws₂, ws = ws₁ ++ (x.time, x.what) :: ws₂ ∧ seenFrom c ws₁ = before ∧
      x.outcome = (happen (after c ws₁) x.time x.what).2 ∧
      seenFrom (happen (after c ws₁) x.time x.what).1 ws₂ = after' := by
  induction ws generalizing c before with
  | nil => cases before <;> exact nomatch h
  | cons w ws ih =>
    cases before with
    | nil =>
      simp only [seenFrom, List.nil_append, List.cons.injEq] at h
      obtain ⟨rfl, h2⟩ := h
      exact ⟨[], ws, rfl, rfl, rfl, h2⟩
    | cons b before =>
      simp only [seenFrom, List.cons_append, List.cons.injEq] at h
      obtain ⟨h1, h2⟩ := h
      obtain ⟨ws₁, ws₂, e1, e2, e3, e4⟩ := ih h2
      exact ⟨w :: ws₁, ws₂, by simp [e1], by simp [seenFrom, e2, h1], e3, e4⟩

/-- the history the canister has seen -/
def history (c : Running E) : List (UInt64 × Happening) → History
  | [] => []
  | (now, w) :: rest =>
    (match Seen.event ⟨now, w, (happen c now w).2⟩ with
      | some e => [(now, e.call)]
      | none => []) ++ history (happen c now w).1 rest

theorem settle_canister (c : Running E) (x : State E × Reply) : (settle c x).1.canister = x.1 := by
  unfold settle; split <;> rfl

theorem settle_outcome (c : Running E) (x : State E × Reply) : (settle c x).2 = some x.2 := by
  unfold settle; split <;> rfl

/-- A happening is a call or seed the canister sees, or leaves it as it is. -/
theorem happen_case (c : Running E) (now : UInt64) (w : Happening) :
    (∃ op, Seen.event ⟨now, w, (happen c now w).2⟩ = some ⟨now, op, (step c.canister now op).2⟩ ∧
      (happen c now w).1.canister = (step c.canister now op).1) ∨
    (Seen.event ⟨now, w, (happen c now w).2⟩ = none ∧ (happen c now w).1.canister = c.canister) := by
  cases w with
  | call op =>
    cases op with
    | rngSeeded s => exact .inr ⟨rfl, rfl⟩
    | install i => exact .inl ⟨.install i, by simp only [Seen.event, happen, settle_outcome], settle_canister _ _⟩
    | upgrade i => exact .inl ⟨.upgrade i, by simp only [Seen.event, happen, settle_outcome], settle_canister _ _⟩
    | _ => exact .inl ⟨_, rfl, rfl⟩
  | timer =>
    refine .inr ?_
    simp only [happen]
    split <;> exact ⟨rfl, rfl⟩
  | timerLost =>
    refine .inr ?_
    simp only [happen]
    split <;> exact ⟨rfl, rfl⟩
  | rejected =>
    refine .inr ?_
    simp only [happen]
    split <;> exact ⟨rfl, rfl⟩
  | answer bytes =>
    simp only [happen]
    split
    · exact .inr ⟨rfl, rfl⟩
    · split
      · exact .inl ⟨.rngSeeded bytes, rfl, rfl⟩
      · exact .inr ⟨rfl, rfl⟩

theorem history_spec (c : Running E) (ws : List (UInt64 × Happening)) :
    (after c ws).canister = (run c.canister (history c ws)).1 ∧
    traceFrom c.canister (history c ws) = (seenFrom c ws).filterMap Seen.event := by
  induction ws generalizing c with
  | nil => exact ⟨rfl, rfl⟩
  | cons w ws ih =>
    obtain ⟨now, w⟩ := w
    obtain ⟨ih1, ih2⟩ := ih (happen c now w).1
    rcases happen_case c now w with ⟨op, h1, h2⟩ | ⟨h1, h2⟩
    · simp only [history, h1, List.singleton_append, after, seenFrom, List.filterMap_cons, traceFrom, run]
      rw [ih1, ← ih2, h2]
      exact ⟨rfl, rfl⟩
    · simp only [history, h1, List.nil_append, after, seenFrom, List.filterMap_cons]
      rw [ih1, ← ih2, h2]
      exact ⟨rfl, rfl⟩

/-- a seed arrived -/
def Seen.seeded (x : Seen) : Bool :=
  match x.what, x.outcome with
  | .answer _, some .done => true
  | _, _ => false

/-- starting failed -/
def Seen.failed (x : Seen) : Bool :=
  match x.what, x.outcome with
  | .answer _, some .trap => true
  | .timerLost, some .trap => true
  | .rejected, some .trap => true
  | _, _ => false

/-- Within the life of a module, the one timer is pending, or its call, or has become a seed or a failure. -/
theorem tokens (c : Running E) (ws : List (UInt64 × Happening)) (hn : ∀ x ∈ seenFrom c ws, ¬x.Renews) :
    (after c ws).timers + (after c ws).awaiting + (seenFrom c ws).countP Seen.seeded + (seenFrom c ws).countP Seen.failed =
      c.timers + c.awaiting := by
  induction ws generalizing c with
  | nil => simp [after, seenFrom]
  | cons w ws ih =>
    obtain ⟨now, w⟩ := w
    simp only [seenFrom, List.mem_cons, forall_eq_or_imp] at hn
    obtain ⟨hw, hn⟩ := hn
    have ih := ih _ hn
    simp only [after, seenFrom, List.countP_cons]
    generalize after (happen c now w).1 ws = c'' at ih ⊢
    generalize seenFrom (happen c now w).1 ws = ys at ih ⊢
    have key : (happen c now w).1.timers + (happen c now w).1.awaiting
        + (if Seen.seeded ⟨now, w, (happen c now w).2⟩ = true then 1 else 0)
        + (if Seen.failed ⟨now, w, (happen c now w).2⟩ = true then 1 else 0) = c.timers + c.awaiting := by
      clear ih
      cases w with
      | call op =>
        have hs : Seen.seeded ⟨now, .call op, (happen c now (.call op)).2⟩ = false := rfl
        have hf : Seen.failed ⟨now, .call op, (happen c now (.call op)).2⟩ = false := rfl
        rw [hs, hf]
        cases op with
        | install i =>
          simp only [happen, settle] at hw ⊢
          split
          · next h =>
            rw [if_pos h] at hw
            exact absurd ⟨i, .inl rfl, by rw [← h]⟩ hw
          · rfl
        | upgrade i =>
          simp only [happen, settle] at hw ⊢
          split
          · next h =>
            rw [if_pos h] at hw
            exact absurd ⟨i, .inr rfl, by rw [← h]⟩ hw
          · rfl
        | _ => rfl
      | timer =>
        obtain ⟨s, t, a⟩ := c
        cases t <;> simp [happen, Seen.seeded, Seen.failed]
        omega
      | timerLost =>
        obtain ⟨s, t, a⟩ := c
        cases t <;> simp [happen, Seen.seeded, Seen.failed]
        omega
      | rejected =>
        obtain ⟨s, t, a⟩ := c
        cases a <;> simp [happen, Seen.seeded, Seen.failed]
        omega
      | answer b =>
        obtain ⟨s, t, a⟩ := c
        cases a with
        | zero => simp [happen, Seen.seeded, Seen.failed]
        | succ n => by_cases hb : b.length = 32 <;> simp [happen, Seen.seeded, Seen.failed, hb] <;> omega
    omega

end Siwe.Startup
