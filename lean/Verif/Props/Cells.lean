import Verif.Lemmas.Cells
import Verif.Examples.Histories
/-
C96: the shared state is never accessed in conflicting ways.
-/
namespace Siwe

open Cells (Memory Stop Borrow Cell LibFree)

/-- An execution that stops because it accesses a cell that is in use. -/
def Cells.Conflict (x : Stop) : Prop := ∃ c, x = .alreadyBorrowed c ∨ x = .alreadyMutablyBorrowed c

/-- C96: whatever has happened before, no call and no event conflicts with an access that it makes itself, or that an earlier one has not
ended. -/
theorem C96_no_conflict (E : Env) (h : History) (now : UInt64) (op : Op) (x : Stop)
    (hx : Cells.program now op (Cells.before (Cells.run (⟨.fresh E, Cells.unused⟩ : Memory E) h).1 op) = .error x) :
    ¬ Cells.Conflict x := by
  rw [Cells.run_eq] at hx
  dsimp only at hx
  rw [Cells.program_eq] at hx
  unfold Cells.ofReply at hx
  split at hx
  · cases hx; rintro ⟨c, h | h⟩ <;> cases h
  · cases hx

/-- C96: after every call and event, answered or trapped, nothing is in use any more. -/
theorem C96_released (E : Env) (h : History) (c : Cell) :
    (Cells.run (⟨.fresh E, Cells.unused⟩ : Memory E) h).1.borrows c = .shared 0 := by
  rw [Cells.run_eq]; rfl

/-- C96: so the canister with its cells answers as the model without cells does, and remembers the same. -/
theorem C96_same (E : Env) (h : History) :
    (Cells.run (⟨.fresh E, Cells.unused⟩ : Memory E) h).1.state = stateAfter E h ∧
    (Cells.run (⟨.fresh E, Cells.unused⟩ : Memory E) h).2 = (run (State.fresh E) h).2 := by
  rw [Cells.run_eq]; exact ⟨rfl, rfl⟩

/-- C96, for a canister that uses the library: with its own state in use in any way (a signature map borrowed mutably, say), `init`,
`prepare_login`, `login` and the seeding of the generator do not conflict with it or among themselves, and what was in use stays so. -/
theorem C96_library {E : Env} (s : State E) (b : Cell → Borrow) (hb : LibFree b) (now : UInt64) (x : Stop) :
    (∀ t, Cells.libInit t ⟨s, b⟩ = .error x → ¬ Cells.Conflict x) ∧
    (∀ seed, Cells.seedRng seed ⟨s, b⟩ = .error x → ¬ Cells.Conflict x) ∧
    (∀ a, Cells.prepareLogin now a ⟨s, b⟩ = .error x → ¬ Cells.Conflict x) ∧
    ∀ sm sig a key canister nonce, Cells.login sm now sig a key canister nonce ⟨s, b⟩ = .error x → ¬ Cells.Conflict x := by
  refine ⟨?_, ?_, ?_, ?_⟩
  · intro t h
    rw [Cells.libInit_eq t s b hb] at h
    cases h
  · intro t h
    rw [Cells.seedRng_eq t s b hb] at h
    cases h
  · intro a h
    rw [Cells.prepareLogin_eq now a s b hb] at h
    split at h
    · cases h
    · cases h
    · cases h; rintro ⟨c, h | h⟩ <;> cases h
  · intro sm sig a key cid nonce h
    rw [Cells.login_eq sm now sig a key cid nonce s b hb] at h
    split at h
    · cases h
    · cases h
    · cases h; rintro ⟨c, h | h⟩ <;> cases h

/-- C96, for a canister that uses the library: what was in use before a call of the library is in use after it, and nothing else. -/
theorem C96_library_released {E : Env} (s : State E) (b : Cell → Borrow) (hb : LibFree b) (now : UInt64) (m : Memory E) :
    (∀ t r, Cells.libInit t ⟨s, b⟩ = .ok (r, m) → m.borrows = b) ∧
    (∀ seed r, Cells.seedRng seed ⟨s, b⟩ = .ok (r, m) → m.borrows = b) ∧
    (∀ a r, Cells.prepareLogin now a ⟨s, b⟩ = .ok (r, m) → m.borrows = b) ∧
    ∀ sm sig a key canister nonce r, Cells.login sm now sig a key canister nonce ⟨s, b⟩ = .ok (r, m) → m.borrows = b := by
  refine ⟨?_, ?_, ?_, ?_⟩
  · intro t r h
    rw [Cells.libInit_eq t s b hb] at h
    cases h; rfl
  · intro t r h
    rw [Cells.seedRng_eq t s b hb] at h
    cases h; rfl
  · intro a r h
    rw [Cells.prepareLogin_eq now a s b hb] at h
    split at h
    · cases h; rfl
    · cases h; rfl
    · cases h
  · intro sm sig a key cid nonce r h
    rw [Cells.login_eq sm now sig a key cid nonce s b hb] at h
    split at h
    · cases h; rfl
    · cases h; rfl
    · cases h

/-- Non-vacuity: conflicts do exist in this semantics. Changing the library's settings while they are being read is one, … -/
example (E : Env) (s : State E) (t : Settings) (hs : s.lib.settings = some t) :
    Cells.withSettings (fun t => Cells.libInit t) ⟨s, Cells.unused⟩ = .error (.alreadyBorrowed .libSettings) := by
  simp [Cells.withSettings, Cells.withBorrow, Cells.unused, Cells.contents, hs, Cells.libInit, Cells.withBorrowMut, Memory.flag]

/-- … and writing the pending sign-ins while they are being read is another. -/
example (E : Env) (s : State E) :
    Cells.withBorrow .messages (fun _ => Cells.withBorrowMut .messages fun x => pure ((), x)) ⟨s, Cells.unused⟩ =
      (.error (.alreadyBorrowed .messages) : Except Stop (Unit × Memory E)) := rfl

/-- Non-vacuity: reading inside a read is none. -/
example (E : Env) (s : State E) :
    (match Cells.withBorrow .settings (fun _ => Cells.withBorrow .settings fun _ => pure 5) (⟨s, Cells.unused⟩ : Memory E) with
      | .ok (a, _) => a | .error _ => 0) = 5 := rfl

/-- Non-vacuity: the example login succeeds with cells as well, … -/
example : ((Cells.run (⟨.fresh Toy.env, Cells.unused⟩ : Memory Toy.env) Ex.loggedIn).2.getLast?.any
    fun r => match r with | .loggedIn _ => true | _ => false) = true := by
  decide +kernel

/-- … and traps occur that are no conflicts. -/
example : (match Cells.program 100 (.prepareLogin Ex.alice) (⟨.fresh Toy.env, Cells.unused⟩ : Memory Toy.env) with
    | .error x => decide (x = .panic) | .ok _ => false) = true := by
  decide +kernel

/-- Non-vacuity: a canister may hold its signature map while it calls the library. -/
example : LibFree (Cells.hold Cells.unused .signatureMap) := ⟨rfl, rfl, rfl⟩

end Siwe
