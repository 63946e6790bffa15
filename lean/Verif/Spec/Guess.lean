import Verif.Spec.Trace
/-
C124: a random source without flaws, and what others do without seeing it.
-/
namespace Siwe.Spec

/-- The ten bytes of one draw. -/
abbrev Draw := { b : Bytes // b.length = 10 }

/-- The same surroundings, with a random source whose state is the sequence of the draws to come. -/
def ideal (E : Env) (draws : Bytes → Nat → Draw) : Env :=
  { E with Rng := Nat → Draw, rngFromSeed := draws, rngFill10 := fun r => (r 0, fun n => r (n + 1)) }

/-- The canister as it is, except that its next draw is `d`. -/
def withNext {E : Env} {draws : Bytes → Nat → Draw} (s : State (ideal E draws)) (d : Draw) : State (ideal E draws) :=
  { s with lib := { s.lib with rng := s.lib.rng.map fun r n => if n = 0 then d else r n } }

/-- How everybody else behaves: the next call and its time, from the replies they got so far. -/
abbrev Strategy := List Reply → UInt64 × Op

/-- The first `n` calls others make to a canister. -/
def callsOf {E : Env} (others : Strategy) (s : State E) : Nat → History
  | 0 => []
  | n + 1 => callsOf others s n ++ [others (run s (callsOf others s n)).2]

/-- They make calls only: no installation, no upgrade; and all before a time. -/
def Strategy.OnlyCalls (others : Strategy) (t : Nat) : Prop :=
  ∀ replies, (others replies).1.toNat < t ∧ ∀ i, (others replies).2 ≠ .install i ∧ (others replies).2 ≠ .upgrade i

/-- The canister after the user asked for a message, when the draw for its nonce is `d`; and the reply. -/
def asked {E : Env} {draws : Bytes → Nat → Draw} (s : State (ideal E draws)) (t : UInt64) (addr : Bytes) (d : Draw) :
    State (ideal E draws) × Reply := step (withNext s d) t (.prepareLogin addr)

/-- What others see of their `n` calls after that. -/
def seen {E : Env} {draws : Bytes → Nat → Draw} (s : State (ideal E draws)) (t : UInt64) (addr : Bytes) (others : Strategy) (n : Nat)
    (d : Draw) : List Event := traceFrom (asked s t addr d).1 (callsOf others (asked s t addr d).1 n)

/-- The user got a message, signs it in time for a session key that is one, and is not logged in. -/
def SignInFails {E : Env} {draws : Bytes → Nat → Draw} (s : State (ideal E draws)) (t : UInt64) (addr : Bytes) (others : Strategy)
    (n : Nat) (until' : Nat) (d : Draw) : Prop :=
  ∃ text nonce now sig key, (asked s t addr d).2 = .prepared ⟨text, nonce⟩ ∧ now.toNat < until' ∧ HexString 130 sig ∧
    Signs E sig text addr ∧ key ≠ [] ∧ E.derOk key = true ∧
    ¬∃ ld, (step (run (asked s t addr d).1 (callsOf others (asked s t addr d).1 n)).1 now (.login sig addr key nonce)).2 = .loggedIn ld

/-- One of the calls others make for this draw uses an address and a nonce whose storage key collides with the user's. -/
def Collides {E : Env} {draws : Bytes → Nat → Draw} (s : State (ideal E draws)) (t : UInt64) (addr : Bytes) (others : Strategy) (n : Nat)
    (d : Draw) : Prop :=
  ∃ text nonce, (asked s t addr d).2 = .prepared ⟨text, nonce⟩ ∧
    ∃ e ∈ seen s t addr others n d, ∃ addr' nonce', e.Concerns addr' nonce' ∧ KeyCollision E addr nonce addr' nonce'

end Siwe.Spec
