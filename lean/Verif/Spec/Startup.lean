import Verif.Model.Startup
import Verif.Spec.Nonce
/- What an observer of a canister and its system sees while the canister starts. -/
namespace Siwe.Startup
open Spec

/-- One thing that happened, with its outcome; `none` if it could not happen. -/
structure Seen where
  time : UInt64
  what : Happening
  outcome : Option Reply
  deriving DecidableEq

/-- What is seen of a list of happenings. -/
def seenFrom {E : Env} (c : Running E) : List (UInt64 × Happening) → List Seen
  | [] => []
  | (now, w) :: rest => ⟨now, w, (happen c now w).2⟩ :: seenFrom (happen c now w).1 rest

/-- What is seen of a new canister. -/
def seen (E : Env) (ws : List (UInt64 × Happening)) : List Seen := seenFrom (Running.fresh E) ws

/-- The module was installed or upgraded successfully. -/
def Seen.Renews (x : Seen) : Prop := ∃ i, (x.what = .call (.install i) ∨ x.what = .call (.upgrade i)) ∧ x.outcome = some .done

/-- `raw_rand` answered the canister with these 32 bytes. -/
def Seen.Seeds (x : Seen) (seed : Bytes) : Prop := x.what = .answer seed ∧ seed.length = 32 ∧ x.outcome = some .done

/-- The timer was lost, or `raw_rand` was rejected or answered with something else. -/
def Seen.Fails (x : Seen) : Prop :=
  x.outcome = some .trap ∧ (x.what = .timerLost ∨ x.what = .rejected ∨ ∃ bytes, x.what = .answer bytes)

/-- `siwe_prepare_login(addr)` issued the text with the nonce. -/
def Seen.Issues (x : Seen) (addr nonce text : Bytes) : Prop :=
  x.what = .call (.prepareLogin addr) ∧ x.outcome = some (.prepared ⟨text, nonce⟩)

/-- The call issued a message. -/
def Seen.issued (x : Seen) : Bool := match x.outcome with | some (.prepared _) => true | _ => false

/-- What of it is a call or the arrival of a seed, as the other properties see it. -/
def Seen.event (x : Seen) : Option Event :=
  match x.what, x.outcome with
  | .call op, some r => some ⟨x.time, op, r⟩
  | .answer seed, some .done => some ⟨x.time, .rngSeeded seed, .done⟩
  | _, _ => none

end Siwe.Startup
