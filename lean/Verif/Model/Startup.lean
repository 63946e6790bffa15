import Verif.Model.Provider
/-
packages/ic_siwe/src/init.rs:33-49: how the random generator is started.  `init` sets a timer of no delay; when it fires a
task calls `raw_rand` of the management canister and awaits the answer; the answer's 32 bytes seed the generator.  Here
the timer, the call and the answer are events of their own, in any order with the calls of users.

From the Internet Computer: installing or upgrading a module drops the timers of the old one, and no answer to a call made
by the old one reaches the new one (one has to stop a canister before upgrading it for this; `stop` awaits the answers).
From ic-cdk-timers: a timer of `set_timer` is executed once, by a call of the canister to itself; if that call is refused
the timer is gone.
-/
namespace Siwe.Startup

/-- What can happen to a canister: a call from outside; the timer's task is run, or is lost; `raw_rand` answers with bytes,
or is rejected. -/
inductive Happening where
  | call (op : Op)
  | timer
  | timerLost
  | answer (bytes : Bytes)
  | rejected
  deriving DecidableEq

/-- The canister with its pending timers (init.rs:40) and calls of `raw_rand` that await an answer (init.rs:42-45). -/
structure Running (E : Env) where
  canister : State E
  timers : Nat
  awaiting : Nat

/-- The canister before anything is installed. -/
def Running.fresh (E : Env) : Running E := ⟨State.fresh E, 0, 0⟩

/-- init.rs:25-31 and 33-49, with init_upgrade.rs:125: a module that was installed or upgraded successfully has set one
timer; otherwise all is as before. -/
def settle {E : Env} (c : Running E) (x : State E × Reply) : Running E × Option Reply :=
  if x.2 = .done then (⟨x.1, 1, 0⟩, some x.2) else ({ c with canister := x.1 }, some x.2)

/-- One happening; `none` when it cannot happen: there is no method for the seed, no timer, or no call to answer.
init.rs:40-48: the timer's task makes the call; an answer of 32 bytes seeds the generator; anything else, and a
rejection, make `unwrap` (init.rs:45) trap, and the task ends there. -/
def happen {E : Env} (c : Running E) (now : UInt64) : Happening → Running E × Option Reply
  | .call (.rngSeeded _) => (c, none)
  | .call (.install i) => settle c (step c.canister now (.install i))
  | .call (.upgrade i) => settle c (step c.canister now (.upgrade i))
  | .call op => ({ c with canister := (step c.canister now op).1 }, some (step c.canister now op).2)
  | .timer =>
    match c.timers with
    | 0 => (c, none)
    | n + 1 => ({ c with timers := n, awaiting := c.awaiting + 1 }, some .done)
  | .timerLost =>
    match c.timers with
    | 0 => (c, none)
    | n + 1 => ({ c with timers := n }, some .trap)
  | .answer bytes =>
    match c.awaiting with
    | 0 => (c, none)
    | n + 1 =>
      if bytes.length = 32 then
        ({ c with canister := (step c.canister now (.rngSeeded bytes)).1, awaiting := n }, some .done)
      else ({ c with awaiting := n }, some .trap)
  | .rejected =>
    match c.awaiting with
    | 0 => (c, none)
    | n + 1 => ({ c with awaiting := n }, some .trap)

/-- The canister after some happenings. -/
def after {E : Env} (c : Running E) : List (UInt64 × Happening) → Running E
  | [] => c
  | (now, w) :: rest => after (happen c now w).1 rest

end Siwe.Startup
