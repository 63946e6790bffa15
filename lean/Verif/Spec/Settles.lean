import Verif.Spec.Client
/-
When the promises of `prepareLogin()` and `login()` settle.
-/
namespace Siwe.Spec

/-- What a running call waits for. -/
inductive Wait where
  /-- the wallet's accounts -/
  | accounts
  /-- a signature of the wallet -/
  | signature
  /-- a call sent to the canister -/
  | canister
  /-- nothing outside the page: a promise that is about to settle -/
  | page
  deriving DecidableEq

/-- See `Wait`. -/
def waitsFor : Pc → Wait
  | .prepAddresses _ | .loginAddresses => .accounts
  | .signing _ _ => .signature
  | .prepSent _ _ | .loginSent _ _ _ _ | .delegationSent _ _ _ => .canister
  | _ => .page

/-- The happening ends the wait of the page's `i`-th call: the wallet answers or refuses, the canister executes the call or the network
fails, the promise settles. -/
def EndsWait (i : Nat) : Wait → Happening → Prop
  | .accounts, x => (∃ l, x = .resume i (.addresses l)) ∨ x = .resume i .rejected
  | .signature, x => (∃ s, x = .resume i (.signature s)) ∨ x = .resume i .rejected
  | .canister, x => (∃ now cert, x = .execute i now cert) ∨ x = .resume i .rejected
  | .page, x => x = .resume i .settled

/-- The world at time `n` of an infinite schedule. -/
def worldAt (E : Env) (K : SessionKeys) (w : World) (schedule : Nat → Happening) : Nat → World
  | 0 => w
  | n + 1 => (worldAt E K w schedule n).step E K (schedule n)

/-- The state of the `i`-th call at time `n`. -/
def callAt (E : Env) (K : SessionKeys) (w : World) (schedule : Nat → Happening) (i n : Nat) : Option Pc :=
  (worldAt E K w schedule n).client.tasks[i]?

/-- Every wait of the `i`-th call ends at some time. -/
def Fair (E : Env) (K : SessionKeys) (w : World) (schedule : Nat → Happening) (i : Nat) : Prop :=
  ∀ n pc, callAt E K w schedule i n = some pc → Running pc = true →
    ∃ m, n ≤ m ∧ ∀ pc', callAt E K w schedule i m = some pc' → EndsWait i (waitsFor pc') (schedule m)

end Siwe.Spec
