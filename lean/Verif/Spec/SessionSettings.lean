import Verif.Spec.Trace
/-
Two canisters that receive the same calls but were configured with different session lengths and targets.
-/
namespace Siwe.Spec

/-- A session length the settings accept: any but zero. -/
def GoodSession (len : Option UInt64) : Prop := len ≠ some 0

/-- Targets the settings accept: none, or a list of at most a thousand different principals that includes the canister itself. -/
def GoodTargets (E : Env) (targets : Option (List Bytes)) : Prop :=
  ∀ ts, targets = some ts →
    ∃ ps : List Bytes, ts.map E.principalFromText = ps.map some ∧ E.canisterId ∈ ps ∧ ps.length ≤ 1000 ∧ ps.Nodup

/-- Two acceptable configurations that agree on everything but the targets and, unless `sameLength`, the session length. -/
structure SameButSession (E : Env) (sameLength : Prop) (i i' : SettingsInput) : Prop where
  rest : ∃ len targets, i' = { i with sessionExpiresIn := len, targets := targets }
  length : sameLength → i'.sessionExpiresIn = i.sessionExpiresIn
  goodLength : GoodSession i.sessionExpiresIn ∧ GoodSession i'.sessionExpiresIn
  goodTargets : GoodTargets E i.targets ∧ GoodTargets E i'.targets

/-- The same call, or an installation or upgrade with such configurations. -/
inductive SessionCalls (E : Env) (sameLength : Prop) : Op → Op → Prop
  | same (op : Op) : SessionCalls E sameLength op op
  | install (i i' : SettingsInput) : SameButSession E sameLength i i' → SessionCalls E sameLength (.install i) (.install i')
  | upgrade (i i' : SettingsInput) : SameButSession E sameLength i i' → SessionCalls E sameLength (.upgrade i) (.upgrade i')

/-- Such calls at the same times. -/
inductive SessionHistories (E : Env) (sameLength : Prop) : History → History → Prop
  | nil : SessionHistories E sameLength [] []
  | cons (now : UInt64) {op op' : Op} {h h' : History} : SessionCalls E sameLength op op' → SessionHistories E sameLength h h' →
      SessionHistories E sameLength ((now, op) :: h) ((now, op') :: h')

/-- Equal, or successful logins with the same user key. -/
def SameUser (r r' : Reply) : Prop :=
  r = r' ∨ ∃ d d', r = .loggedIn d ∧ r' = .loggedIn d' ∧ d.userCanisterPubkey = d'.userCanisterPubkey

/-- The call asks for a delegation. -/
def AsksDelegation : Op → Prop
  | .getDelegation .. => True
  | _ => False

/-- The call is a login. -/
def IsLogin : Op → Prop
  | .login .. => True
  | _ => False

end Siwe.Spec
