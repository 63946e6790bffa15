import Verif.Spec.Settings
import Verif.Model.Provider
/- What a chain of calls on the settings builder asks for, stated without the builder. -/
namespace Siwe.Spec

/-- The value a setting has after `calls`: the one given by the last call about it, the default if there is none. -/
inductive LastGiven {α : Type} (about : BuilderCall → Option α) (default : α) (calls : List BuilderCall) : α → Prop
  | untouched : (∀ c ∈ calls, about c = none) → LastGiven about default calls default
  | last (before : List BuilderCall) (c : BuilderCall) (after : List BuilderCall) (v : α) :
      calls = before ++ c :: after → about c = some v → (∀ d ∈ after, about d = none) → LastGiven about default calls v

/-- the chain id given by a call -/
def givesChainId : BuilderCall → Option UInt32
  | .chainId c => some c
  | _ => none

/-- the scheme given by a call -/
def givesScheme : BuilderCall → Option Bytes
  | .scheme x => some x
  | _ => none

/-- the statement given by a call -/
def givesStatement : BuilderCall → Option Bytes
  | .statement x => some x
  | _ => none

/-- the lifetime of messages given by a call -/
def givesSignIn : BuilderCall → Option UInt64
  | .signInExpiresIn n => some n
  | _ => none

/-- the lifetime of sessions given by a call -/
def givesSession : BuilderCall → Option UInt64
  | .sessionExpiresIn n => some n
  | _ => none

/-- the targets given by a call -/
def givesTargets : BuilderCall → Option (Option (List Bytes))
  | .targets ts => some (some ts)
  | _ => none

/-- the features given by a call -/
def givesFeatures : BuilderCall → Option (Option (List RuntimeFeature))
  | .runtimeFeatures fs => some (some fs)
  | _ => none

/-- `s` is what `new(domain, uri, salt)` and the calls ask for: mainnet, `https`, "SIWE Fields:", five minutes, half
an hour, any canister and no feature, except where a call says otherwise. -/
structure CallsMean (domain uri salt : Bytes) (calls : List BuilderCall) (s : Settings) : Prop where
  domain : s.domain = domain
  uri : s.uri = uri
  salt : s.salt = salt
  chainId : LastGiven givesChainId 1 calls s.chainId
  scheme : LastGiven givesScheme (ascii "https") calls s.scheme
  statement : LastGiven givesStatement (ascii "SIWE Fields:") calls s.statement
  signIn : LastGiven givesSignIn 300000000000 calls s.signInExpiresIn
  session : LastGiven givesSession 1800000000000 calls s.sessionExpiresIn
  targets : LastGiven givesTargets none calls s.targets
  features : LastGiven givesFeatures none calls s.runtimeFeatures

/-- the method a call is of -/
def methodOf : BuilderCall → String
  | .chainId _ => "chain_id"
  | .scheme _ => "scheme"
  | .statement _ => "statement"
  | .signInExpiresIn _ => "sign_in_expires_in"
  | .sessionExpiresIn _ => "session_expires_in"
  | .targets _ => "targets"
  | .runtimeFeatures _ => "runtime_features"

/-- `calls` are, in some order, one call for each option of the canister's argument; `ps` are its targets as
principals. -/
def CallsFor (i : SettingsInput) (ps : Option (List Bytes)) (calls : List BuilderCall) : Prop :=
  calls.Perm ((i.chainId.map .chainId).toList ++ (i.scheme.map .scheme).toList ++ (i.statement.map .statement).toList
    ++ (i.signInExpiresIn.map .signInExpiresIn).toList ++ (i.sessionExpiresIn.map .sessionExpiresIn).toList
    ++ (ps.map .targets).toList
    ++ (if .includeUriInSeed ∈ i.runtimeFeatures.getD [] then [.runtimeFeatures [.includeUriInSeed]] else []))

end Siwe.Spec
