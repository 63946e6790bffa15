import Verif.Spec.Grant
import Verif.Spec.Config
/- The mappings between addresses and principals. -/
namespace Siwe.Spec

/-- The string an address's identity is derived from under an initialisation argument. -/
def identityOf (i : SettingsInput) (addr : Bytes) : Bytes :=
  identityString i.salt addr (if .includeUriInSeed ∈ i.runtimeFeatures.getD [] then some i.uri else none)

/-- The public key and the principal of that identity. -/
def keyOf (E : Env) (i : SettingsInput) (addr : Bytes) : Bytes :=
  createUserCanisterPubkey E.canisterId (E.sha256 (identityOf i addr)).bytes
/-- See `keyOf`. -/
def principalOf (E : Env) (i : SettingsInput) (addr : Bytes) : Bytes := principalOfKey E (keyOf E i addr)

/-- The identities of two addresses exhibit a hash collision. -/
def IdentityCollision (E : Env) (i : SettingsInput) (addr addr' : Bytes) : Prop :=
  Collision E.sha256 (identityOf i addr) (identityOf i addr') ∨ Collision E.sha224 (keyOf E i addr) (keyOf E i addr')

/-- Two initialisation arguments give every address the same identity. -/
def SameIdentities (i i' : SettingsInput) : Prop := ∀ addr, identityOf i addr = identityOf i' addr

/-- Both mappings are kept. -/
def KeepsMappings (i : SettingsInput) : Prop :=
  .disableEthToPrincipalMapping ∉ i.runtimeFeatures.getD [] ∧ .disablePrincipalToEthMapping ∉ i.runtimeFeatures.getD []

/-- All successful installations and upgrades had arguments that give the same identities as `i` and keep both mappings. -/
def Steady (i : SettingsInput) (es : List Event) : Prop :=
  ∀ e ∈ es, ∀ j, (e.call = .install j ∨ e.call = .upgrade j) → e.reply = .done → SameIdentities j i ∧ KeepsMappings j

/-- The argument of the last successful installation or upgrade. -/
def LastArgument (es : List Event) (i : SettingsInput) : Prop :=
  ∃ before e after, es = before ++ e :: after ∧ SameModule after ∧ (e.call = .install i ∨ e.call = .upgrade i) ∧ e.reply = .done

/-- Some login since the last new installation was for the address and returned a key whose principal is `p`. -/
def SignedInAs (E : Env) (es : List Event) (addr p : Bytes) : Prop :=
  ∃ before e after key nonce ld, es = before ++ e :: after ∧ (∀ y ∈ after, ¬y.Installs) ∧ e.LogsIn addr key nonce ld ∧
    principalOfKey E ld.userCanisterPubkey = p

/-- Two logins whose identities collide. -/
def LoginsCollide (E : Env) (i : SettingsInput) (es : List Event) : Prop :=
  ∃ e ∈ es, ∃ e' ∈ es, ∃ a a' k k' n n' d d', e.LogsIn a k n d ∧ e'.LogsIn a' k' n' d' ∧ IdentityCollision E i a a'

/-- The address and the principal of the user who signed in with this call, if the call is a login that succeeded. -/
def Event.user (E : Env) (e : Event) : Option (Bytes × Bytes) :=
  match e.call, e.reply with
  | .login _ addr _ _, .loggedIn d => some (addr, principalOfKey E d.userCanisterPubkey)
  | _, _ => none

/-- The users who signed in, one entry for each login. -/
def signIns (E : Env) (es : List Event) : List (Bytes × Bytes) := es.filterMap (Event.user E)

end Siwe.Spec
