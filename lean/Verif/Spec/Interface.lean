import Verif.Model.Interface
import Verif.Spec.Trace
/- What the users of the published interface say and see: configurations, calls and replies, without the decoder. -/
namespace Siwe.Spec
open Candid

/-- A configuration, as ic_siwe_provider.did lets one write it: a chain id is any natural number. -/
structure Config where
  domain : Bytes
  uri : Bytes
  salt : Bytes
  chainId : Option Nat
  scheme : Option Bytes
  statement : Option Bytes
  signInExpiresIn : Option UInt64
  sessionExpiresIn : Option UInt64
  targets : Option (List Bytes)
  runtimeFeatures : Option (List ProviderFeature)

/-- The name of a feature in the published interface. -/
def featureName : ProviderFeature → String
  | .includeUriInSeed => "IncludeUriInSeed"
  | .disableEthToPrincipalMapping => "DisableEthToPrincipalMapping"
  | .disablePrincipalToEthMapping => "DisablePrincipalToEthMapping"

/-- The configuration as a Candid record. -/
def Config.val (c : Config) : Val := recordVal
  [("domain", .text c.domain), ("uri", .text c.uri), ("salt", .text c.salt), ("chain_id", optVal .nat c.chainId),
   ("scheme", optVal .text c.scheme), ("statement", optVal .text c.statement),
   ("sign_in_expires_in", optVal .nat64 c.signInExpiresIn), ("session_expires_in", optVal .nat64 c.sessionExpiresIn),
   ("targets", optVal (fun ts => .vec (ts.map .text)) c.targets),
   ("runtime_features", optVal (fun fs => .vec (fs.map fun f => caseVal (featureName f) .null)) c.runtimeFeatures)]

/-- The argument of an installation or upgrade, sent at the published type. -/
def Config.sent (c : Config) : Args := [(Did.settingsInput, c.val)]

/-- What the configuration asks for. -/
structure Config.Means (E : Env) (c : Config) (s : Settings) (p : ProviderSettings) : Prop where
  domain : s.domain = c.domain
  uri : s.uri = c.uri
  salt : s.salt = c.salt
  chainId : s.chainId.toNat = c.chainId.getD 1
  scheme : s.scheme = c.scheme.getD (ascii "https")
  statement : s.statement = c.statement.getD (ascii "SIWE Fields:")
  signIn : s.signInExpiresIn = c.signInExpiresIn.getD 300000000000
  session : s.sessionExpiresIn = c.sessionExpiresIn.getD 1800000000000
  noTargets : c.targets = none → s.targets = none
  targets : ∀ ts, c.targets = some ts →
    ∃ ps, s.targets = some ps ∧ ts.map E.principalFromText = ps.map some ∧ E.canisterId ∈ ps
  uriFeature : s.runtimeFeatures =
    if .includeUriInSeed ∈ c.runtimeFeatures.getD [] then some [.includeUriInSeed] else none
  ethToPrincipal : p.disableEthToPrincipalMapping = true ↔
    .disableEthToPrincipalMapping ∈ c.runtimeFeatures.getD []
  principalToEth : p.disablePrincipalToEthMapping = true ↔
    .disablePrincipalToEthMapping ∈ c.runtimeFeatures.getD []

/-- A field of a record that was sent, with its type. -/
def FieldSent (ws : Fields) (vs : List (UInt32 × Val)) (name : String) (t : Ty) (v : Val) : Prop :=
  ws.find (label name) = some t ∧ vs.lookup (label name) = some v

/-- A field was sent with a value of this type, bare or as an option. -/
def Given (ws : Fields) (vs : List (UInt32 × Val)) (name : String) (t : Ty) (v : Val) : Prop :=
  FieldSent ws vs name t v ∨ FieldSent ws vs name (.opt t) (.some v)

/-- What a reply value says, read by the published names. -/
def Says (f : Function) (derText : Bytes) (r : Reply) (v : Val) : Prop :=
  match r with
  | .trap => False
  | .done => False
  | .err e => v = .variant (label "Err") (.text (e.text derText))
  | .prepared r => ∃ fs, v = .variant (label "Ok") (.record fs) ∧
      fs.lookup (label "siwe_message") = some (.text r.siweMessage) ∧ fs.lookup (label "nonce") = some (.text r.nonce)
  | .loggedIn d => ∃ fs, v = .variant (label "Ok") (.record fs) ∧
      fs.lookup (label "expiration") = some (.nat64 d.expiration) ∧
      fs.lookup (label "user_canister_pubkey") = some (.blob d.userCanisterPubkey)
  | .delegation d => ∃ fs gs, v = .variant (label "Ok") (.record fs) ∧
      fs.lookup (label "delegation") = some (.record gs) ∧ fs.lookup (label "signature") = some (.blob d.signature) ∧
      gs.lookup (label "pubkey") = some (.blob d.delegation.pubkey) ∧
      gs.lookup (label "expiration") = some (.nat64 d.delegation.expiration) ∧
      gs.lookup (label "targets") = some (optVal (fun ts => .vec (ts.map .principal)) d.delegation.targets)
  | .bytes b => v = .variant (label "Ok") (if f = .getPrincipal then .blob b else .text b)

/-- The call of a function, with the values the published interface has for its arguments. -/
inductive Asks : Function → List Val → (caller : Bytes) → (certificate : Option Bytes) → Op → Prop
  | prepareLogin (a c x) : Asks .prepareLogin [.text a] c x (.prepareLogin a)
  | login (s a k n c x) : Asks .login [.text s, .text a, .blob k, .text n] c x (.login s a k n)
  | getDelegation (a k e c x) : Asks .getDelegation [.text a, .blob k, .nat64 e] c x (.getDelegation x a k e)
  | getAddress (p c x) : Asks .getAddress [.blob p] c x (.getAddress p)
  | getCallerAddress (c x) : Asks .getCallerAddress [] c x (.getCallerAddress c)
  | getPrincipal (a c x) : Asks .getPrincipal [.text a] c x (.getPrincipal a)

/-- The arguments of a message are of the types they are sent at. -/
def WellTyped (args : Args) : Prop := ∀ a ∈ args, HasType a.1 a.2

end Siwe.Spec
