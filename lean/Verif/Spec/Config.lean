import Verif.Spec.Trace
/- The settings an initialisation argument asks for, and which are in force. -/
namespace Siwe.Spec

/-- The settings that an initialisation argument asks for: documented defaults for absent options (chain 1,
scheme https, statement "SIWE Fields:", five minutes to sign in, thirty minute sessions), given values for present
ones, feature flags as listed. -/
structure Configures (E : Env) (i : SettingsInput) (s : Settings) (p : ProviderSettings) : Prop where
  domain : s.domain = i.domain
  uri : s.uri = i.uri
  salt : s.salt = i.salt
  chainId : s.chainId = i.chainId.getD 1
  scheme : s.scheme = i.scheme.getD (ascii "https")
  statement : s.statement = i.statement.getD (ascii "SIWE Fields:")
  signIn : s.signInExpiresIn = i.signInExpiresIn.getD 300000000000
  session : s.sessionExpiresIn = i.sessionExpiresIn.getD 1800000000000
  noTargets : i.targets = none → s.targets = none
  targets : ∀ ts, i.targets = some ts →
    ∃ ps, s.targets = some ps ∧ ts.map E.principalFromText = ps.map some ∧ E.canisterId ∈ ps
  uriFeature : s.runtimeFeatures =
    if .includeUriInSeed ∈ i.runtimeFeatures.getD [] then some [.includeUriInSeed] else none
  ethToPrincipal : p.disableEthToPrincipalMapping = true ↔
    .disableEthToPrincipalMapping ∈ i.runtimeFeatures.getD []
  principalToEth : p.disablePrincipalToEthMapping = true ↔
    .disablePrincipalToEthMapping ∈ i.runtimeFeatures.getD []

/-- The settings given to the last successful installation or upgrade. -/
def InForce (E : Env) (es : List Event) (s : Settings) (p : ProviderSettings) : Prop :=
  ∃ before e after i, es = before ++ e :: after ∧ SameModule after ∧ (e.call = .install i ∨ e.call = .upgrade i) ∧
    e.reply = .done ∧ Configures E i s p

end Siwe.Spec
