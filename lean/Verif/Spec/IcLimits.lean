import Verif.Spec.Request
/- C134: the limits of the Internet Computer on the authentication of a request (IC interface specification, "Authentication"): at most 20 delegations, no more
than 1000 targets in each, and no public key twice. -/
namespace Siwe.Spec

/-- A delegation keeps the limit on targets. -/
def FewTargets (d : Delegation) : Prop := ∀ ts, d.targets = some ts → ts.length ≤ 1000

/-- The request keeps the limits. -/
structure IcLimits (r : Request) : Prop where
  delegations : r.chain.length ≤ 20
  targets : ∀ d ∈ r.chain, FewTargets d.delegation
  noCycle : (r.key :: r.chain.map fun d => d.delegation.pubkey).Nodup

end Siwe.Spec
