import Verif.Spec.Mapping
import Verif.Spec.Login
/-
What the mapping queries owe, in terms of the calls the canister has answered.
-/
namespace Siwe.Spec

/-- The last installation or upgrade turned the feature on. -/
def HasFeature (es : List Event) (f : ProviderFeature) : Prop := ∃ i, LastArgument es i ∧ f ∈ i.runtimeFeatures.getD []

/-- `e`, after the events `before`, is the last event that counts, and the canister was not installed anew since. -/
def LastCounted (counts : List Event → Event → Prop) (es before : List Event) (e : Event) : Prop :=
  ∃ after, es = before ++ e :: after ∧ counts before e ∧ (∀ y ∈ after, ¬y.Installs) ∧
    ∀ between e' rest, after = between ++ e' :: rest → ¬counts (before ++ e :: between) e'

/-- A login with a key of principal `p`, made while the addresses of principals were recorded. -/
def CountsForPrincipal (E : Env) (p : Bytes) (before : List Event) (e : Event) : Prop :=
  ¬HasFeature before .disablePrincipalToEthMapping ∧ ∃ a key nonce d, e.LogsIn a key nonce d ∧ principalOfKey E d.userCanisterPubkey = p

/-- A login of the address, made while the principals of addresses were recorded. -/
def CountsForAddress (a : Bytes) (before : List Event) (e : Event) : Prop :=
  ¬HasFeature before .disableEthToPrincipalMapping ∧ ∃ key nonce d, e.LogsIn a key nonce d

/-- `a` is the address of the last recorded login of the principal. -/
def AddressOf (E : Env) (es : List Event) (p a : Bytes) : Prop :=
  ∃ before e key nonce d, LastCounted (CountsForPrincipal E p) es before e ∧ e.LogsIn a key nonce d

/-- `p` is the principal of the last recorded login of the address. -/
def PrincipalFor (E : Env) (es : List Event) (a p : Bytes) : Prop :=
  ∃ before e key nonce d, LastCounted (CountsForAddress a) es before e ∧ e.LogsIn a key nonce d ∧
    principalOfKey E d.userCanisterPubkey = p

/-- The answer owed to `get_address(p)` and to `get_caller_address()` of `p`. -/
inductive AddressAnswer (E : Env) (es : List Event) (p : Bytes) : Reply → Prop
  | disabled : HasFeature es .disablePrincipalToEthMapping → AddressAnswer E es p (.err .principalToEthDisabled)
  | tooLong : ¬HasFeature es .disablePrincipalToEthMapping → 29 < p.length → AddressAnswer E es p (.err .notABlob)
  | found (a : Bytes) : ¬HasFeature es .disablePrincipalToEthMapping → AddressOf E es p a → AddressAnswer E es p (.bytes a)
  | none : ¬HasFeature es .disablePrincipalToEthMapping → p.length ≤ 29 → (∀ a, ¬AddressOf E es p a) →
      AddressAnswer E es p (.err .noAddress)

/-- The answer owed to `get_principal(a)`. -/
inductive PrincipalAnswer (E : Env) (es : List Event) (a : Bytes) : Reply → Prop
  | disabled : HasFeature es .disableEthToPrincipalMapping → PrincipalAnswer E es a (.err .ethToPrincipalDisabled)
  | badAddress (e : EthError) : ¬HasFeature es .disableEthToPrincipalMapping → AddressError E.keccak a e →
      PrincipalAnswer E es a (.err (.eth e))
  | found (p : Bytes) : ¬HasFeature es .disableEthToPrincipalMapping → IsAddress E.keccak a → PrincipalFor E es a p →
      PrincipalAnswer E es a (.bytes p)
  | none : ¬HasFeature es .disableEthToPrincipalMapping → IsAddress E.keccak a → (∀ p, ¬PrincipalFor E es a p) →
      PrincipalAnswer E es a (.err .noPrincipal)

end Siwe.Spec
