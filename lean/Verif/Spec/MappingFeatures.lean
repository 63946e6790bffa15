import Verif.Spec.Trace
/-
Configurations that differ in the runtime features only, and histories that differ in such configurations only.
-/
namespace Siwe.Spec

/-- The configuration asks for the feature. -/
def AsksForFeature (i : SettingsInput) (f : ProviderFeature) : Prop := ∃ fs, i.runtimeFeatures = some fs ∧ f ∈ fs

/-- Two configurations that agree on everything but the list of features, and on these features. -/
def AgreeOn (K : List ProviderFeature) (i i' : SettingsInput) : Prop :=
  (∃ fs, i' = { i with runtimeFeatures := fs }) ∧ ∀ f ∈ K, AsksForFeature i f ↔ AsksForFeature i' f

/-- The same call, or an installation or upgrade with such configurations. -/
inductive CallsAgree (K : List ProviderFeature) : Op → Op → Prop
  | same (op : Op) : CallsAgree K op op
  | install (i i' : SettingsInput) : AgreeOn K i i' → CallsAgree K (.install i) (.install i')
  | upgrade (i i' : SettingsInput) : AgreeOn K i i' → CallsAgree K (.upgrade i) (.upgrade i')

/-- Such calls at the same times. -/
inductive HistoriesAgree (K : List ProviderFeature) : History → History → Prop
  | nil : HistoriesAgree K [] []
  | cons (now : UInt64) {op op' : Op} {h h' : History} : CallsAgree K op op' → HistoriesAgree K h h' →
      HistoriesAgree K ((now, op) :: h) ((now, op') :: h')

/-- The call asks who belongs to an address or a principal. -/
def MappingQuery : Op → Prop
  | .getAddress _ | .getCallerAddress _ | .getPrincipal _ => True
  | _ => False

end Siwe.Spec
