import Verif.Spec.Grant
import Verif.Spec.Signatures
/-
What a reader of a hash tree can see in clear.
-/
namespace Siwe.Spec

/-- The labels a hash tree shows, from left to right. -/
def shownLabels : HashTree → List Bytes
  | .empty | .leaf _ | .pruned _ => []
  | .fork l r => shownLabels l ++ shownLabels r
  | .labeled a t => a :: shownLabels t

/-- The contents of the leaves a hash tree shows, from left to right. -/
def shownLeaves : HashTree → List Bytes
  | .empty | .pruned _ => []
  | .leaf c => [c]
  | .fork l r => shownLeaves l ++ shownLeaves r
  | .labeled _ t => shownLeaves t

end Siwe.Spec
