import Verif.Model.Certifying
import Verif.Spec.Embedding
/- What an embedding canister that certifies its signature maps is observed to do. -/
namespace Siwe.Spec

/-- The uses of the library among its calls; an installation is a restart of the library. -/
def usesOf : CertifyingHistory → LibHistory
  | [] => []
  | (now, .install) :: rest => (now, .restart) :: usesOf rest
  | (now, .use c) :: rest => (now, c) :: usesOf rest
  | (_, .certify _) :: rest => usesOf rest

/-- Calls that leave the certified data and one of the signature maps alone. -/
def Quiet (i : Nat) (h : CertifyingHistory) : Prop := ∀ x ∈ h, ∃ c, x.2 = .use c ∧ ¬UsesMap i c

end Siwe.Spec
