import Verif.Model.PrincipalText
import Verif.Spec.PrincipalText
import Verif.Spec.Config
/- Environments that read the texts of principals as the code does. -/
namespace Siwe.Spec

/-- The texts of principals are read as the crate `ic_principal` reads them. -/
def UsesPrincipalTexts (E : Env) : Prop := E.principalFromText = PrincipalText.fromText

end Siwe.Spec
