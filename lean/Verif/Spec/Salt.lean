import Verif.Model.Provider
/-
Two canisters that receive the same calls but were installed with different salts.
-/
namespace Siwe.Spec

/-- A salt the settings accept: not empty, printable ASCII without spaces. -/
def GoodSalt (salt : Bytes) : Prop := salt ≠ [] ∧ ∀ c ∈ salt, 33 ≤ c.toNat ∧ c.toNat ≤ 126

/-- The same call; an installation or upgrade may give another acceptable salt. -/
inductive SameButSalt : Op → Op → Prop
  | same (op : Op) : SameButSalt op op
  | install (i : SettingsInput) (salt : Bytes) : GoodSalt i.salt → GoodSalt salt →
      SameButSalt (.install i) (.install { i with salt := salt })
  | upgrade (i : SettingsInput) (salt : Bytes) : GoodSalt i.salt → GoodSalt salt →
      SameButSalt (.upgrade i) (.upgrade { i with salt := salt })

/-- Histories of such calls at the same times. -/
inductive SameCalls : History → History → Prop
  | nil : SameCalls [] []
  | cons (now : UInt64) (op op' : Op) (h h' : History) : SameButSalt op op' → SameCalls h h' →
      SameCalls ((now, op) :: h) ((now, op') :: h')

/-- Equal, or successful logins with the same expiration. -/
def SameLogin (r r' : Reply) : Prop :=
  r = r' ∨ ∃ d d', r = .loggedIn d ∧ r' = .loggedIn d' ∧ d.expiration = d'.expiration

end Siwe.Spec
