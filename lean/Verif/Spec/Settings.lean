import Verif.Model.Settings
/- What valid settings are, stated without the validation code. -/
namespace Siwe.Spec

/-- The URL parser finds an authority and a host in `scheme://domain`. -/
def DomainOk (E : Env) (s : Settings) : Prop :=
  ∃ host, E.urlParse (s.scheme ++ ascii "://" ++ s.domain) = some ⟨true, some host⟩

/-- The URL parser finds a host in the URI. -/
def UriOk (E : Env) (s : Settings) : Prop :=
  ∃ authority host, E.urlParse s.uri = some ⟨authority, some host⟩

/-- The documented requirements in the order they are checked, each with its error. -/
def requirements (E : Env) (s : Settings) : List (Prop × SettingsError) :=
  [ (DomainOk E s, .invalidDomain),
    (UriOk E s, .invalidUri),
    (s.salt ≠ [], .saltEmpty),
    (∀ c ∈ s.salt, 33 ≤ c.toNat ∧ c.toNat ≤ 126, .invalidSalt),
    (s.chainId ≠ 0, .chainIdZero),
    (s.scheme = ascii "http" ∨ s.scheme = ascii "https", .invalidScheme),
    (¬ 10 ∈ s.statement, .invalidStatement),
    (s.signInExpiresIn ≠ 0, .signInZero),
    (s.sessionExpiresIn ≠ 0, .sessionZero),
    (s.targets ≠ some [], .targetsEmpty),
    (∀ ts, s.targets = some ts → ts.length ≤ 1000, .tooManyTargets),
    (∀ ts, s.targets = some ts → ts.Nodup, .duplicateTargets) ]

/-- All requirements hold. -/
def ValidSettings (E : Env) (s : Settings) : Prop := ∀ r ∈ requirements E s, r.1

/-- `e` belongs to the first requirement in the list that does not hold. -/
inductive FirstFailure : List (Prop × SettingsError) → SettingsError → Prop
  | here {p e rest} : ¬p → FirstFailure ((p, e) :: rest) e
  | later {p e e' rest} : p → FirstFailure rest e → FirstFailure ((p, e') :: rest) e

/-- The URL parser finds an authority but no host in `scheme://domain`. -/
def HostlessDomain (E : Env) (s : Settings) : Prop :=
  E.urlParse (s.scheme ++ ascii "://" ++ s.domain) = some ⟨true, none⟩

end Siwe.Spec
