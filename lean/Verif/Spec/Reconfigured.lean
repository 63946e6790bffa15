import Verif.Spec.OneAddress
import Verif.Spec.Account
/- C82, C117 and C123 through changes of the configuration. -/
namespace Siwe.Spec

/-- Hash collisions by which a request could be accepted for the principal that the address has under the configuration `i`: one in the request; its key and the
address's; the identities of the address and of somebody who logged in, under whatever configuration; or the keys under which an issued message is stored and one is
sought that the address logged in with. -/
def ReconfiguredCollision (E : Env) (i : SettingsInput) (h : History) (addr : Bytes) (r : Request) : Prop :=
  RequestCollision E h r ∨ Collision E.sha224 (keyOf E i addr) r.key ∨
  (∃ j a ld, LogsInUnder (trace E h) j a ld ∧ Collision E.sha256 (identityOf j a) (identityOf i addr)) ∨
  ∃ e ∈ trace E h, ∃ e' ∈ trace E h, ∃ a nonce text key nonce' ld, e.Issues a nonce text ∧ e'.LogsIn addr key nonce' ld ∧
    KeyCollision E addr nonce' a nonce

end Siwe.Spec
