import Verif.Spec.Client
import Verif.Spec.Config
/- C132: when the message that a wallet is asked to sign was issued. -/
namespace Siwe.Spec

/-- The promise of the call has been settled. -/
def Ended (pc : Pc) : Prop := (∃ p, pc = .prepared p) ∨ (∃ i, pc = .loggedIn i) ∨ ∃ e, pc = .failed e

/-- The page has no message at hand, and no call of it is running. -/
def NoMessage (c : Client) : Prop := c.ctx.prepareLoginOkResponse = none ∧ ∀ pc ∈ c.tasks, Ended pc

/-- The canister issued the text and has not executed any call since at a time when it had expired. -/
def Unexpired (E : Env) (es : List Event) (text : Bytes) : Prop :=
  ∃ before e after addr nonce s p, es = before ++ e :: after ∧ e.Issues addr nonce text ∧ InForce E before s p ∧
    ∀ x ∈ after, x.time.toNat < e.time.toNat + s.signInExpiresIn.toNat

/-- What one would want: with a clock that does not run backwards, a wallet is asked to sign only texts that have not expired. -/
def SignsUnexpired (E : Env) (K : SessionKeys) : Prop :=
  ∀ hs x wallet account text, ((trace E (worldAfter E K (hs ++ [x])).calls).Pairwise fun a b => a.time.toNat ≤ b.time.toNat) →
    (worldAfter E K (hs ++ [x])).log = (worldAfter E K hs).log ++ [.sign wallet account text] →
    Unexpired E (trace E (worldAfter E K (hs ++ [x])).calls) text

end Siwe.Spec
