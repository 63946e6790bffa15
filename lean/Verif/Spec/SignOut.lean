import Verif.Spec.Request
import Verif.Spec.Client
/-
C127: requests made with an identity a page has displayed, and how the Internet Computer checks them after a history of calls.
-/
namespace Siwe.Spec

/-- The key names the provider's canister. -/
def ProviderKey (E : Env) (key : Bytes) : Prop := ∃ seed, readCanisterKey key = some (E.canisterId, seed)

/-- The check of signatures after the calls `h`: the provider's are accepted on the strength of a certificate for certified data it had at
some point, those of other keys as `other` says.  (The check asks for no particular age of the certificate.) -/
def checkAfter (E : Env) (other : Bytes → Bytes → Bytes → Prop) (h : History) (key m sig : Bytes) : Prop :=
  (∃ h1 certificate, h1 <+: h ∧ CanisterSigned E E.canisterId (stateAfter E h1).certifiedData certificate key m sig) ∨
    ¬ProviderKey E key ∧ other key m sig

/-- A request to a canister, made with the identity. -/
def requestWith (E : Env) (i : Identity) (id canister sig : Bytes) : Request :=
  ⟨id, principalOfKey E i.chain.publicKey, canister, i.chain.publicKey, [⟨i.chain.delegation, i.chain.signature⟩], sig⟩

/-- After `clear()` no request made with the identity displayed before is accepted. -/
def SignOutEnds (E : Env) (K : SessionKeys) : Prop :=
  ∀ (other : Bytes → Bytes → Bytes → Prop) (before after : List Happening) (i : Identity),
    (worldAfter E K before).client.ctx.identity = some i → ∀ (now : UInt64) (id canister sig : Bytes),
      ¬Accepted E (checkAfter E other (worldAfter E K (before ++ .clear :: after)).calls) now (requestWith E i id canister sig)

end Siwe.Spec
