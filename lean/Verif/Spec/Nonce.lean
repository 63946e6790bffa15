import Verif.Spec.Trace
import Verif.Spec.Config
import Verif.Spec.Login
/- Where nonces come from: the random generator and the seed the IC delivered. -/
namespace Siwe.Spec

/-- The generator's state after it was drawn from `n` times. -/
def afterDraws (E : Env) (g : E.Rng) : Nat → E.Rng
  | 0 => g
  | n + 1 => (E.rngFill10 (afterDraws E g n)).2

/-- What the generator that was started from a seed gives when it is drawn from after `n` other times. -/
def draw (E : Env) (seed : Bytes) (n : Nat) : Bytes := (E.rngFill10 (afterDraws E (E.rngFromSeed seed) n)).1.val

/-- The call issued a message. -/
def Event.issued (e : Event) : Bool := match e.reply with | .prepared _ => true | _ => false

/-- The number of messages issued. -/
def issuedIn (es : List Event) : Nat := es.countP Event.issued

/-- Randomness arrived last as `seed`, the module is the same since, and these are the events since. -/
def SeededWith (es : List Event) (seed : Bytes) (since : List Event) : Prop :=
  ∃ before e, es = before ++ e :: since ∧ e.call = .rngSeeded seed ∧ SameModule since ∧
    ∀ x ∈ since, ∀ seed', x.call ≠ .rngSeeded seed'

/-- The answer `siwe_prepare_login` owes after some events. -/
inductive PrepareReply (E : Env) (es : List Event) (now : UInt64) (addr : Bytes) : Reply → Prop
  | badAddress (e : EthError) : AddressError E.keccak addr e → PrepareReply E es now addr (.err (.eth e))
  | notReady : IsAddress E.keccak addr → ((¬∃ seed since, SeededWith es seed since) ∨ ¬∃ s p, InForce E es s p) →
      PrepareReply E es now addr .trap
  | prepared (s : Settings) (p : ProviderSettings) (seed : Bytes) (since : List Event) (text nonce : Bytes) :
      IsAddress E.keccak addr → InForce E es s p → SeededWith es seed since →
      Spells nonce (draw E seed (issuedIn since)) → (∀ c ∈ nonce, isUpperLetter c = false) →
      IsSiweText ⟨s.domain, addr, s.statement, s.uri, 1, s.chainId.toNat, nonce, now.toNat,
        min (now.toNat + s.signInExpiresIn.toNat) (2 ^ 64 - 1)⟩ text →
      PrepareReply E es now addr (.prepared ⟨text, nonce⟩)

end Siwe.Spec
