import Verif.Spec.Guess
/- C131: the draws since the randomness arrived, and repeated nonces. -/
namespace Siwe.Spec

/-- A source whose first `n` draws, when started with this seed, are `ω`; the others are given. -/
def source (draws : Bytes → Nat → Draw) (seed : Bytes) {n : Nat} (ω : Fin n → Draw) : Bytes → Nat → Draw :=
  fun s k => if s = seed then if h : k < n then ω ⟨k, h⟩ else draws s k else draws s k

/-- Everybody's calls, chosen from the replies so far, leave the module and its randomness alone. -/
def Strategy.KeepsSeed (everybody : Strategy) : Prop :=
  ∀ replies, (∀ i, (everybody replies).2 ≠ .install i ∧ (everybody replies).2 ≠ .upgrade i) ∧ ∀ seed, (everybody replies).2 ≠ .rngSeeded seed

/-- The calls made after the randomness arrived, `n` of them, with their replies. -/
def sinceSeeded (E : Env) (draws : Bytes → Nat → Draw) (h : History) (t : UInt64) (seed : Bytes) (everybody : Strategy) (n : Nat)
    (ω : Fin n → Draw) : List Event :=
  let s := stateAfter (ideal E (source draws seed ω)) (h ++ [(t, .rngSeeded seed)])
  traceFrom s (callsOf everybody s n)

/-- Two messages were issued with the same nonce. -/
def RepeatsNonce (es : List Event) : Prop :=
  ∃ a e b e' c addr addr' nonce text text', es = a ++ e :: b ++ e' :: c ∧ e.Issues addr nonce text ∧ e'.Issues addr' nonce text'

end Siwe.Spec
