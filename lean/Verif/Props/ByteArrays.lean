import Verif.Spec.ByteArrays
/-
C141: the delegation chain of the client consists of the bytes the canister replied with, if the decoded arrays have their buffers to
themselves.
-/
namespace Siwe
open Spec

theorem buffer_elements (a : JsBytes) : a.buffer = some a.elements ↔ OwnsBuffer a := by
  cases a with
  | numbers l => simp [JsBytes.buffer, OwnsBuffer]
  | window b o n h =>
    simp only [JsBytes.buffer, JsBytes.elements, OwnsBuffer, Option.some.injEq]
    constructor
    · intro e
      have := congrArg List.length e
      rw [List.length_take, List.length_drop] at this
      omega
    · rintro ⟨rfl, rfl⟩
      simp

/-- C141: whatever bytes the canister replies with, the client makes the chain of exactly these bytes if and only if the arrays of the
signature and the two keys have their buffers to themselves, as those of the agent library's decoder do.

Missing: for arrays that do not, which the types admit, see `C141_other_arrays`. -/
theorem C141_chain_bytes_partial (sd : SignedDelegation) (key : Bytes) (d : DecodedDelegation) (k : JsBytes) (hd : Decodes d sd)
    (hk : ElementsAre k key) :
    (∃ x, createChain d k = some x ∧ SameBytes x (createDelegationChain sd key)) ↔
      OwnsBuffer d.pubkey ∧ OwnsBuffer d.signature ∧ OwnsBuffer k := by
  rw [← buffer_elements, ← buffer_elements, ← buffer_elements, hd.pubkey, hd.signature, hk]
  unfold createChain asBuffer
  constructor
  · rintro ⟨x, hx, h1, _, _, h4, h5⟩
    cases hs : d.signature.buffer with
    | none => rw [hs] at hx; cases hx
    | some s =>
      cases hq : k.buffer with
      | none => rw [hs, hq] at hx; cases hx
      | some q =>
        rw [hs, hq] at hx
        cases Option.some.inj hx
        exact ⟨h1, congrArg some h4, congrArg some h5⟩
  · rintro ⟨h1, h2, h3⟩
    rw [h2, h3]
    exact ⟨_, rfl, h1, hd.expiration, hd.targets, rfl, rfl⟩

/-- C141: when the client fails at making the chain: exactly if the signature or the user's key is an array of numbers. -/
theorem C141_fails (d : DecodedDelegation) (k : JsBytes) :
    createChain d k = none ↔ (∃ l, d.signature = .numbers l) ∨ ∃ l, k = .numbers l := by
  unfold createChain asBuffer
  cases d.signature <;> cases k <;> simp [JsBytes.buffer]

/-- C141: for arrays that share their buffer, the chain may have a wrong signature, and for arrays of numbers there may be none, or one
without key. -/
theorem C141_other_arrays : ∃ (sd : SignedDelegation) (key : Bytes) (d d' d'' : DecodedDelegation) (k : JsBytes),
    Decodes d sd ∧ Decodes d' sd ∧ Decodes d'' sd ∧ ElementsAre k key ∧
    (∃ x, createChain d k = some x ∧ x.signature ≠ sd.signature) ∧
    createChain d' k = none ∧
    (∃ x, createChain d'' k = some x ∧ x.pubkey = none) := by
  refine ⟨⟨⟨[1], 5, none⟩, [2, 3]⟩, [4],
    ⟨.window [1] 0 1 (by decide), 5, none, .window [9, 2, 3, 9] 1 2 (by decide)⟩,
    ⟨.window [1] 0 1 (by decide), 5, none, .numbers [2, 3]⟩,
    ⟨.numbers [1], 5, none, .window [2, 3] 0 2 (by decide)⟩, .window [4] 0 1 (by decide), ?_⟩
  exact ⟨⟨rfl, rfl, rfl, rfl⟩, ⟨rfl, rfl, rfl, rfl⟩, ⟨rfl, rfl, rfl, rfl⟩, rfl, ⟨_, rfl, by decide⟩, rfl, ⟨_, rfl, rfl⟩⟩

/-- Non-vacuity: decoded arrays that have their buffers to themselves. -/
example : Decodes ⟨.window [1] 0 1 (by decide), 5, some [[7]], .window [2, 3] 0 2 (by decide)⟩ ⟨⟨[1], 5, some [[7]]⟩, [2, 3]⟩ ∧
    createChain ⟨.window [1] 0 1 (by decide), 5, some [[7]], .window [2, 3] 0 2 (by decide)⟩ (.window [4] 0 1 (by decide)) =
      some ⟨some [1], 5, some [[7]], [2, 3], [4]⟩ :=
  ⟨⟨rfl, rfl, rfl, rfl⟩, rfl⟩

end Siwe
