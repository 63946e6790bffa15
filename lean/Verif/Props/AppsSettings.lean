import Verif.Props.Apps
import Verif.Props.TextUnique
/-
C92 for all the settings a text shows, not only the domain.
-/
namespace Siwe
open Spec

/-- C92: a login proves that the account signed a text issued under the settings in force, which is signed as another byte string than any
text that a canister issued under settings with another chain id; or, if both domains or both uris have no line breaks, under settings
with another domain, statement or uri. So what a user signs for one app, one of its chains or one of its pages signs in to no other. -/
theorem C92_signed_for_these_settings (E E' : Env) (h h' : History) (now : UInt64) (sig addr key nonce : Bytes) (d : LoginDetails)
    (s : Settings) (p : ProviderSettings) (hr : (step (stateAfter E h) now (.login sig addr key nonce)).2 = .loggedIn d)
    (hs : InForce E (trace E h) s p) :
    ∃ text, (∃ i ∈ trace E h, ∃ addr' nonce', i.Issues addr' nonce' text) ∧ Signs E sig text addr ∧
      ∀ before e after addr' nonce' text' s' p', trace E' h' = before ++ e :: after → e.Issues addr' nonce' text' →
        InForce E' before s' p' →
        (s'.chainId ≠ s.chainId ∨
          ((OneLine s.domain ∧ OneLine s'.domain) ∨ (OneLine s.uri ∧ OneLine s'.uri)) ∧
            (s'.domain ≠ s.domain ∨ s'.statement ≠ s.statement ∨ s'.uri ≠ s.uri)) →
        text ≠ text' ∧ ∀ signed, IsPersonalMessage text signed → ¬IsPersonalMessage text' signed := by
  obtain ⟨_, _, before, e, after, addr', nonce', text, s1, _, _, g1, g2, g3, _, g5, g6, _, g7, _⟩ := login_success hr
  have hs1 : s1 = s := Option.some.inj (g6.symm.trans (inForce_state hs).1)
  subst hs1
  obtain ⟨h1, h2, e1, e2, e3, e4⟩ := traceFrom_split g1
  have hp : (step (stateAfter E h1) e.time (.prepareLogin addr')).2 = .prepared ⟨text, nonce'⟩ := by
    rw [← g3.1, ← g3.2]; exact e3.symm
  obtain ⟨s2, p2, k1, _⟩ := C92_texts_name_the_domain E h before after e addr' nonce' text g1 g3
  have hcarry : InForce E (trace E h) s2 p2 := by
    rw [g1]
    refine inForce_carry k1 fun x hx => ?_
    rcases List.mem_cons.mp hx with rfl | hx
    · rintro ⟨i, hc, _⟩
      rw [g3.1] at hc
      rcases hc with hc | hc <;> cases hc
    · exact g2 x hx
  have hs2 : s2 = s1 := Option.some.inj ((inForce_state hcarry).1.symm.trans g6)
  subst hs2
  have k1' : InForce E (trace E h1) s2 p2 := by rw [e2] at k1; exact k1
  refine ⟨text, ⟨e, by rw [g1]; simp, addr', nonce', g3⟩, g7, fun b x a ad no text' s' p' q1 q2 q3 q4 => ?_⟩
  obtain ⟨h3, h4, r1, r2, r3, r4⟩ := traceFrom_split q1
  have hp' : (step (stateAfter E' h3) x.time (.prepareLogin ad)).2 = .prepared ⟨text', no⟩ := by
    rw [← q2.1, ← q2.2]; exact r3.symm
  have q3' : InForce E' (trace E' h3) s' p' := by rw [r2] at q3; exact q3
  have hne : text ≠ text' := by
    intro ht
    obtain ⟨⟨c1, _, _⟩, c4⟩ := C10_issued_texts_partial E E' h1 h3 e.time x.time addr' ad _ _ hp hp' s2 s' p2 p' k1' q3' ht
    rcases q4 with q4 | ⟨o, q4⟩
    · exact q4 c1.symm
    · obtain ⟨d1, _, d3, d4⟩ := c4 o
      rcases q4 with q | q | q
      · exact q d1.symm
      · exact q d3.symm
      · exact q d4.symm
  exact ⟨hne, fun signed m1 m2 => hne (C07_spec_injective _ _ _ m1 m2)⟩

/-- The other app's calls if it differs in the chain id only. -/
def Ex.otherChainPrepared : History :=
  [(1, .install { Ex.input with chainId := some 10 }), (2, .rngSeeded [1, 2, 3]), (5, .prepareLogin Ex.alice)]

/-- Non-vacuity: the login succeeds, and the same canister configured for another chain issued a message to the same account. -/
example :
    (match (step (stateAfter Toy.env Ex.prepared) 100 (.login Ex.aliceSig Ex.alice Ex.key (Ex.nonce 3))).2 with
      | .loggedIn _ => true | _ => false) = true ∧
    (match (trace Toy.env Ex.otherChainPrepared).map (·.reply) with
      | [.done, .done, .prepared _] => true | _ => false) = true := by
  exact ⟨by decide +kernel, by decide +kernel⟩

end Siwe
