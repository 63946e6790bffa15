import Verif.Lemmas.SigMapSame
import Verif.Props.Certificates
/-
C29, exactly: when the IC accepts the delegations the canister returns.
-/
namespace Siwe
open Spec

/-- Calls that neither log in nor replace the module. -/
theorem quiet_run {E : Env} {st : State E} (hi : Inv st) (h : History)
    (hq : ∀ e ∈ traceFrom st h, ¬e.Reinstalls ∧ ∀ d, e.reply ≠ .loggedIn d) :
    (run st h).1.certifiedData = st.certifiedData ∧
    (∀ s d, Holds (run st h).1.sigMap s d → Holds st.sigMap s d) ∧
    ((∀ s d, Holds st.sigMap s d → Holds (run st h).1.sigMap s d) → (run st h).1.sigMap.certifiedMap = st.sigMap.certifiedMap) := by
  induction h using history_induction with
  | nil => exact ⟨rfl, fun _ _ h => h, fun _ => rfl⟩
  | snoc h now op ih =>
    rw [run_snoc]
    rw [traceFrom_snoc] at hq
    obtain ⟨i1, i2, i3⟩ := ih fun e he => hq e (List.mem_append_left _ he)
    obtain ⟨q1, q2⟩ := hq _ (List.mem_append_right _ (List.mem_singleton_self _))
    obtain ⟨j1, j2, j3⟩ := quiet_step (inv_run hi h) now op q1 q2
    refine ⟨j1.trans i1, fun s d h => i2 s d (j2 s d h), fun hk => ?_⟩
    rw [j3 fun s d h => hk s d (i2 s d h), i3 fun s d h => j2 s d (hk s d h)]

/-- C29, exactly: since the last successful login (the last call of `hb`), delegations the canister returns are accepted by the IC's
check if and only if no signature was removed; or the certified trees of then and now exhibit a SHA-256 collision. -/
theorem C29_verifies_iff_nothing_removed (E : Env) (hb ha : History) (b : List Event) (y : Event) (yd : LoginDetails)
    (hlast : trace E hb = b ++ [y]) (hy : y.reply = .loggedIn yd)
    (hq : ∀ z ∈ traceFrom (stateAfter E hb) ha, ¬z.Reinstalls ∧ ∀ d, z.reply ≠ .loggedIn d)
    (now : UInt64) (cert addr key : Bytes) (expiration : UInt64) (sd : SignedDelegation)
    (before after : List Event) (e : Event) (key' nonce : Bytes) (ld : LoginDetails)
    (hr : (step (stateAfter E (hb ++ ha)) now (.getDelegation (some cert) addr key expiration)).2 = .delegation sd)
    (hc : cert.length < 2 ^ 64)
    (ht : trace E (hb ++ ha) = before ++ e :: after) (hm : SameModule after) (hl : e.LogsIn addr key' nonce ld) :
    (Verifies E E.canisterId (stateAfter E (hb ++ ha)).certifiedData cert ld.userCanisterPubkey sd ↔
      ∀ s d, Holds (stateAfter E hb).sigMap s d → Holds (stateAfter E (hb ++ ha)).sigMap s d) ∨
    ∃ x z, Hashes E (certifiedTree (stateAfter E hb).sigMap) x ∧ Hashes E (certifiedTree (stateAfter E (hb ++ ha)).sigMap) z ∧
      Collision E.sha256 x z := by
  rw [C29_verifies_iff_certified E (hb ++ ha) now cert addr key expiration sd before after e key' nonce ld hr hc ht hm hl]
  have est : stateAfter E (hb ++ ha) = (run (stateAfter E hb) ha).1 := by rw [stateAfter, run_append]; rfl
  obtain ⟨i1, i2, i3⟩ := quiet_run (inv_stateAfter E hb) ha hq
  rw [← est] at i1 i2 i3
  have hcert : (stateAfter E hb).certifiedData = (digest E (certifiedTree (stateAfter E hb).sigMap)).bytes := by
    obtain ⟨h1, h2, e1, e2, e3, e4⟩ := traceFrom_split (hlast : traceFrom _ hb = b ++ y :: [])
    have h2n : h2 = [] := by
      cases h2 with
      | nil => rfl
      | cons x h2 => simp [traceFrom] at e4
    subst h2n
    have e2' : stateAfter E hb = (step (stateAfter E h1) y.time y.call).1 := by
      rw [e1]; exact run_snoc _ _ _ _
    rw [hy] at e3
    rw [e2']
    cases sigEffect (inv_stateAfter E h1) y.time y.call with
    | reset g => obtain ⟨i, _, g⟩ := g; simp only at g; rw [show (step (stateAfter E h1) y.time y.call).2 = .loggedIn yd from e3.symm] at g; cases g
    | same _ _ _ g => exact absurd e3.symm (g yd)
    | pruned _ _ _ g => rw [show (step (stateAfter E h1) y.time y.call).2 = .loggedIn yd from e3.symm] at g; cases g
    | granted _ _ _ _ _ _ _ _ _ _ _ _ _ _ _ _ _ _ _ _ _ _ _ _ g => exact g
  by_cases hcol : ∃ x z, Hashes E (certifiedTree (stateAfter E hb).sigMap) x ∧
      Hashes E (certifiedTree (stateAfter E (hb ++ ha)).sigMap) z ∧ Collision E.sha256 x z
  · exact .inr hcol
  left
  constructor
  · intro h s d hh
    rw [i1, hcert] at h
    have h := Hash.ext' h
    rcases reveals_transfer E (reveals_holds hh) _ (full_certifiedTree _) h with g | g
    · obtain ⟨_, s', d', g1, g2, g3⟩ := reveals_certifiedTree g
      rw [Hash.ext' g1, Hash.ext' g2]; exact g3
    · exact absurd g hcol
  · intro h
    rw [i1, hcert]
    unfold certifiedTree signatureTree
    rw [i3 h]

/-- Non-vacuity: in the refused example, nothing was removed and the check accepts; in the stale one, the first user's
signature was removed and the check of the second user's delegation does not. -/
example : (∃ sd, (step (stateAfter Toy.env Ex.refused) 300 (.getDelegation (some [7]) Ex.alice Ex.key Ex.expiration)).2 =
      .delegation sd) ∧
    (stateAfter Toy.env Ex.refused).sigMap.certifiedMap = (stateAfter Toy.env Ex.loggedIn).sigMap.certifiedMap ∧
    Ex.refused = Ex.loggedIn ++ [(200, .login Ex.bobSig Ex.bob [1] (Ex.nonce 4))] := by
  refine ⟨?_, by decide +kernel, rfl⟩
  have hb : (match (step (stateAfter Toy.env Ex.refused) 300
      (.getDelegation (some [7]) Ex.alice Ex.key Ex.expiration)).2 with | .delegation _ => true | _ => false) = true := by
    decide +kernel
  split at hb
  case h_2 => cases hb
  case h_1 sd hsd => exact ⟨sd, hsd⟩

example : (stateAfter Toy.env Ex.stale).sigMap.certifiedMap.toList.length = 1 ∧
    (stateAfter Toy.env (Ex.stale.take 7)).sigMap.certifiedMap.toList.length = 2 ∧
    (stateAfter Toy.env Ex.stale).certifiedData = (stateAfter Toy.env (Ex.stale.take 7)).certifiedData := by
  decide +kernel

end Siwe
