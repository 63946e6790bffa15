import Verif.Props.Growth
import Verif.Props.LoginHistory
import Verif.Spec.Growth
/-
C48, what holds: with login attempts, successful or not, at regular intervals the number of stored messages is bounded by the number
that is issued in such an interval and the time for signing in.
-/
namespace Siwe
open Spec

/-- Stored messages, counted by their expiration, and issued ones, counted by their time. -/
theorem messages_le_issues (E : Env) (h : History) (x : Nat) (hx : SignInsWithin E (trace E h) x) (p : UInt64 → Bool) (q : UInt64 → Bool)
    (hpq : ∀ t y : UInt64, y.toNat ≤ t.toNat + x → p y = true → q t = true) :
    (stateAfter E h).lib.messages.countP (fun m => p m.2.expirationTime) ≤ (trace E h).countP fun e => e.isIssue && q e.time := by
  induction h using history_induction with
  | nil => simp [stateAfter, run, State.fresh, LibState.initial]
  | snoc h now op ih =>
    have ht : trace E (h ++ [(now, op)]) = trace E h ++ [⟨now, op, (step (stateAfter E h) now op).2⟩] := traceFrom_snoc _ _ _ _
    have hs : stateAfter E (h ++ [(now, op)]) = (step (stateAfter E h) now op).1 := run_snoc _ _ _ _
    rw [ht] at hx ⊢
    rw [hs]
    have ih := ih fun before e after s p h1 =>
      hx before e (after ++ [⟨now, op, (step (stateAfter E h) now op).2⟩]) s p (by rw [h1]; simp)
    have hlast := hx (trace E h) ⟨now, op, (step (stateAfter E h) now op).2⟩ []
    have hi := inv_stateAfter E h
    have hset := C42_settings_in_force E h
    have hc := step_case hi now op
    rw [List.countP_append, List.countP_singleton]
    generalize trace E h = es at *
    generalize stateAfter E h = st at *
    generalize (step st now op).1 = st' at hc ⊢
    generalize (step st now op).2 = r at hc hlast ⊢
    have hf : ∀ (m : SiweMessageMap) (f : Hash × SiweMessage → Bool), (m.filter f).countP (fun m => p m.2.expirationTime) ≤
        m.countP (fun m => p m.2.expirationTime) := fun m f => List.filter_sublist.countP_le
    cases hc with
    | installed => simp
    | upgraded => simp
    | prepared addr bs g s txt h1 h2 h3 h4 h5 h6 h7 =>
      simp only [preparedLib, List.countP_cons]
      have := hf st.lib.messages fun y => decide (y.1 ≠ E.sha256 (pendingKey bs (nonceOf E g)))
      have hw := hlast s st.settings rfl rfl ((hset _ _).mpr ⟨h5, rfl⟩)
      simp only [Event.isIssue, Bool.true_and]
      by_cases hp : p (SiweMessage.new s now ⟨addr⟩ (nonceOf E g)).expirationTime = true
      · rw [if_pos hp, if_pos (hpq _ _ (by
          show (satAdd now s.signInExpiresIn).toNat ≤ _
          rw [satAdd_toNat]; omega) hp)]
        exact Nat.add_le_add_right (Nat.le_trans this ih) 1
      · rw [if_neg hp]
        exact Nat.le_trans (Nat.le_trans this ih) (Nat.le_add_right _ _)
    | notFound => exact Nat.le_trans (Nat.le_trans (hf _ _) ih) (Nat.le_add_right _ _)
    | found sig addr key nonce bs m txt st'' r' h1 h2 h3 h4 h5 h6 h7 hfound =>
      cases hfound <;> exact Nat.le_trans (Nat.le_trans (hf _ _) (Nat.le_trans (hf _ _) ih)) (Nat.le_add_right _ _)
    | _ => exact Nat.le_trans ih (Nat.le_add_right _ _)

theorem login_messages_sublist (E : Env) (h : History) (now : UInt64) (sig addr key nonce : Bytes) :
    (step (stateAfter E h) now (.login sig addr key nonce)).1.lib.messages.Sublist (stateAfter E h).lib.messages := by
  have hc := step_case (inv_stateAfter E h) now (.login sig addr key nonce)
  generalize stateAfter E h = st at hc ⊢
  generalize (step st now (.login sig addr key nonce)).1 = st' at hc ⊢
  generalize (step st now (.login sig addr key nonce)).2 = r at hc
  cases hc with
  | badAddress => exact .refl _
  | badSignature => exact .refl _
  | notFound => exact List.filter_sublist
  | found _ _ _ _ bs m txt _ _ h1 h2 h3 h4 h5 h6 h7 hf =>
    cases hf <;> exact List.filter_sublist.trans List.filter_sublist

/-- C48, partial: after a login attempt with a well-formed address and signature, whatever it answered, the canister stores at most
the messages that were issued later than the time for signing in before the attempt, or after the attempt.  Missing: a bound for
canisters at which nobody tries to log in (see `C48_no_bound`). -/
theorem C48_since_login_partial (E : Env) (h h2 : History) (now : UInt64) (sig addr key nonce : Bytes) (x : Nat)
    (ha : IsAddress E.keccak addr) (hs : HexString 130 sig) (hx : SignInsWithin E (trace E h) x) :
    storedMessages (stateAfter E (h ++ (now, .login sig addr key nonce) :: h2)) ≤
      (trace E h).countP (fun e => e.isIssue && decide (now.toNat < e.time.toNat + x)) +
      (traceFrom (stateAfter E (h ++ [(now, .login sig addr key nonce)])) h2).countP Event.isIssue := by
  have e1 : stateAfter E (h ++ (now, .login sig addr key nonce) :: h2) =
      (run (stateAfter E (h ++ [(now, .login sig addr key nonce)])) h2).1 := by
    rw [show h ++ (now, Op.login sig addr key nonce) :: h2 = (h ++ [(now, .login sig addr key nonce)]) ++ h2 by simp]
    exact run_append _ _ _
  have h0 : storedMessages (stateAfter E (h ++ [(now, .login sig addr key nonce)])) ≤
      (trace E h).countP fun e => e.isIssue && decide (now.toNat < e.time.toNat + x) := by
    rw [show stateAfter E (h ++ [(now, .login sig addr key nonce)]) = _ from run_snoc _ _ _ _]
    refine Nat.le_trans ?_ (messages_le_issues E h x hx (fun y => decide (now.toNat < y.toNat)) (fun t => decide (now.toNat < t.toNat + x))
      fun t y h1 h2 => by simp only [decide_eq_true_eq] at h2 ⊢; omega)
    have hall := C48_login_clears_partial E h now sig addr key nonce ha hs
    have hsub := login_messages_sublist E h now sig addr key nonce
    rw [storedMessages, show (step (run (State.fresh E) h).1 now (.login sig addr key nonce)).1.lib.messages.length = _ from
      (List.countP_eq_length.mpr fun y hy => decide_eq_true (hall y hy)).symm]
    exact hsub.countP_le
  rw [e1]
  have hi := inv_stateAfter E (h ++ [(now, .login sig addr key nonce)])
  clear e1
  generalize stateAfter E (h ++ [(now, .login sig addr key nonce)]) = st at h0 hi ⊢
  induction h2 using history_induction with
  | nil => simpa [run, traceFrom] using h0
  | snoc h2 t op' ih =>
    rw [run_snoc, traceFrom_snoc, List.countP_append, List.countP_singleton]
    rcases messages_step (inv_run hi h2) t op' with hle | ⟨⟨a, n, tx, _, hr⟩, hle⟩
    · omega
    · have hr : (step (run st h2).1 t op').2 = .prepared ⟨tx, n⟩ := hr
      rw [if_pos (by simp only [hr, Event.isIssue])]
      omega

/-- C48, partial: if the clock does not run backwards, messages are to be signed within `x`, and somebody tried to log in (with a
well-formed address and signature, successfully or not) within the last `p`, then the canister stores no more messages than were issued
in some period of length `x + p`. -/
theorem C48_regular_logins_partial (E : Env) (h h2 : History) (now : UInt64) (sig addr key nonce : Bytes) (x p n : Nat)
    (ha : IsAddress E.keccak addr) (hs : HexString 130 sig)
    (hclock : (trace E (h ++ (now, .login sig addr key nonce) :: h2)).Pairwise fun y z => y.time.toNat ≤ z.time.toNat)
    (hx : SignInsWithin E (trace E (h ++ (now, .login sig addr key nonce) :: h2)) x)
    (hp : ∀ y ∈ h2, y.1.toNat ≤ now.toNat + p)
    (hn : ∀ t, issuedAround (trace E (h ++ (now, .login sig addr key nonce) :: h2)) t x p ≤ n) :
    storedMessages (stateAfter E (h ++ (now, .login sig addr key nonce) :: h2)) ≤ n := by
  have ht : trace E (h ++ (now, .login sig addr key nonce) :: h2) = trace E h ++
      ⟨now, .login sig addr key nonce, (step (stateAfter E h) now (.login sig addr key nonce)).2⟩ ::
      traceFrom (stateAfter E (h ++ [(now, .login sig addr key nonce)])) h2 := by
    rw [trace, traceFrom_append, traceFrom, show stateAfter E (h ++ [(now, .login sig addr key nonce)]) = _ from run_snoc _ _ _ _]
    rfl
  rw [ht] at hclock hx
  have h1 := C48_since_login_partial E h h2 now sig addr key nonce x ha hs fun before e after s p g =>
    hx before e (after ++ _) s p (by rw [g, List.append_assoc]; rfl)
  refine Nat.le_trans h1 (Nat.le_trans ?_ (hn now.toNat))
  obtain ⟨_, hc2, hc3⟩ := List.pairwise_append.mp hclock
  have hc4 := (List.pairwise_cons.mp hc2).1
  rw [ht, issuedAround, List.countP_append, List.countP_cons]
  refine Nat.le_trans (Nat.add_le_add (List.countP_mono_left fun e he hq => ?_) (List.countP_mono_left fun e he hq => ?_))
    (Nat.add_le_add_left (Nat.le_add_right _ _) _)
  · have : e.time.toNat ≤ now.toNat := hc3 e he _ List.mem_cons_self
    simp only [Bool.and_eq_true, decide_eq_true_eq] at hq ⊢
    exact ⟨hq.1, by omega, by omega⟩
  · have h5 : now.toNat ≤ e.time.toNat := hc4 e he
    have h6 : e.time.toNat ≤ now.toNat + p := by
      refine hp (e.time, e.call) ?_
      rw [← traceFrom_timesCalls (stateAfter E (h ++ [(now, .login sig addr key nonce)])) h2]
      exact List.mem_map.mpr ⟨e, he, rfl⟩
    simp only [hq, Bool.true_and, decide_eq_true_eq]
    exact ⟨by omega, h6⟩

theorem signInsWithin_of_states (E : Env) (h : History) (x : Nat)
    (hh : (List.range (h.length + 1)).all (fun n => match (stateAfter E (h.take n)).lib.settings with
      | some s => decide (s.signInExpiresIn.toNat ≤ x)
      | none => true) = true) : SignInsWithin E (trace E h) x := by
  intro before e after s p h1 _ h2
  obtain ⟨h3, h4, rfl, rfl, _⟩ := traceFrom_split h1
  have h5 := List.all_eq_true.mp hh h3.length (by simp; omega)
  rw [List.take_left' rfl, (inForce_state h2).1] at h5
  simpa using h5

theorem issuedAround_eq (es : List Event) (t x p : Nat) :
    issuedAround es t x p = ((es.filter Event.isIssue).map fun e => e.time.toNat).countP fun y => decide (t ≤ y + x ∧ y ≤ t + p) := by
  rw [List.countP_map, List.countP_filter, issuedAround]
  congr 1
  funext e
  simp [Bool.and_comm]

/-- Non-vacuity: two messages to be signed within five minutes, a login attempt ten minutes later, then another message within the next
minute: no more than two messages in any sixteen minutes or so, the clock goes forward, and one message is stored. -/
example : IsAddress Toy.env.keccak Ex.alice ∧ HexString 130 Ex.aliceSig ∧
    (trace Toy.env (Ex.prepared ++ (600000000000, .login Ex.aliceSig Ex.alice Ex.key (Ex.nonce 3)) ::
      [(600000000001, .prepareLogin Ex.alice)])).Pairwise (fun y z => y.time.toNat ≤ z.time.toNat) ∧
    SignInsWithin Toy.env (trace Toy.env (Ex.prepared ++ (600000000000, .login Ex.aliceSig Ex.alice Ex.key (Ex.nonce 3)) ::
      [(600000000001, .prepareLogin Ex.alice)])) 300000000000 ∧
    (∀ t, issuedAround (trace Toy.env (Ex.prepared ++ (600000000000, .login Ex.aliceSig Ex.alice Ex.key (Ex.nonce 3)) ::
      [(600000000001, .prepareLogin Ex.alice)])) t 300000000000 60000000000 ≤ 2) ∧
    storedMessages (stateAfter Toy.env (Ex.prepared ++ (600000000000, .login Ex.aliceSig Ex.alice Ex.key (Ex.nonce 3)) ::
      [(600000000001, .prepareLogin Ex.alice)])) = 1 := by
  refine ⟨Ex.aliceOk _, Ex.aliceSigOk, by decide +kernel, signInsWithin_of_states _ _ _ (by decide +kernel), fun t => ?_, by decide +kernel⟩
  rw [issuedAround_eq]
  rw [show ((trace Toy.env (Ex.prepared ++ (600000000000, .login Ex.aliceSig Ex.alice Ex.key (Ex.nonce 3)) ::
      [(600000000001, .prepareLogin Ex.alice)])).filter Event.isIssue).map (fun e => e.time.toNat) = [5, 6, 600000000001] by decide +kernel]
  simp only [List.countP_cons, List.countP_nil, decide_eq_true_eq]
  split <;> split <;> split <;> omega

end Siwe
