import Verif.Spec.Capacity
import Verif.Props.Limits
import Verif.Props.Signatures
/-
C122: what a provider under a steady load needs.
-/
namespace Siwe
open Spec

/-- Counting events by a test that only calls of one kind pass. -/
theorem countP_trace_le {E : Env} (s : State E) (h : History) (f : Event → Bool) (g : UInt64 × Op → Bool)
    (hfg : ∀ (st : State E) now op, f ⟨now, op, (step st now op).2⟩ = true → g (now, op) = true) :
    (traceFrom s h).countP f ≤ h.countP g := by
  induction h generalizing s with
  | nil => exact Nat.le_refl _
  | cons y h ih =>
    obtain ⟨now, op⟩ := y
    simp only [traceFrom, List.countP_cons]
    have := ih (step s now op).1
    have hh := hfg s now op
    split
    · next hf => rw [if_pos (hh hf)]; omega
    · split <;> omega

theorem reply_kind {E : Env} (st : State E) (now : UInt64) (op : Op) :
    (∀ r, (step st now op).2 = .prepared r → ∃ a, op = .prepareLogin a) ∧
    ∀ d, (step st now op).2 = .loggedIn d → ∃ sig a k n, op = .login sig a k n := by
  have hi : ∀ x : Res Empty (State E), (∀ r, (commitInit st x).2 ≠ .prepared r) ∧ ∀ d, (commitInit st x).2 ≠ .loggedIn d := by
    intro x
    cases x with
    | ok => exact ⟨fun _ h => (nomatch h), fun _ h => (nomatch h)⟩
    | err e => exact nomatch e
    | panic => exact ⟨fun _ h => (nomatch h), fun _ h => (nomatch h)⟩
  have hr : ∀ {α : Type} (f : α → Reply) (x : Res ProviderError α) r, reply f x = r → (∃ a, f a = r) ∨ (∃ e, r = .err e) ∨ r = .trap := by
    intro α f x r h
    cases x with
    | ok a => exact .inl ⟨a, h⟩
    | err e => exact .inr (.inl ⟨e, h.symm⟩)
    | panic => exact .inr (.inr h.symm)
  have hc : ∀ {α : Type} (f : α → Reply) (x : State E × Res ProviderError α) r, (commit st f x).2 = r →
      (∃ a, f a = r) ∨ (∃ e, r = .err e) ∨ r = .trap := by
    intro α f x r h
    obtain ⟨x1, x2⟩ := x
    cases x2 with
    | ok a => exact .inl ⟨a, h⟩
    | err e => exact .inr (.inl ⟨e, h.symm⟩)
    | panic => exact .inr (.inr h.symm)
  cases op with
  | install i => exact ⟨fun r h => absurd h ((hi _).1 r), fun r h => absurd h ((hi _).2 r)⟩
  | upgrade i => exact ⟨fun r h => absurd h ((hi _).1 r), fun r h => absurd h ((hi _).2 r)⟩
  | rngSeeded => exact ⟨fun _ h => (nomatch h), fun _ h => (nomatch h)⟩
  | prepareLogin a =>
    refine ⟨fun _ _ => ⟨a, rfl⟩, fun d h => ?_⟩
    rcases hc _ _ _ h with ⟨_, h⟩ | ⟨_, h⟩ | h <;> cases h
  | login sig a k n =>
    refine ⟨fun d h => ?_, fun _ _ => ⟨sig, a, k, n, rfl⟩⟩
    rcases hc _ _ _ h with ⟨_, h⟩ | ⟨_, h⟩ | h <;> cases h
  | _ =>
    refine ⟨fun d h => ?_, fun d h => ?_⟩ <;>
    rcases hr _ _ _ h with ⟨_, h⟩ | ⟨_, h⟩ | h <;> cases h

theorem issue_call {E : Env} (st : State E) (now : UInt64) (op : Op) (h : Event.isIssue ⟨now, op, (step st now op).2⟩ = true) :
    ∃ a, op = .prepareLogin a := by
  simp only [Event.isIssue] at h
  split at h
  · next r hr => exact (reply_kind st now op).1 r hr
  · cases h

theorem login_call {E : Env} (st : State E) (now : UInt64) (op : Op) (h : Event.isLogin ⟨now, op, (step st now op).2⟩ = true) :
    ∃ sig a k n, op = .login sig a k n := by
  simp only [Event.isLogin] at h
  split at h
  · next r hr => exact (reply_kind st now op).2 r hr
  · cases h

theorem issuedAround_le (E : Env) (h : History) (t x p : Nat) : issuedAround (trace E h) t x p ≤ requestsAround h t x p := by
  apply countP_trace_le
  intro st now op hf
  simp only [Bool.and_eq_true] at hf ⊢
  obtain ⟨a, rfl⟩ := issue_call st now op hf.1
  exact ⟨rfl, hf.2⟩

theorem loginsInMinute_le (E : Env) (h : History) (t : Nat) : loginsInMinute (trace E h) t ≤ loginCallsInMinute h t := by
  apply countP_trace_le
  intro st now op hf
  simp only [Bool.and_eq_true] at hf ⊢
  obtain ⟨_, _, _, _, rfl⟩ := login_call st now op hf.1
  exact ⟨rfl, hf.2⟩

theorem trace_pairwise (E : Env) (h : History) (hc : h.Pairwise fun y z => y.1.toNat ≤ z.1.toNat) :
    (trace E h).Pairwise fun y z => y.time.toNat ≤ z.time.toNat := by
  rw [← traceFrom_timesCalls (State.fresh E) h, List.pairwise_map] at hc
  exact hc

theorem Spec.Load.prefix {E : Env} {h h' : History} {x p n k : Nat} (hl : Load E (h ++ h') x p n k) : Load E h x p n k where
  clock := (List.pairwise_append.mp hl.clock).1
  signIn y hy := hl.signIn y (List.mem_append_left _ hy)
  attempts before y after he := hl.attempts before y (after ++ h') (by rw [he]; simp)
  requests t := Nat.le_trans (by rw [requestsAround, requestsAround, List.countP_append]; exact Nat.le_add_right _ _) (hl.requests t)
  logins t := Nat.le_trans (by rw [loginCallsInMinute, loginCallsInMinute, List.countP_append]; exact Nat.le_add_right _ _) (hl.logins t)

theorem Spec.Load.signInsWithin {E : Env} {h : History} {x p n k : Nat} (hl : Load E h x p n k) : SignInsWithin E (trace E h) x := by
  intro before e after s q he _ hf
  obtain ⟨b, e', a, i, h1, _, h3, _, hc⟩ := hf
  rw [hc.signIn]
  refine hl.signIn (e'.time, e'.call) ?_ i h3
  rw [← traceFrom_timesCalls (State.fresh E) h]
  refine List.mem_map.mpr ⟨e', ?_, rfl⟩
  show e' ∈ trace E h
  rw [he, h1]
  simp

/-- C122: under a load the provider never stores more than `n` messages and `k` signatures. -/
theorem C122_stored (E : Env) (h : History) (x p n k : Nat) (hl : Load E h x p n k) :
    storedMessages (stateAfter E h) ≤ n ∧ (stateAfter E h).sigMap.expirationQueue.length ≤ k := by
  have hclock := trace_pairwise E h hl.clock
  refine ⟨?_, (C93_bounded E h k hclock (fun t => Nat.le_trans (loginsInMinute_le E h t) (hl.logins t)) [] List.nodup_nil
    (fun _ h => nomatch h)).2⟩
  rcases List.eq_nil_or_concat h with rfl | ⟨before, y, rfl⟩
  · simp [storedMessages, stateAfter, run, State.fresh, LibState.initial]
  · rw [List.concat_eq_append] at hl hclock ⊢
    rcases hl.attempts before y [] rfl with ⟨⟨ta, opa⟩, ha, ⟨sig, addr, key, nonce, rfl, h1, h2⟩, hp⟩ | hp
    · obtain ⟨h3, h4, he⟩ := List.append_of_mem ha
      have hcl := hl.clock
      have hn : ∀ t, issuedAround (trace E (before ++ [y])) t x p ≤ n := fun t =>
        Nat.le_trans (issuedAround_le E _ t x p) (hl.requests t)
      have hs := hl.signInsWithin
      rw [he] at hclock hs hn
      rw [he]
      refine C48_regular_logins_partial E h3 h4 ta sig addr key nonce x p n h1 h2 hclock hs (fun z hz => ?_) hn
      refine Nat.le_trans ?_ hp
      have hz' : z ∈ before ++ [y] := by rw [he]; simp [hz]
      rcases List.mem_append.mp hz' with hz' | hz'
      · exact (List.pairwise_append.mp hcl).2.2 z hz' y (by simp)
      · rw [List.mem_singleton.mp hz']
    · have hm := messages_le_issues E (before ++ [y]) x hl.signInsWithin (fun _ => true) (fun _ => true) fun _ _ _ _ => rfl
      have hlen : storedMessages (stateAfter E (before ++ [y])) =
          (stateAfter E (before ++ [y])).lib.messages.countP fun _ => true := by simp [storedMessages]
      rw [hlen]
      obtain ⟨t, ht⟩ : ∃ t : Nat, ∀ z ∈ before ++ [y], t ≤ z.1.toNat ∧ z.1.toNat ≤ t + p := by
        cases before with
        | nil => exact ⟨y.1.toNat, fun z hz => by simp at hz; subst hz; omega⟩
        | cons f rest =>
          have hc := (List.pairwise_cons.mp hl.clock).1
          have hc' := (List.pairwise_append.mp hl.clock).2.2
          have hf := hp f List.mem_cons_self
          refine ⟨f.1.toNat, fun z hz => ⟨?_, ?_⟩⟩
          · rcases List.mem_cons.mp hz with rfl | hz
            · exact Nat.le_refl _
            · exact hc z hz
          · rcases List.mem_append.mp hz with hz | hz
            · exact Nat.le_trans (hc' z hz y (by simp)) hf
            · rw [List.mem_singleton.mp hz]; exact hf
      refine Nat.le_trans hm (Nat.le_trans ?_ (Nat.le_trans (issuedAround_le E _ t x p) (hl.requests t)))
      refine List.countP_mono_left fun e he hq => ?_
      have := ht (e.time, e.call) (by
        rw [← traceFrom_timesCalls (State.fresh E) (before ++ [y])]
        exact List.mem_map.mpr ⟨e, he, rfl⟩)
      simp only [Bool.and_eq_true, decide_eq_true_eq] at hq ⊢
      dsimp only at this
      exact ⟨hq.1, by omega, by omega⟩

/-- C122: a machine with memory for `n` pending sign-ins that lets a call look at `n + 10` entries, and at `k`, serves every load for ever: all
states and all answers are those of a machine without limits. -/
theorem C122_served (L : Limits) (E : Env) (h : History) (x p n k : Nat) (hl : Load E h x p n k)
    (hm : n ≤ L.messages) (hv : n + 10 ≤ L.visits) (hk : k ≤ L.visits) :
    L.run (State.fresh E) h = run (State.fresh E) h := by
  apply C98_within_limits_partial
  rintro before now op after rfl
  obtain ⟨h1, h2⟩ := C122_stored E before x p n k hl.prefix
  rw [show before ++ (now, op) :: after = (before ++ [(now, op)]) ++ after by simp] at hl
  obtain ⟨h3, _⟩ := C122_stored E _ x p n k hl.prefix
  refine ⟨?_, Nat.le_trans h3 hm⟩
  obtain ⟨w1, w2, w3, w4⟩ := C98_work (stateAfter E before) now
  cases op with
  | login sig addr key nonce =>
    by_cases hg : IsAddress E.keccak addr ∧ HexString 130 sig
    · have := (w1 sig addr key nonce hg.1 hg.2).2
      omega
    · rw [w2 sig addr key nonce hg]; exact Nat.zero_le _
  | getDelegation c a k' e => exact Nat.le_trans (w3 c a k' e) (Nat.le_trans h2 hk)
  | _ => rw [w4 _ (by intros; simp) (by intros; simp)]; exact Nat.zero_le _

/-- Decides `TriesLogin` for the example's address and signature. -/
theorem Ex.tries (E : Env) (key nonce : Bytes) : TriesLogin E (.login Ex.aliceSig Ex.alice key nonce) :=
  ⟨_, _, _, _, rfl, Ex.aliceOk _, Ex.aliceSigOk⟩

/-- `n` requests at the same time, at a provider with the default of five minutes for signing in, and later an attempt to log in. -/
theorem Ex.many_load (E : Env) (n : Nat) (tail : History)
    (ht : tail = [] ∨ tail = [((1000000000000000000 : UInt64), .login Ex.aliceSig Ex.alice Ex.key [])]) :
    Load E (Ex.many n ++ tail) 300000000000 60000000000 n 1 := by
  have hin : ∀ y ∈ Ex.many n, y.1.toNat ≤ 5 := by
    intro y hy
    simp only [Ex.many, List.cons_append, List.nil_append, List.mem_cons, List.mem_replicate] at hy
    rcases hy with rfl | rfl | ⟨_, rfl⟩ <;> decide
  have hpw : (Ex.many n).Pairwise fun y z => y.1.toNat ≤ z.1.toNat := by
    simp only [Ex.many, List.cons_append, List.nil_append, List.pairwise_cons, List.mem_cons, List.mem_replicate]
    refine ⟨?_, ?_, List.pairwise_replicate.mpr (.inr (Nat.le_refl _))⟩
    · rintro z (rfl | ⟨_, rfl⟩) <;> decide
    · rintro z ⟨_, rfl⟩; decide
  refine ⟨?_, ?_, ?_, fun t => ?_, fun t => ?_⟩
  · refine List.pairwise_append.mpr ⟨hpw, ?_, ?_⟩
    · rcases ht with rfl | rfl <;> simp
    · intro y hy z hz
      rcases ht with rfl | rfl
      · cases hz
      · rw [List.mem_singleton.mp hz]
        exact Nat.le_trans (hin y hy) (by decide)
  · intro y hy i hi
    simp only [Ex.many, List.cons_append, List.nil_append, List.mem_cons, List.mem_append, List.mem_replicate] at hy
    rcases hy with rfl | rfl | ⟨_, rfl⟩ | hy
    · rcases hi with hi | hi
      · cases hi; decide
      · cases hi
    · rcases hi with hi | hi <;> cases hi
    · rcases hi with hi | hi <;> cases hi
    · rcases ht with rfl | rfl
      · cases hy
      · rw [List.mem_singleton.mp hy] at hi
        rcases hi with hi | hi <;> cases hi
  · intro before y after he
    by_cases hy : y ∈ Ex.many n
    · exact .inr fun a _ => Nat.le_trans (hin y hy) (Nat.le_trans (by decide) (Nat.le_add_left _ _))
    · have : y ∈ Ex.many n ++ tail := by rw [he]; simp
      rcases List.mem_append.mp this with h | h
      · exact absurd h hy
      · rcases ht with rfl | rfl
        · cases h
        · refine .inl ⟨y, by simp, ?_, Nat.le_add_right _ _⟩
          rw [List.mem_singleton.mp h]
          exact Ex.tries E _ _
  · rw [requestsAround, List.countP_append, Ex.many, List.countP_append]
    have h1 : tail.countP (fun y => asksMessage y.2 &&
        decide (t ≤ y.1.toNat + 300000000000 ∧ y.1.toNat ≤ t + 60000000000)) = 0 := by
      rcases ht with rfl | rfl <;> simp [asksMessage]
    rw [h1]
    refine Nat.le_trans (Nat.add_le_add_right (Nat.add_le_add (show _ ≤ 0 from Nat.le_of_eq (by simp [asksMessage])) List.countP_le_length) 0) ?_
    simp
  · rw [loginCallsInMinute, List.countP_append]
    have h1 : (Ex.many n).countP (fun y => asksLogin y.2 &&
        decide (y.1.toNat ≤ t ∧ t < y.1.toNat + 60000000000)) = 0 := by
      refine List.countP_eq_zero.mpr fun y hy => ?_
      simp only [Ex.many, List.cons_append, List.nil_append, List.mem_cons, List.mem_replicate] at hy
      rcases hy with rfl | rfl | ⟨_, rfl⟩ <;> simp [asksLogin]
    rw [h1]
    refine Nat.le_trans (Nat.add_le_add_left List.countP_le_length 0) ?_
    rcases ht with rfl | rfl <;> simp

/-- C122: a machine with less memory, or one that lets a call look at fewer than `n` entries, does not serve every such load. -/
theorem C122_needed : ∃ E : Env, ∀ n : Nat, n ≤ 2 ^ 80 → ∀ L : Limits, L.messages < n ∨ L.visits < n →
    ∃ h, Load E h 300000000000 60000000000 n 1 ∧ L.run (State.fresh E) h ≠ run (State.fresh E) h := by
  refine ⟨Toy.counting, fun n hn L hL => ?_⟩
  have hn : n ≤ 256 ^ 10 := hn
  by_cases hm : L.messages < n
  · refine ⟨Ex.many n, by simpa using Ex.many_load Toy.counting n [] (.inl rfl), fun he => ?_⟩
    have h1 := L.messages_le (E := Toy.counting) (Ex.many n)
    have h2 : (stateAfter Toy.counting (Ex.many n)).lib.messages.length = n := (Ex.many_state n hn).2.2.1
    rw [show L.stateAfter Toy.counting (Ex.many n) = stateAfter Toy.counting (Ex.many n) from congrArg Prod.fst he] at h1
    omega
  · have hv : L.visits < n := hL.resolve_left hm
    refine ⟨_, Ex.many_load Toy.counting n _ (.inr rfl), fun he => ?_⟩
    have he : L.stateAfter Toy.counting _ = stateAfter Toy.counting _ := congrArg Prod.fst he
    rw [show L.stateAfter Toy.counting (Ex.many n ++ [_]) = _ from L.run_snoc _ _ _ _,
      show stateAfter Toy.counting (Ex.many n ++ [_]) = _ from run_snoc _ _ _ _,
      show (L.run _ (Ex.many n)).1 = _ from Ex.many_limited L n hn (by omega)] at he
    have h2 : (stateAfter Toy.counting (Ex.many n)).lib.messages.length = n := (Ex.many_state n hn).2.2.1
    rw [show L.step (stateAfter Toy.counting (Ex.many n)) 1000000000000000000 (.login Ex.aliceSig Ex.alice Ex.key []) =
      (stateAfter Toy.counting (Ex.many n), .trap) from
      if_pos (.inl (Nat.lt_of_lt_of_le (by rw [h2]; exact hv) (visits_login_ge _ _ _ _ _ _ (Ex.aliceOk _) Ex.aliceSigOk)))] at he
    have hall := C48_login_clears_partial Toy.counting (Ex.many n) 1000000000000000000 Ex.aliceSig Ex.alice Ex.key [] (Ex.aliceOk _)
      Ex.aliceSigOk
    rw [show (step (stateAfter Toy.counting (Ex.many n)) 1000000000000000000
      (.login Ex.aliceSig Ex.alice Ex.key [])).1 = _ from he.symm] at hall
    dsimp only at hall
    cases hl : (stateAfter Toy.counting (Ex.many n)).lib.messages with
    | nil => rw [hl] at h2; simp at h2; omega
    | cons y ys =>
      have hy : y ∈ (stateAfter Toy.counting (Ex.many n)).lib.messages := by rw [hl]; exact List.mem_cons_self
      have h3 := hall y hy
      rw [((Ex.many_state n hn).2.2.2 y hy).1] at h3
      exact absurd h3 (by decide)

/-- Two requests, a login and a third request: a load of three requests and one login, which a machine with room for three sign-ins
serves. -/
example : (⟨3, 13⟩ : Limits).run (State.fresh Toy.env) (Ex.loggedIn ++ [(110, .prepareLogin Ex.alice)]) =
    run (State.fresh Toy.env) (Ex.loggedIn ++ [(110, .prepareLogin Ex.alice)]) ∧
    storedMessages (stateAfter Toy.env (Ex.loggedIn ++ [(110, .prepareLogin Ex.alice)])) = 2 := by
  refine ⟨C122_served _ _ _ 300000000000 60000000000 3 1 ⟨by decide +kernel, ?_, ?_, fun t => ?_, fun t => ?_⟩
    (by decide) (by decide) (by decide), by decide +kernel⟩
  · intro y hy i hi
    simp only [Ex.loggedIn, Ex.prepared, List.cons_append, List.nil_append, List.mem_cons, List.not_mem_nil, or_false] at hy
    rcases hy with rfl | rfl | rfl | rfl | rfl | rfl <;> rcases hi with hi | hi <;> cases hi
    decide
  · intro before y after he
    have hin : ∀ y ∈ Ex.loggedIn ++ [(110, .prepareLogin Ex.alice)], y.1.toNat ≤ 110 := by decide +kernel
    exact .inr fun a _ => Nat.le_trans (hin y (by rw [he]; simp)) (Nat.le_trans (by decide) (Nat.le_add_left _ _))
  · refine Nat.le_trans (List.countP_mono_left (q := fun y => asksMessage y.2) fun y _ h => ?_)
      (show List.countP _ _ ≤ 3 by decide +kernel)
    exact (Bool.and_eq_true_iff.mp h).1
  · refine Nat.le_trans (List.countP_mono_left (q := fun y => asksLogin y.2) fun y _ h => ?_)
      (show List.countP _ _ ≤ 1 by decide +kernel)
    exact (Bool.and_eq_true_iff.mp h).1

end Siwe
