import Verif.Lemmas.Limits
import Verif.Props.GrowthBound
/-
C97 and C98: the provider on a machine with limits.
-/
namespace Siwe
open Spec

/-! ### lemmas -/

theorem erase_length {m : SiweMessageMap} (hu : UniqueKeys m) (k : Hash) : m.length ≤ (m.erase k).length + 1 := by
  induction m with
  | nil => exact Nat.zero_le _
  | cons x m ih =>
    obtain ⟨h1, h2⟩ := List.nodup_cons.mp hu
    unfold SiweMessageMap.erase at ih ⊢
    rw [List.filter_cons]
    by_cases hk : x.1 = k
    · rw [if_neg (by simp [hk]), List.filter_eq_self.mpr]
      · exact Nat.le_refl _
      · intro y hy
        refine decide_eq_true fun e => h1 ?_
        show x.1 ∈ _
        rw [hk, ← e]
        exact List.mem_map_of_mem hy
    · rw [if_pos (by simp [hk])]
      have := ih h2
      simp only [List.length_cons]
      omega

theorem preparesFirst_prefix {es es' : List Event} (h : PreparesFirst (es ++ es')) : PreparesFirst es :=
  fun before e after sig addr key nonce he => h before e (after ++ es') sig addr key nonce (by rw [he]; simp)

theorem full_stays {E : Env} (L : Limits) {st : State E} (hi : Inv st) (hfull : st.lib.messages.length = L.messages)
    (hnew : ∀ g, st.lib.rng = some g → ∀ bs, bs.length = 20 → ∀ x ∈ st.lib.messages, x.1 ≠ storeKey E bs (nonceOf E g))
    (h : History) (hu : ∀ x ∈ h, UserCall x.2) (hp : PreparesFirst (limitedTrace L st h)) :
    (L.run st h).1 = st ∧ (∀ e ∈ limitedTrace L st h, ∀ a n t, ¬e.Issues a n t) ∧
      ∀ e ∈ limitedTrace L st h, ∀ a, e.call = .prepareLogin a → IsAddress E.keccak a → e.reply = .trap := by
  induction h using history_induction with
  | nil => exact ⟨rfl, (fun _ h => nomatch h), (fun _ h => nomatch h)⟩
  | snoc h now op ih =>
    rw [L.trace_snoc] at hp ⊢
    obtain ⟨i1, i2, i3⟩ := ih (fun x hx => hu x (List.mem_append_left _ hx)) (preparesFirst_prefix hp)
    rw [L.run_snoc, i1]
    rw [i1] at hp
    have hop := hu (now, op) (by simp)
    have key : (L.step st now op).1 = st ∧ (∀ a n t, ¬Event.Issues ⟨now, op, (L.step st now op).2⟩ a n t) ∧
        ∀ a, op = .prepareLogin a → IsAddress E.keccak a → (L.step st now op).2 = .trap := by
      have hc := step_case hi now op
      rcases L.step_cases st now op with e | e
      · rw [e]; exact ⟨rfl, (fun a n t h => nomatch h.2), fun _ _ _ => rfl⟩
      · rw [e]
        have hm : ¬L.messages < (step st now op).1.lib.messages.length := by
          intro g
          have : L.step st now op = (st, .trap) := if_pos (.inr g)
          rw [e] at this
          rw [this] at g
          exact absurd g (by rw [hfull]; exact Nat.lt_irrefl _)
        generalize (step st now op).1 = st' at hc hm ⊢
        generalize (step st now op).2 = r at hc hp ⊢
        cases hc with
        | installed => exact hop.elim
        | upgraded => exact hop.elim
        | seeded => exact hop.elim
        | prepared addr bs g s txt h1 h2 h3 h4 h5 h6 h7 =>
          exfalso
          apply hm
          simp only [preparedLib, List.length_cons]
          have : SiweMessageMap.erase st.lib.messages (E.sha256 (pendingKey bs (nonceOf E g))) = st.lib.messages := by
            apply List.filter_eq_self.mpr
            intro x hx
            exact decide_eq_true (hnew g h4 bs h2 x hx)
          rw [this, hfull]
          omega
        | notFound sig addr key nonce =>
          obtain ⟨e', he', t, ht⟩ := hp _ _ [] sig addr key nonce rfl rfl
          exact absurd ht (i2 e' he' _ _ _)
        | found sig addr key nonce =>
          obtain ⟨e', he', t, ht⟩ := hp _ _ [] sig addr key nonce rfl rfl
          exact absurd ht (i2 e' he' _ _ _)
        | badPrepare a e g => exact ⟨rfl, (fun a n t h => nomatch h.2), fun a' he ha => absurd ha (by cases he; exact g)⟩
        | notReady => exact ⟨rfl, (fun a n t h => nomatch h.2), fun _ _ _ => rfl⟩
        | _ => exact ⟨rfl, (fun a n t h => nomatch h.1), (fun a' he => nomatch he)⟩
    refine ⟨key.1, fun e he => ?_, fun e he => ?_⟩
    · rcases List.mem_append.mp he with he | he
      · exact i2 e he
      · cases List.mem_singleton.mp he; exact key.2.1
    · rcases List.mem_append.mp he with he | he
      · exact i3 e he
      · cases List.mem_singleton.mp he; exact key.2.2

theorem Toy.storeKey_nonce (a b : Bytes) (n m : Nat) (hn : n < 256 ^ 10) (hm : m < 256 ^ 10)
    (h : storeKey Toy.counting a (nonceOf Toy.counting n) = storeKey Toy.counting b (nonceOf Toy.counting m)) : n = m := by
  have h : (storeKey Toy.counting a (nonceOf Toy.counting n)).bytes =
    (storeKey Toy.counting b (nonceOf Toy.counting m)).bytes := congrArg Hash.bytes h
  have shape : ∀ (c : Bytes) (k : Nat), ∃ x y z t, (storeKey Toy.counting c (nonceOf Toy.counting k)).bytes =
      x :: y :: z :: ((nonceOf Toy.counting k).reverse ++ t) := fun c k => Toy.fit_digest _ _ (nonceOf_length Toy.counting k)
  obtain ⟨x, y, z, t, e1⟩ := shape a n
  obtain ⟨x', y', z', t', e2⟩ := shape b m
  rw [e1, e2] at h
  simp only [List.cons.injEq] at h
  have := (List.append_inj h.2.2.2 (by
    rw [List.length_reverse, List.length_reverse]
    exact (nonceOf_length Toy.counting n).trans (nonceOf_length Toy.counting m).symm)).1
  exact counterBytes_inj 10 n m hn hm (hexEncode_inj (List.reverse_injective this))

theorem Ex.many_limited (L : Limits) (n : Nat) (hn : n ≤ 256 ^ 10) (hl : n ≤ L.messages) :
    L.stateAfter Toy.counting (Ex.many n) = stateAfter Toy.counting (Ex.many n) := by
  induction n with
  | zero =>
    have h0 : ∀ (s : State Toy.counting) now op, visits s now op = 0 → (step s now op).1.lib.messages.length = 0 →
        L.step s now op = step s now op := by
      intro s now op h1 h2
      apply if_neg
      rw [h1, h2]
      omega
    show ((L.run _ _).1) = (run _ _).1
    simp only [Ex.many, List.replicate_zero, List.append_nil, Limits.run, run]
    rw [h0 (State.fresh _) 1 (.install Ex.input) rfl (by decide +kernel)]
    rw [h0 _ _ _ rfl (by decide +kernel)]
  | succ n ih =>
    have e : Ex.many (n + 1) = Ex.many n ++ [(5, .prepareLogin Ex.alice)] := by
      simp [Ex.many, List.replicate_succ']
    have h1 := (Ex.many_state (n + 1) hn).2.2.1
    rw [e] at h1 ⊢
    have h2 : stateAfter Toy.counting (Ex.many n ++ [(5, .prepareLogin Ex.alice)]) =
      (step (stateAfter Toy.counting (Ex.many n)) 5 (.prepareLogin Ex.alice)).1 := run_snoc _ _ _ _
    rw [show L.stateAfter Toy.counting (Ex.many n ++ [(5, .prepareLogin Ex.alice)]) = _ from L.run_snoc _ _ _ _,
      show (L.run _ (Ex.many n)).1 = _ from ih (by omega) (by omega), h2]
    rw [h2] at h1
    apply congrArg Prod.fst
    apply if_neg
    unfold storedMessages at h1
    rw [h1]
    simp only [visits]
    omega

/-! ### C97 -/

/-- C97 is false of the code: whatever the memory, it can be filled with sign-ins so that, although all of them have expired (at the
latest at the time 10^18), `siwe_prepare_login` fails for ever: as long as users prepare a sign-in before they log in with it, every
further call for a valid address traps, at any time.  (Expired sign-ins are removed by `siwe_login` only.) -/
theorem C97_stays_full : ∃ E : Env, ∀ L : Limits, L.messages < 2 ^ 80 → ∃ h : History,
    storedMessages (L.stateAfter E h) = L.messages ∧
    (∀ x ∈ (L.stateAfter E h).lib.messages, x.2.expirationTime.toNat ≤ 10 ^ 18) ∧
    ∀ h2, (∀ x ∈ h2, UserCall x.2) → PreparesFirst (limitedTrace L (L.stateAfter E h) h2) →
      ∀ e ∈ limitedTrace L (L.stateAfter E h) h2, ∀ a, e.call = .prepareLogin a → IsAddress E.keccak a → e.reply = .trap := by
  refine ⟨Toy.counting, fun L hL => ⟨Ex.many L.messages, ?_⟩⟩
  have hL : L.messages < 256 ^ 10 := hL
  obtain ⟨i1, i2, i3, i4⟩ := Ex.many_state L.messages (by omega)
  have hi := inv_stateAfter Toy.counting (Ex.many L.messages)
  rw [Ex.many_limited L L.messages (by omega) (Nat.le_refl _)]
  refine ⟨i3, fun x hx => by rw [(i4 x hx).1]; decide, fun h2 hu hp => (full_stays L hi i3 ?_ h2 hu hp).2.2⟩
  intro g hg bs hb x hx he
  rw [i1] at hg
  cases hg
  obtain ⟨_, m, hm, e⟩ := i4 x hx
  have := Toy.storeKey_nonce _ _ m L.messages (by omega) (by omega) (e.symm.trans he)
  omega

/-- C97, partial: while there is room, sign-ins are prepared as on a machine without limits. -/
theorem C97_room_partial (L : Limits) (E : Env) (h : History) (now : UInt64) (a : Bytes)
    (hr : storedMessages (L.stateAfter E h) < L.messages) :
    L.step (L.stateAfter E h) now (.prepareLogin a) = step (L.stateAfter E h) now (.prepareLogin a) := by
  apply if_neg
  have hi := L.inv_stateAfter (E := E) h
  have : storedMessages (step (L.stateAfter E h) now (.prepareLogin a)).1 ≤ storedMessages (L.stateAfter E h) + 1 := by
    rcases messages_step hi now (.prepareLogin a) with g | ⟨_, g⟩ <;> omega
  unfold storedMessages at this hr
  simp only [visits]
  omega

/-- C97, partial: one attempt to log in, with a well-formed address and signature and whatever the answer, makes room again: sign-ins that
have expired by then are removed.  Missing: that they are removed without such an attempt (`C97_stays_full`). -/
theorem C97_freed_partial (L : Limits) (E : Env) (h : History) (now t : UInt64) (sig addr key nonce a : Bytes)
    (ha : IsAddress E.keccak addr) (hs : HexString 130 sig) (hm : 0 < L.messages) (hv : L.messages + 10 ≤ L.visits)
    (hx : ∀ x ∈ (L.stateAfter E h).lib.messages, x.2.expirationTime.toNat ≤ now.toNat) :
    L.step (L.stateAfter E (h ++ [(now, .login sig addr key nonce)])) t (.prepareLogin a) =
      step (L.stateAfter E (h ++ [(now, .login sig addr key nonce)])) t (.prepareLogin a) := by
  apply C97_room_partial
  have hi := L.inv_stateAfter (E := E) h
  have hc := step_case hi now (.login sig addr key nonce)
  have hle : visits (L.stateAfter E h) now (.login sig addr key nonce) ≤ L.visits :=
    Nat.le_trans (visits_login_le _ _ _ _ _ _) (Nat.le_trans (Nat.add_le_add (L.messages_le h) (Nat.min_le_left _ _)) hv)
  have hst : L.stateAfter E (h ++ [(now, .login sig addr key nonce)]) =
      (L.step (L.stateAfter E h) now (.login sig addr key nonce)).1 := L.run_snoc _ _ _ _
  have hml := L.messages_le (E := E) h
  rw [hst]
  have hp : (L.stateAfter E h).lib.messages.pruneExpired now = [] := by
    apply List.filter_eq_nil_iff.mpr
    intro x hx'
    rw [decide_eq_true_eq, gt_iff_lt, UInt64.lt_iff_toNat_lt]
    exact Nat.not_lt.mpr (hx x hx')
  have h0 : (step (L.stateAfter E h) now (.login sig addr key nonce)).1.lib.messages = [] := by
    generalize (step (L.stateAfter E h) now (.login sig addr key nonce)).1 = st' at hc ⊢
    generalize (step (L.stateAfter E h) now (.login sig addr key nonce)).2 = r at hc
    cases hc with
    | badAddress _ _ _ _ _ g => exact absurd ha g
    | badSignature _ _ _ _ _ _ g => exact absurd hs g
    | notFound => exact hp
    | found _ _ _ _ bs m txt _ _ h1 h2 h3 h4 h5 =>
      rw [hp] at h5
      cases h5
  rw [show L.step (L.stateAfter E h) now (.login sig addr key nonce) = step (L.stateAfter E h) now (.login sig addr key nonce) from
    if_neg (by rw [h0, List.length_nil]; omega)]
  unfold storedMessages
  rw [h0]
  exact hm

/-- Memory for two sign-ins, filled; both have expired when somebody tries to log in with one of them. -/
example : let L : Limits := ⟨2, 12⟩
    storedMessages (L.stateAfter Toy.env Ex.prepared) = L.messages ∧
    (L.step (L.stateAfter Toy.env Ex.prepared) 7 (.prepareLogin Ex.alice)).2 = .trap ∧
    (∀ x ∈ (L.stateAfter Toy.env Ex.prepared).lib.messages, x.2.expirationTime.toNat ≤ (10 ^ 18 : UInt64).toNat) ∧
    (L.step (L.stateAfter Toy.env Ex.prepared) (10 ^ 18) (.login Ex.aliceSig Ex.alice Ex.key (Ex.nonce 3))).2 =
      .err (.login .messageNotFound) ∧
    (L.step (L.stateAfter Toy.env (Ex.prepared ++ [((10 ^ 18 : UInt64), .login Ex.aliceSig Ex.alice Ex.key (Ex.nonce 3))])) (10 ^ 18)
      (.prepareLogin Ex.alice)).2 ≠ .trap := by decide +kernel

/-! ### C98 -/

/-- C98: how much of the stored data a call looks at one by one.  A login with a well-formed address and signature looks at every pending
sign-in, whosoever prepared it, and at no more than ten signatures; `siwe_get_delegation` at no more than all signatures; other calls at
nothing. -/
theorem C98_work {E : Env} (s : State E) (now : UInt64) :
    (∀ sig addr key nonce, IsAddress E.keccak addr → HexString 130 sig →
      storedMessages s ≤ visits s now (.login sig addr key nonce) ∧
      visits s now (.login sig addr key nonce) ≤ storedMessages s + 10) ∧
    (∀ sig addr key nonce, ¬(IsAddress E.keccak addr ∧ HexString 130 sig) → visits s now (.login sig addr key nonce) = 0) ∧
    (∀ c a k e, visits s now (.getDelegation c a k e) ≤ s.sigMap.expirationQueue.length) ∧
    ∀ op, (∀ sig addr key nonce, op ≠ .login sig addr key nonce) → (∀ c a k e, op ≠ .getDelegation c a k e) → visits s now op = 0 := by
  refine ⟨fun sig addr key nonce ha hs => ⟨visits_login_ge _ _ _ _ _ _ ha hs, Nat.le_trans (visits_login_le _ _ _ _ _ _)
    (Nat.add_le_add_left (Nat.min_le_left _ _) _)⟩, fun sig addr key nonce h => visits_login_bad _ _ _ _ _ _ h,
    fun c a k e => visits_getDelegation_le _ _ _ _ _ _, fun op h1 h2 => ?_⟩
  cases op <;> first | rfl | exact absurd rfl (h1 _ _ _ _) | exact absurd rfl (h2 _ _ _ _)

/-- C98: every signature a login drops from the store it has looked at, besides all pending sign-ins. -/
theorem C98_looks_at_what_it_drops (E : Env) (h : History) (now : UInt64) (sig addr key nonce : Bytes)
    (ha : IsAddress E.keccak addr) (hs : HexString 130 sig) :
    storedMessages (stateAfter E h) + (stateAfter E h).sigMap.expirationQueue.length ≤
      visits (stateAfter E h) now (.login sig addr key nonce) +
        (stateAfter E (h ++ [(now, .login sig addr key nonce)])).sigMap.expirationQueue.length := by
  rw [show stateAfter E (h ++ [(now, .login sig addr key nonce)]) = _ from run_snoc _ _ _ _]
  exact visits_login_dropped (inv_stateAfter E h) now sig addr key nonce ha hs

/-- Non-vacuity: a login that drops the signature of the example's login and keeps its own looks at one signature and two sign-ins. -/
example : let h := Ex.loggedIn ++ [(110, .prepareLogin Ex.alice)]
    visits (stateAfter Toy.env h) (100000000000) (.login Ex.bobSig Ex.bob Ex.key (Ex.nonce 4)) = 3 ∧
    storedMessages (stateAfter Toy.env h) = 2 ∧ (stateAfter Toy.env h).sigMap.expirationQueue.length = 1 ∧
    (stateAfter Toy.env (h ++ [(100000000000, .login Ex.bobSig Ex.bob Ex.key (Ex.nonce 4))])).sigMap.expirationQueue.length = 1 := by
  decide +kernel

/-- C98: once more sign-ins are pending than a call may look at, nobody can log in any more, expired as the sign-ins may be, until the
canister is upgraded or installed anew. -/
theorem C98_blocked (L : Limits) (E : Env) (h h2 : History) (hb : L.visits < storedMessages (L.stateAfter E h))
    (hu : ∀ x ∈ h2, ∀ i, x.2 ≠ .install i ∧ x.2 ≠ .upgrade i) :
    ∀ e ∈ limitedTrace L (L.stateAfter E h) h2, ∀ sig addr key nonce, e.call = .login sig addr key nonce →
      IsAddress E.keccak addr → HexString 130 sig → e.reply = .trap := by
  have hi := L.inv_stateAfter (E := E) h
  generalize L.stateAfter E h = st at hi hb ⊢
  suffices hh : L.visits < storedMessages (L.run st h2).1 ∧ ∀ e ∈ limitedTrace L st h2, ∀ sig addr key nonce,
      e.call = .login sig addr key nonce → IsAddress E.keccak addr → HexString 130 sig → e.reply = .trap from hh.2
  induction h2 using history_induction with
  | nil => exact ⟨hb, (fun _ h => nomatch h)⟩
  | snoc h2 now op ih =>
    obtain ⟨i1, i2⟩ := ih fun x hx => hu x (List.mem_append_left _ hx)
    have hop := hu (now, op) (by simp)
    have hi' := L.inv_run hi h2
    rw [L.run_snoc, L.trace_snoc]
    generalize (L.run st h2).1 = st1 at i1 hi' ⊢
    have hlog : ∀ sig addr key nonce, op = .login sig addr key nonce → IsAddress E.keccak addr → HexString 130 sig →
        L.step st1 now op = (st1, .trap) := by
      rintro sig addr key nonce rfl ha hs
      exact if_pos (.inl (Nat.lt_of_lt_of_le i1 (visits_login_ge st1 now sig addr key nonce ha hs)))
    refine ⟨?_, fun e he => ?_⟩
    · rcases L.step_cases st1 now op with e | e
      · rw [e]; exact i1
      · have hc := step_case hi' now op
        rw [e] at hlog ⊢
        generalize step st1 now op = x at hc hlog ⊢
        obtain ⟨st', r⟩ := x
        dsimp only at hc
        cases hc with
        | installed i => exact absurd rfl (hop i).1
        | upgraded i => exact absurd rfl (hop i).2
        | prepared addr bs g s txt h1 h2 h3 h4 h5 h6 h7 =>
          have := erase_length hi'.keys (E.sha256 (pendingKey bs (nonceOf E g)))
          unfold storedMessages at i1 ⊢
          simp only [preparedLib, List.length_cons]
          omega
        | notFound sig addr key nonce bs h1 h2 =>
          have := hlog _ _ _ _ rfl h1 h2
          rw [this]; exact i1
        | found sig addr key nonce bs m txt _ _ h1 h2 =>
          have := hlog _ _ _ _ rfl h1 h2
          rw [this]; exact i1
        | _ => exact i1
    · rcases List.mem_append.mp he with he | he
      · exact i2 e he
      · cases List.mem_singleton.mp he
        intro sig addr key nonce h ha hs
        exact congrArg Prod.snd (hlog sig addr key nonce h ha hs)

/-- Two sign-ins are pending, and a call may look at one: both logins fail. -/
example : let L : Limits := ⟨2, 1⟩
    L.visits < storedMessages (L.stateAfter Toy.env Ex.prepared) ∧
    (L.step (L.stateAfter Toy.env Ex.prepared) 100 (.login Ex.aliceSig Ex.alice Ex.key (Ex.nonce 3))).2 = .trap ∧
    ∃ d, (step (L.stateAfter Toy.env Ex.prepared) 100 (.login Ex.aliceSig Ex.alice Ex.key (Ex.nonce 3))).2 = .loggedIn d := by
  refine ⟨by decide +kernel, by decide +kernel, ?_⟩
  have : (match (step ((⟨2, 1⟩ : Limits).stateAfter Toy.env Ex.prepared) 100
      (.login Ex.aliceSig Ex.alice Ex.key (Ex.nonce 3))).2 with | .loggedIn _ => true | _ => false) = true := by decide +kernel
  split at this
  · next d h => exact ⟨d, h⟩
  · cases this

/-- C98 is false of the code: if there is memory for more sign-ins than a call may look at, preparing sign-ins makes it impossible to log
in, for everybody and at all times. -/
theorem C98_can_be_blocked : ∃ E : Env, ∀ L : Limits, L.visits < L.messages → L.visits < 2 ^ 80 → ∃ h : History, ∀ h2 : History,
    (∀ x ∈ h2, ∀ i, x.2 ≠ .install i ∧ x.2 ≠ .upgrade i) →
    ∀ e ∈ limitedTrace L (L.stateAfter E h) h2, ∀ sig addr key nonce, e.call = .login sig addr key nonce →
      IsAddress E.keccak addr → HexString 130 sig → e.reply = .trap := by
  refine ⟨Toy.counting, fun L h1 hv => ⟨Ex.many (L.visits + 1), fun h2 hu => C98_blocked L _ _ h2 ?_ hu⟩⟩
  have hv : L.visits < 256 ^ 10 := hv
  rw [Ex.many_limited L _ (by omega) (by omega), (Ex.many_state _ (by omega)).2.2.1]
  omega

/-- C98, partial: if a call may look at all sign-ins that there is memory for and at ten signatures, no login is refused for the
amount of stored data.  Missing: machines that allow less (`C98_can_be_blocked`). -/
theorem C98_enough_partial (L : Limits) (hv : L.messages + 10 ≤ L.visits) (E : Env) (h : History) (now : UInt64)
    (sig addr key nonce : Bytes) :
    L.step (L.stateAfter E h) now (.login sig addr key nonce) = step (L.stateAfter E h) now (.login sig addr key nonce) := by
  apply if_neg
  have h1 := visits_login_le (L.stateAfter E h) now sig addr key nonce
  have h2 := L.messages_le (E := E) h
  have h3 : storedMessages (step (L.stateAfter E h) now (.login sig addr key nonce)).1 ≤ storedMessages (L.stateAfter E h) := by
    rcases messages_step (L.inv_stateAfter (E := E) h) now (.login sig addr key nonce) with g | ⟨⟨_, _, _, g, _⟩, _⟩
    · exact g
    · cases g
  unfold storedMessages at h3
  have := Nat.min_le_left 10 (L.stateAfter E h).sigMap.expirationQueue.length
  omega

/-- C98, partial: and whatever happens, as long as each call looks at no more than it may and stores no more than there is memory for, the
limits change nothing. -/
theorem C98_within_limits_partial (L : Limits) (E : Env) (h : History)
    (hw : ∀ before now op after, h = before ++ (now, op) :: after → visits (stateAfter E before) now op ≤ L.visits ∧
      storedMessages (stateAfter E (before ++ [(now, op)])) ≤ L.messages) :
    L.run (State.fresh E) h = run (State.fresh E) h := by
  suffices hh : ∀ (before : History) (rest : History), h = before ++ rest →
      L.run (stateAfter E before) rest = run (stateAfter E before) rest from hh [] h rfl
  intro before rest
  induction rest generalizing before with
  | nil => intro _; rfl
  | cons x rest ih =>
    obtain ⟨now, op⟩ := x
    intro he
    obtain ⟨w1, w2⟩ := hw before now op rest he
    have ht := ih (before ++ [(now, op)]) (by rw [he]; simp)
    have hs : stateAfter E (before ++ [(now, op)]) = (step (stateAfter E before) now op).1 := run_snoc _ _ _ _
    rw [hs] at ht w2
    have h1 : L.step (stateAfter E before) now op = step (stateAfter E before) now op := by
      apply if_neg
      unfold storedMessages at w2
      omega
    simp only [Limits.run, run, h1, ht]

/-- With room for two sign-ins and their examination, the history of two sign-ins and a login runs as without limits. -/
example : (⟨2, 2⟩ : Limits).run (State.fresh Toy.env) Ex.loggedIn = run (State.fresh Toy.env) Ex.loggedIn :=
  C98_within_limits_partial _ _ _ (by
    intro before now op after h
    have : before = [] ∨ before = Ex.loggedIn.take 1 ∨ before = Ex.loggedIn.take 2 ∨ before = Ex.loggedIn.take 3 ∨
        before = Ex.loggedIn.take 4 := by
      have hl := congrArg List.length h
      simp only [List.length_append, List.length_cons, show Ex.loggedIn.length = 5 from rfl] at hl
      have hb : before = Ex.loggedIn.take before.length := by rw [h]; simp
      have : before.length = 0 ∨ before.length = 1 ∨ before.length = 2 ∨ before.length = 3 ∨ before.length = 4 := by omega
      rcases this with g | g | g | g | g <;> rw [g] at hb <;> rw [hb] <;> simp
    rcases this with rfl | rfl | rfl | rfl | rfl <;>
      (simp [Ex.loggedIn, Ex.prepared] at h
       obtain ⟨⟨rfl, rfl⟩, rfl⟩ := h
       exact ⟨by decide +kernel, by decide +kernel⟩))

end Siwe
