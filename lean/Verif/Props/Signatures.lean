import Verif.Props.Delegations
import Verif.Props.SigMap
import Verif.Spec.Signatures
/-
C93: the canister's signatures, told from the calls answered so far, and how many there are.
-/
namespace Siwe
open Spec

theorem absRun_append {a b c : AbsMap} {ops ops' : List MapOp} (h : AbsRun a ops b) (h' : AbsRun b ops' c) : AbsRun a (ops ++ ops') c := by
  induction h with
  | nil => exact h'
  | cons g _ ih => exact .cons g (ih h')

theorem checkSignature_not_delegation {E : Env} {text : Bytes} {sig : EthSignature} {a : EthAddress} {e : DelegationError} :
    checkSignature E text sig a ≠ .err (.delegation e) := by
  unfold checkSignature
  split <;> (try split) <;> simp

theorem getAddress_not_login {E : Env} (st : State E) (p : Bytes) (e : LoginError) :
    reply Reply.bytes (Siwe.getAddress st p) ≠ .err (.login e) := by
  unfold Siwe.getAddress
  split
  · simp [reply]
  · split
    · simp [reply]
    · split
      · simp [reply]
      · cases convertToEip55 E _ <;> simp [reply]

/-- What one call does to the signature map, as calls of its interface. -/
theorem signature_step {E : Env} (h : History) (now : UInt64) (op : Op) (ops : List MapOp) (a : AbsMap)
    (hc : SignatureCalls E (trace E h) ops) (hr : AbsRun .empty ops a) (ha : Represents (stateAfter E h).sigMap a) :
    ∃ ops' a', SignatureCalls E (trace E h ++ [⟨now, op, (step (stateAfter E h) now op).2⟩]) ops' ∧ AbsRun .empty ops' a' ∧
      Represents (step (stateAfter E h) now op).1.sigMap a' := by
  have hi := inv_stateAfter E h
  have hcase := step_case hi now op
  have hset := C42_settings_in_force E h
  generalize stateAfter E h = st at hi hcase ha hset ⊢
  generalize (step st now op).1 = st' at hcase ⊢
  generalize (step st now op).2 = r at hcase ⊢
  have same : ¬Event.Reinstalls ⟨now, op, r⟩ → (∀ d, r ≠ .loggedIn d) → (∀ err, r ≠ .err (.login (.delegation err))) →
      st'.sigMap = st.sigMap → ∃ ops' a', SignatureCalls E (trace E h ++ [⟨now, op, r⟩]) ops' ∧ AbsRun .empty ops' a' ∧
        Represents st'.sigMap a' :=
    fun h1 h2 h3 h4 => ⟨ops, a, .other _ _ _ hc h1 h2 h3, hr, h4 ▸ ha⟩
  cases hcase with
  | installed i s p h1 h2 => exact ⟨[], _, .installed _ _ ⟨i, .inl rfl, rfl⟩, .nil _, SigMap.represents_empty⟩
  | upgraded i s p h1 h2 => exact ⟨[], _, .installed _ _ ⟨i, .inr rfl, rfl⟩, .nil _, SigMap.represents_empty⟩
  | prepared addr bs g s txt h1 h2 h3 h4 h5 h6 h7 =>
    exact same (by simp [Event.Reinstalls]) (by simp) (by simp) rfl
  | found sig addr key nonce bs m txt st'' r' h1 h2 h3 h4 h5 h6 h7 hf =>
    cases hf with
    | badSignature e he =>
      refine same (by simp [Event.Reinstalls]) (by simp [reply]) (fun err hh => ?_) rfl
      simp only [reply, Reply.err.injEq, ProviderError.login.injEq] at hh
      subst hh
      exact checkSignature_not_delegation he
    | badKey s n sm e _ _ hp _ =>
      obtain ⟨removed, sm1, g1, _, g3, g4⟩ := SigMap.ok_prune LoginError hi.sigs now maxSigsToPrune
      rw [hp] at g1; cases g1
      refine ⟨_, ⟨fun s d => a.pairs s d ∧ ∀ e ∈ removed, ¬(e.seedHash = s ∧ e.delegationHash = d), sm.expirationQueue⟩,
        .refused _ _ _ e hc rfl, absRun_append hr (.cons (.prune a now 10 removed _ ?_) (.nil _)), ⟨fun s' d' => ?_, .refl _⟩⟩
      · exact { g3 with split := ha.entries.symm.trans g3.split }
      · show Holds sm s' d' ↔ _
        rw [g4, ha.pairs]
    | success s n sm sm' d dh _ hs hp hd hdh hput =>
      obtain ⟨removed, sm1, g1, g2, g3, g4⟩ := SigMap.ok_prune LoginError hi.sigs now maxSigsToPrune
      rw [hp] at g1; cases g1
      obtain ⟨sm2, f1, f2, f3, f4⟩ := SigMap.ok_put LoginError g2 now (seedKey E s ⟨addr⟩) dh
      rw [hput] at f1; cases f1
      obtain ⟨k1, k2, k3, rfl⟩ := (C26_create E s key _ d).mp hd
      refine ⟨_, _, .loggedIn _ _ _ addr key nonce _ s st.settings (seedKey E s ⟨addr⟩) dh hc ⟨⟨sig, rfl⟩, rfl⟩
        ((hset s _).mpr ⟨hs, rfl⟩) (isEntry_seedKey hdh),
        absRun_append hr (.cons (.prune a now 10 removed sm.expirationQueue ?_) (.cons (.put _ now _ _ _ (SigMap.isExpiryOf_satAdd now)) (.nil _))),
        ⟨fun s' d' => ?_, ?_⟩⟩
      · exact { g3 with split := ha.entries.symm.trans g3.split }
      · show Holds sm' s' d' ↔ _
        rw [f4, g4, ha.pairs]
      · show sm'.expirationQueue.Perm _
        rw [f3]
        exact heapPush_perm _ _
  | getDelegation c ad k e =>
    have hd := getDelegation_reply hi now c ad k e
    simp only [step] at hd
    refine same (by simp [Event.Reinstalls]) (fun d hh => ?_) (fun err hh => ?_) rfl <;> rw [hh] at hd <;> cases hd
  | getAddress p =>
    refine same (by simp [Event.Reinstalls]) ?_ ?_ rfl
    · intro d; cases Siwe.getAddress st p <;> simp [reply]
    · exact fun err => getAddress_not_login st p _
  | getCallerAddress p =>
    refine same (by simp [Event.Reinstalls]) ?_ ?_ rfl
    · intro d; cases Siwe.getCallerAddress st p <;> simp [reply]
    · intro err
      unfold Siwe.getCallerAddress
      split
      · simp [reply]
      · exact getAddress_not_login st p _
  | getPrincipal p =>
    refine same (by simp [Event.Reinstalls]) ?_ ?_ rfl
    · intro d; cases Siwe.getPrincipal st p <;> simp [reply]
    · intro err
      unfold Siwe.getPrincipal
      split
      · simp [reply]
      · cases EthAddress.new E p with
        | err e => simp [reply]
        | panic => simp [reply]
        | ok x =>
          simp only [Res.mapErr_ok, Res.ok_bind]
          cases x.asByteArray with
          | err e => simp [reply, Res.unwrap]
          | panic => simp [reply, Res.unwrap]
          | ok y =>
            simp only [Res.unwrap, Res.ok_bind]
            split <;> simp [reply]
  | _ => exact same (by simp [Event.Reinstalls]) (by simp) (by simp) rfl

/-- C93: the signature map is, after any history, what the calls of its interface make of it that the observed calls stand for. -/
theorem C93_map_follows_calls (E : Env) (h : History) :
    ∃ ops a, SignatureCalls E (trace E h) ops ∧ AbsRun .empty ops a ∧ Represents (stateAfter E h).sigMap a := by
  induction h using history_induction with
  | nil => exact ⟨[], _, .start, .nil _, SigMap.represents_empty⟩
  | snoc h now op ih =>
    obtain ⟨ops, a, h1, h2, h3⟩ := ih
    have := signature_step h now op ops a h1 h2 h3
    rw [show stateAfter E (h ++ [(now, op)]) = (step (stateAfter E h) now op).1 from run_snoc _ _ _ _,
      show trace E (h ++ [(now, op)]) = _ from traceFrom_snoc _ _ _ _]
    exact this

theorem signatureCalls_snoc {E : Env} {es : List Event} {e : Event} {ops : List MapOp} (h : SignatureCalls E (es ++ [e]) ops) :
    (e.Reinstalls ∧ ops = []) ∨
    (∃ ops0 addr key nonce d s p sh dh, SignatureCalls E es ops0 ∧ e.LogsIn addr key nonce d ∧ InForce E es s p ∧
      IsEntry E s addr key d.expiration sh dh ∧ ops = ops0 ++ [.prune e.time 10, .put e.time sh dh]) ∨
    (∃ ops0 err, SignatureCalls E es ops0 ∧ e.reply = .err (.login (.delegation err)) ∧ ops = ops0 ++ [.prune e.time 10]) ∨
    (SignatureCalls E es ops ∧ ¬e.Reinstalls ∧ (∀ d, e.reply ≠ .loggedIn d) ∧ ∀ err, e.reply ≠ .err (.login (.delegation err))) := by
  generalize hes : es ++ [e] = es1 at h
  cases h with
  | start => simp at hes
  | installed es' e' h1 =>
    obtain ⟨rfl, h2⟩ := List.append_inj' hes rfl
    cases h2
    exact .inl ⟨h1, rfl⟩
  | loggedIn es' ops0 e' addr key nonce d s p sh dh h1 h2 h3 h4 =>
    obtain ⟨rfl, h5⟩ := List.append_inj' hes rfl
    cases h5
    exact .inr (.inl ⟨ops0, addr, key, nonce, d, s, p, sh, dh, h1, h2, h3, h4, rfl⟩)
  | refused es' ops0 e' err h1 h2 =>
    obtain ⟨rfl, h5⟩ := List.append_inj' hes rfl
    cases h5
    exact .inr (.inr (.inl ⟨ops0, err, h1, h2, rfl⟩))
  | other es' _ e' h1 h2 h3 h4 =>
    obtain ⟨rfl, h5⟩ := List.append_inj' hes rfl
    cases h5
    exact .inr (.inr (.inr ⟨h1, h2, h3, h4⟩))

/-- C93: the observed calls determine the calls of the interface. -/
theorem C93_one_list (E : Env) (h : History) (ops ops' : List MapOp) (hc : SignatureCalls E (trace E h) ops)
    (hc' : SignatureCalls E (trace E h) ops') : ops = ops' := by
  induction h using history_induction generalizing ops ops' with
  | nil =>
    have nil : ∀ es o, SignatureCalls E es o → es = [] → o = [] := by
      intro es o hh he
      cases hh <;> simp at he
      rfl
    rw [nil _ _ hc rfl, nil _ _ hc' rfl]
  | snoc h now op ih =>
    rw [show trace E (h ++ [(now, op)]) = _ from traceFrom_snoc _ _ _ _] at hc hc'
    generalize Event.mk now op (step (run (State.fresh E) h).1 now op).2 = e at hc hc'
    have hc := signatureCalls_snoc (es := trace E h) hc
    have hc' := signatureCalls_snoc (es := trace E h) hc'
    have nr : ∀ r, e.Reinstalls → e.reply = r → r = .done := fun r ⟨_, _, h1⟩ h2 => h2.symm.trans h1
    rcases hc with ⟨a1, rfl⟩ | ⟨o, addr, key, nonce, d, s, p, sh, dh, a1, ⟨⟨sig, a2⟩, a3⟩, a4, a5, rfl⟩ | ⟨o, err, a1, a2, rfl⟩ | ⟨a1, a2, a3, a4⟩ <;>
    rcases hc' with ⟨b1, rfl⟩ | ⟨o', addr', key', nonce', d', s', p', sh', dh', b1, ⟨⟨sig', b2⟩, b3⟩, b4, b5, rfl⟩ | ⟨o', err', b1, b2, rfl⟩ | ⟨b1, b2, b3, b4⟩
    · rfl
    · have := nr _ a1 b3; cases this
    · have := nr _ a1 b2; cases this
    · exact absurd a1 b2
    · have := nr _ b1 a3; cases this
    · rw [a2] at b2; cases b2
      rw [a3] at b3; cases b3
      have := Option.some.inj ((inForce_state a4).1.symm.trans (inForce_state b4).1)
      subst this
      obtain ⟨rfl, rfl⟩ := isEntry_unique a5 b5
      rw [ih _ _ a1 b1]
    · rw [a3] at b2; cases b2
    · exact absurd a3 (b3 d)
    · have := nr _ b1 a2; cases this
    · rw [a2] at b3; cases b3
    · rw [ih _ _ a1 b1]
    · exact absurd a2 (b4 err)
    · exact absurd b1 a2
    · exact absurd b3 (a3 d')
    · exact absurd b2 (a4 err')
    · exact ih _ _ a1 b1

theorem isExpired_entry {m : SigMap} {now : UInt64} {s d : Hash} (h : m.isExpired now s d = true) :
    ∃ x ∈ m.expirationQueue, x.seedHash = s ∧ x.delegationHash = d ∧ x.expiresAt.toNat < now.toNat := by
  rw [SigMap.isExpired] at h
  split at h
  · next y hf =>
    have hy := List.find?_some hf
    simp only [decide_eq_true_eq] at hy
    exact ⟨y, List.mem_of_find?_eq_some hf, hy.1, hy.2, by simpa [UInt64.lt_iff_toNat_lt] using h⟩
  · cases h

theorem not_isExpired_entry {m : SigMap} {now : UInt64} {s d : Hash} (h : m.isExpired now s d = false) :
    (∀ x ∈ m.expirationQueue, ¬(x.seedHash = s ∧ x.delegationHash = d)) ∨
    ∃ x ∈ m.expirationQueue, x.seedHash = s ∧ x.delegationHash = d ∧ now.toNat ≤ x.expiresAt.toNat := by
  rw [SigMap.isExpired] at h
  split at h
  · next y hf =>
    have hy := List.find?_some hf
    simp only [decide_eq_true_eq] at hy
    exact .inr ⟨y, List.mem_of_find?_eq_some hf, hy.1, hy.2, by simpa [UInt64.le_iff_toNat_le] using h⟩
  · next hf =>
    left
    intro x hx
    simpa using List.find?_eq_none.mp hf x hx

/-- C93: so the answer of `siwe_get_delegation` to a well-formed request follows from the calls answered so far. -/
theorem C93_answer (E : Env) (h : History) :
    ∃ ops a, SignatureCalls E (trace E h) ops ∧ AbsRun .empty ops a ∧
      ∀ (now : UInt64) (cert addr key : Bytes) (expiration : UInt64) (s : Settings) (p : ProviderSettings) (sh dh : Hash),
        IsAddress E.keccak addr → InForce E (trace E h) s p → key ≠ [] → E.derOk key = true → expiration ≠ 0 →
        IsEntry E s addr key expiration sh dh →
        Retrieval s a now key expiration sh dh (step (stateAfter E h) now (.getDelegation (some cert) addr key expiration)).2 := by
  obtain ⟨ops, a, h1, h2, h3⟩ := C93_map_follows_calls E h
  refine ⟨ops, a, h1, h2, fun now cert addr key expiration s p sh dh k1 k2 k3 k4 k5 k6 => ?_⟩
  have hi := inv_stateAfter E h
  have hd := C52_decision E h now (some cert) addr key expiration
  generalize (step (stateAfter E h) now (.getDelegation (some cert) addr key expiration)).2 = r at hd ⊢
  have hset := (inForce_state k2).1
  cases hd with
  | badAddress _ e g =>
    have := (addressError_iff E addr e).mpr g
    rw [(ethAddress_new_ok_iff E addr ⟨addr⟩).mpr ⟨k1, rfl⟩] at this
    cases this
  | notInstalled _ _ g => rw [hset] at g; cases g
  | badKey _ s' e _ _ g =>
    cases g with
    | empty g => exact absurd g k3
    | notDer _ g => rw [k4] at g; cases g
  | zero _ _ _ _ _ _ g => exact absurd g k5
  | expired _ s' sh' dh' _ g2 _ _ _ g6 g7 =>
    rw [hset] at g2; cases g2
    obtain ⟨rfl, rfl⟩ := isEntry_unique k6 g6
    obtain ⟨x, e1, e2, e3, e4⟩ := isExpired_entry g7
    exact .expired x (h3.entries.mem_iff.mp e1) e2 e3 e4
  | notFound _ s' sh' dh' _ g2 _ _ _ g6 g7 g8 =>
    rw [hset] at g2; cases g2
    obtain ⟨rfl, rfl⟩ := isEntry_unique k6 g6
    refine .notFound (fun g => g8 ((h3.pairs _ _).mpr g)) ?_
    rcases not_isExpired_entry g7 with g | ⟨x, e1, e2⟩
    · exact .inl fun x hx => g x (h3.entries.mem_iff.mpr hx)
    · exact .inr ⟨x, h3.entries.mem_iff.mp e1, e2⟩
  | success _ s' sh' dh' w d _ g2 _ _ _ g6 g7 g8 g9 g10 =>
    rw [hset] at g2; cases g2
    obtain ⟨rfl, rfl⟩ := isEntry_unique k6 g6
    obtain ⟨x, e1, e2, e3, e4⟩ := SigMap.exists_of_not_isExpired hi.sigs g8 g7
    exact .found x d ((h3.pairs _ _).mp g8) (h3.entries.mem_iff.mp e1) e2 e3 e4 g10

/-! ### how many there are -/

theorem absRun_snoc {a c : AbsMap} {ops : List MapOp} {op : MapOp} (h : AbsRun a (ops ++ [op]) c) : ∃ b, AbsRun a ops b ∧ AbsStep b op c := by
  generalize hx : ops ++ [op] = l at h
  induction h generalizing ops with
  | nil => simp at hx
  | @cons a b c o l h1 h2 ih =>
    cases ops with
    | nil =>
      simp only [List.nil_append, List.cons.injEq] at hx
      obtain ⟨rfl, rfl⟩ := hx
      cases h2
      exact ⟨a, .nil _, h1⟩
    | cons o' ops =>
      simp only [List.cons_append, List.cons.injEq] at hx
      obtain ⟨rfl, hx⟩ := hx
      obtain ⟨b', g1, g2⟩ := ih hx
      exact ⟨b', .cons h1 g1, g2⟩

theorem countP_snoc_ge {α : Type} (p : α → Bool) (l : List α) (x : α) : l.countP p ≤ (l ++ [x]).countP p := by
  rw [List.countP_append]; omega

theorem pruned_countP {now : UInt64} {k : Nat} {before removed after : List SigExpiration} (h : Pruned now k before removed after)
    (p : SigExpiration → Bool) : after.countP p ≤ before.countP p := by
  rw [h.split.countP_eq, List.countP_append]; omega

/-- The entries that a run leaves, counted by their expiry, and the logins, counted by their time. -/
theorem entries_le_logins {E : Env} {es : List Event} {ops : List MapOp} (hc : SignatureCalls E es ops) {a : AbsMap}
    (hr : AbsRun .empty ops a) (p q : UInt64 → Bool) (hpq : ∀ e ∈ es, ∀ x, IsExpiryOf e.time x → p x = true → q e.time = true) :
    a.entries.countP (fun x => p x.expiresAt) ≤
      es.countP fun e => e.isLogin && q e.time := by
  induction hc generalizing a with
  | start => cases hr; simp [AbsMap.empty]
  | installed es e h => cases hr; simp [AbsMap.empty]
  | loggedIn es ops e addr key nonce d s ps sh dh h1 h2 h3 h4 ih =>
    rw [show ops ++ [MapOp.prune e.time 10, .put e.time sh dh] = (ops ++ [.prune e.time 10]) ++ [.put e.time sh dh] by simp] at hr
    obtain ⟨b, hr, hput⟩ := absRun_snoc hr
    obtain ⟨c, hr, hprune⟩ := absRun_snoc hr
    have := ih hr fun e he => hpq e (by simp [he])
    cases hprune with
    | prune _ _ removed after hp =>
    cases hput with
    | put _ x _ _ hx =>
      have hle := pruned_countP hp fun x => p x.expiresAt
      show List.countP _ (_ :: after) ≤ _
      rw [List.countP_cons, List.countP_append, List.countP_singleton]
      rw [show e.isLogin = true by rw [Event.isLogin, h2.2], Bool.true_and]
      by_cases hpx : p x = true
      · rw [if_pos hpx, if_pos (hpq e (by simp) x hx hpx)]; omega
      · rw [if_neg hpx]; omega
  | refused es ops e err h1 h2 ih =>
    obtain ⟨c, hr, hprune⟩ := absRun_snoc hr
    have := ih hr fun e he => hpq e (by simp [he])
    cases hprune with
    | prune _ _ removed after hp =>
      have hle := pruned_countP hp fun x => p x.expiresAt
      exact Nat.le_trans (Nat.le_trans hle this) (countP_snoc_ge _ _ _)
  | other es ops e h1 h2 h3 h4 ih =>
    exact Nat.le_trans (ih hr fun e he => hpq e (by simp [he])) (countP_snoc_ge _ _ _)

theorem entries_bounded {E : Env} {es : List Event} {ops : List MapOp} (hc : SignatureCalls E es ops) {a : AbsMap}
    (hr : AbsRun .empty ops a) (n : Nat) (hclock : es.Pairwise fun x y => x.time.toNat ≤ y.time.toNat)
    (hn : ∀ t, loginsInMinute es t ≤ n) : a.entries.length ≤ n := by
  induction hc generalizing a with
  | start => cases hr; simp [AbsMap.empty]
  | installed es e h => cases hr; simp [AbsMap.empty]
  | loggedIn es ops e addr key nonce d s ps sh dh h1 h2 h3 h4 ih =>
    rw [show ops ++ [MapOp.prune e.time 10, .put e.time sh dh] = (ops ++ [.prune e.time 10]) ++ [.put e.time sh dh] by simp] at hr
    obtain ⟨b, hr, hput⟩ := absRun_snoc hr
    obtain ⟨c, hr', hprune⟩ := absRun_snoc hr
    obtain ⟨hcl, _, hcl2⟩ := List.pairwise_append.mp hclock
    have hold := ih hr' hcl fun t => Nat.le_trans (countP_snoc_ge _ _ _) (hn t)
    cases hprune with
    | prune _ _ removed after hp =>
    cases hput with
    | put _ x _ _ hx =>
      simp only [List.length_cons]
      rcases hp.exhaustive with hfull | hall
      · have := hp.split.length_eq
        rw [List.length_append] at this
        omega
      · have hlive := entries_le_logins h1 hr' (fun x => decide (e.time.toNat < x.toNat))
          (fun t => decide (t.toNat ≤ e.time.toNat ∧ e.time.toNat < t.toNat + minute)) (fun y hy x hx hp => by
            have := hcl2 y hy e (by simp)
            simp only [decide_eq_true_eq] at hp ⊢
            rw [IsExpiryOf] at hx
            omega)
        have hle := pruned_countP hp fun x => decide (e.time.toNat < x.expiresAt.toNat)
        have hcnt : after.countP (fun x => decide (e.time.toNat < x.expiresAt.toNat)) = after.length :=
          List.countP_eq_length.mpr fun x hx => by simpa using hall x hx
        have := hn e.time.toNat
        rw [loginsInMinute, List.countP_append, List.countP_singleton,
          show e.isLogin = true by rw [Event.isLogin, h2.2], Bool.true_and] at this
        rw [if_pos (by simp [minute])] at this
        refine Nat.le_trans ?_ this
        have hlive : c.entries.countP (fun x => decide (e.time.toNat < x.expiresAt.toNat)) ≤ _ := hlive
        omega
  | refused es ops e err h1 h2 ih =>
    obtain ⟨c, hr', hprune⟩ := absRun_snoc hr
    obtain ⟨hcl, _, hcl2⟩ := List.pairwise_append.mp hclock
    have hold := ih hr' hcl fun t => Nat.le_trans (countP_snoc_ge _ _ _) (hn t)
    cases hprune with
    | prune _ _ removed after hp =>
      have := hp.split.length_eq
      rw [List.length_append] at this
      simp only
      omega
  | other es ops e h1 h2 h3 h4 ih =>
    exact ih hr (List.pairwise_append.mp hclock).1 fun t => Nat.le_trans (countP_snoc_ge _ _ _) (hn t)

/-- C93: if the clock does not run backwards, the canister never holds more signatures than there were successful logins in the busiest
minute, however long it runs. -/
theorem C93_bounded (E : Env) (h : History) (n : Nat) (hclock : (trace E h).Pairwise fun x y => x.time.toNat ≤ y.time.toNat)
    (hn : ∀ t, loginsInMinute (trace E h) t ≤ n) (held : List (Hash × Hash)) (hd : held.Nodup)
    (hh : ∀ x ∈ held, Holds (stateAfter E h).sigMap x.1 x.2) :
    held.length ≤ n ∧ (stateAfter E h).sigMap.expirationQueue.length ≤ n := by
  obtain ⟨ops, a, h1, h2, h3⟩ := C93_map_follows_calls E h
  have hb := entries_bounded h1 h2 n hclock hn
  rw [← h3.entries.length_eq] at hb
  refine ⟨Nat.le_trans ?_ hb, hb⟩
  have hsub : held ⊆ (stateAfter E h).sigMap.expirationQueue.map fun x => (x.seedHash, x.delegationHash) := by
    intro x hx
    obtain ⟨e, he, h1, h2⟩ := (inv_stateAfter E h).sigs.covered _ _ (hh x hx)
    exact List.mem_map.mpr ⟨e, he, by rw [h1, h2]⟩
  have := (List.subperm_of_subset hd hsub).length_le
  simpa using this

theorem pruned_length {now : UInt64} {k : Nat} {before removed after : List SigExpiration} (h : Pruned now k before removed after) :
    after.length = before.length - min k (before.countP fun x => decide (x.expiresAt.toNat ≤ now.toNat)) := by
  have h1 := h.split.length_eq
  have h2 := h.split.countP_eq fun x => decide (x.expiresAt.toNat ≤ now.toNat)
  rw [List.length_append] at h1
  rw [List.countP_append, (List.countP_eq_length (l := removed)).mpr fun x hx => by simpa using h.due x hx] at h2
  have h3 := h.bounded
  rcases h.exhaustive with h4 | h4
  · omega
  · have : after.countP (fun x => decide (x.expiresAt.toNat ≤ now.toNat)) = 0 :=
      List.countP_eq_zero.mpr fun x hx => by simpa using h4 x hx
    omega

/-- C93: a successful login removes the entries that are due, up to ten, and adds its own; a login refused only for its session key
removes them too. -/
theorem C93_login_clears (E : Env) (h : History) (now : UInt64) (sig addr key nonce : Bytes) (n : Nat)
    (hn : n = (stateAfter E h).sigMap.expirationQueue.length
      - min 10 ((stateAfter E h).sigMap.expirationQueue.countP fun x => decide (x.expiresAt.toNat ≤ now.toNat))) :
    (∀ d, (step (stateAfter E h) now (.login sig addr key nonce)).2 = .loggedIn d →
      (step (stateAfter E h) now (.login sig addr key nonce)).1.sigMap.expirationQueue.length = n + 1) ∧
    ∀ err, (step (stateAfter E h) now (.login sig addr key nonce)).2 = .err (.login (.delegation err)) →
      (step (stateAfter E h) now (.login sig addr key nonce)).1.sigMap.expirationQueue.length = n := by
  subst hn
  have hi := inv_stateAfter E h
  have hcase := step_case hi now (.login sig addr key nonce)
  generalize stateAfter E h = st at hi hcase ⊢
  generalize (step st now (.login sig addr key nonce)).1 = st' at hcase ⊢
  generalize (step st now (.login sig addr key nonce)).2 = r at hcase ⊢
  cases hcase with
  | badAddress => exact ⟨fun d hh => (nomatch hh), fun err hh => (nomatch hh)⟩
  | badSignature => exact ⟨fun d hh => (nomatch hh), fun err hh => (nomatch hh)⟩
  | notFound => exact ⟨fun d hh => (nomatch hh), fun err hh => (nomatch hh)⟩
  | found _ _ _ _ bs m txt st'' r' h1 h2 h3 h4 h5 h6 h7 hf =>
    cases hf with
    | badSignature e he =>
      refine ⟨fun d hh => by simp [reply] at hh, fun err hh => ?_⟩
      simp only [reply, Reply.err.injEq, ProviderError.login.injEq] at hh
      subst hh
      exact absurd he checkSignature_not_delegation
    | badKey s n sm e _ _ hp _ =>
      obtain ⟨removed, sm1, g1, _, g3, g4⟩ := SigMap.ok_prune LoginError hi.sigs now maxSigsToPrune
      rw [hp] at g1; cases g1
      exact ⟨fun d hh => by simp [reply] at hh, fun err _ => pruned_length g3⟩
    | success s n sm sm' d dh _ hs hp hd hdh hput =>
      obtain ⟨removed, sm1, g1, g2, g3, g4⟩ := SigMap.ok_prune LoginError hi.sigs now maxSigsToPrune
      rw [hp] at g1; cases g1
      obtain ⟨sm2, f1, f2, f3, f4⟩ := SigMap.ok_put LoginError g2 now (seedKey E s ⟨addr⟩) dh
      rw [hput] at f1; cases f1
      refine ⟨fun d hh => ?_, fun err hh => by simp [reply] at hh⟩
      show sm'.expirationQueue.length = _
      rw [f3, (heapPush_perm _ _).length_eq, List.length_cons]
      exact congrArg (· + 1) (pruned_length g3)

/-- Non-vacuity: in the example login's history the clock does not run back, there is one login in any minute, and a signature is held. -/
example : (trace Toy.env Ex.loggedIn).Pairwise (fun x y => x.time.toNat ≤ y.time.toNat) ∧
    (∀ t, loginsInMinute (trace Toy.env Ex.loggedIn) t ≤ 1) ∧ ∃ s d, Holds (stateAfter Toy.env Ex.loggedIn).sigMap s d := by
  refine ⟨by decide +kernel, fun t => ?_, ?_⟩
  · refine Nat.le_trans (List.countP_mono_left (q := Event.isLogin) fun e _ h => ?_) (by decide +kernel)
    exact (Bool.and_eq_true_iff.mp h).1
  · have h : (stateAfter Toy.env Ex.loggedIn).sigMap.certifiedMap.toList.any (fun p => !p.2.toList.isEmpty) = true := by decide +kernel
    obtain ⟨⟨s, sub⟩, h1, h2⟩ := List.any_eq_true.mp h
    cases hs : sub.toList with
    | nil => simp [hs] at h2
    | cons x l => exact ⟨s, x.1, sub, h1, by rw [hs]; exact List.mem_cons_self⟩

/-- Non-vacuity: after the example login one entry is due at its expiry, and Bob's login then removes it; a login with a bad key
removes it too. -/
example : (Event.isLogin ⟨60000000100, .login Ex.bobSig Ex.bob Ex.key (Ex.nonce 4),
      (step (stateAfter Toy.env Ex.loggedIn) 60000000100 (.login Ex.bobSig Ex.bob Ex.key (Ex.nonce 4))).2⟩) = true ∧
    (stateAfter Toy.env Ex.loggedIn).sigMap.expirationQueue.countP (fun x => decide (x.expiresAt.toNat ≤ (60000000100 : UInt64).toNat)) = 1 ∧
    (step (stateAfter Toy.env Ex.loggedIn) 60000000100 (.login Ex.bobSig Ex.bob [] (Ex.nonce 4))).2 =
      .err (.login (.delegation .sessionKeyEmpty)) := by
  decide +kernel

end Siwe
