import Verif.Props.Mappings
import Verif.Props.Nonces
import Verif.Props.Delegations
/- Properties C46-C47: upgrades, queries and traps. -/
namespace Siwe
open Spec

/-! ### C46 -/

theorem upgrade_done {E : Env} {st : State E} (hi : Inv st) {now : UInt64} {i : SettingsInput}
    (hd : (step st now (.upgrade i)).2 = .done) : ∃ s p, Configures E i s p ∧ (step st now (.upgrade i)).1 =
      ⟨⟨none, some s, []⟩, .empty, p, st.principalAddress, st.addressPrincipal, st.certifiedData⟩ := by
  have h := step_case hi now (.upgrade i)
  rw [hd] at h
  generalize (step st now (.upgrade i)).1 = st' at h ⊢
  cases h with
  | upgraded i s p h1 h2 => exact ⟨s, p, h1, rfl⟩

/-- C46: a successful upgrade changes no answer of the mapping queries, as far as the new argument keeps the mappings
enabled and the old one did too. -/
theorem C46_mappings_survive (E : Env) (h : History) (now : UInt64) (i j : SettingsInput)
    (hd : (step (stateAfter E h) now (.upgrade i)).2 = .done) (hj : LastArgument (trace E h) j) (t t' : UInt64) (x : Bytes) :
    (.disablePrincipalToEthMapping ∉ i.runtimeFeatures.getD [] → .disablePrincipalToEthMapping ∉ j.runtimeFeatures.getD [] →
      (step (stateAfter E (h ++ [(now, .upgrade i)])) t (.getAddress x)).2 = (step (stateAfter E h) t' (.getAddress x)).2) ∧
    (.disableEthToPrincipalMapping ∉ i.runtimeFeatures.getD [] → .disableEthToPrincipalMapping ∉ j.runtimeFeatures.getD [] →
      (step (stateAfter E (h ++ [(now, .upgrade i)])) t (.getPrincipal x)).2 =
        (step (stateAfter E h) t' (.getPrincipal x)).2) := by
  obtain ⟨s, p, hc, he⟩ := upgrade_done (inv_stateAfter E h) hd
  obtain ⟨s', p', hc', _, hp'⟩ := lastArgument_state hj
  have e2 : stateAfter E (h ++ [(now, .upgrade i)]) = (step (stateAfter E h) now (.upgrade i)).1 := run_snoc _ _ _ _
  rw [e2, he]
  constructor
  · intro h1 h2
    have q1 : p.disablePrincipalToEthMapping = false := Bool.eq_false_iff.mpr fun z => h1 (hc.principalToEth.mp z)
    have q2 : p'.disablePrincipalToEthMapping = false := Bool.eq_false_iff.mpr fun z => h2 (hc'.principalToEth.mp z)
    simp only [step, getAddress, q1, hp', q2]
  · intro h1 h2
    have q1 : p.disableEthToPrincipalMapping = false := Bool.eq_false_iff.mpr fun z => h1 (hc.ethToPrincipal.mp z)
    have q2 : p'.disableEthToPrincipalMapping = false := Bool.eq_false_iff.mpr fun z => h2 (hc'.ethToPrincipal.mp z)
    simp only [step, getPrincipal, q1, hp', q2]

/-- C46: an upgrade keeps the certified data too, though the signatures it attests to are gone. -/
theorem C46_state (E : Env) (h : History) (now : UInt64) (i : SettingsInput)
    (hd : (step (stateAfter E h) now (.upgrade i)).2 = .done) :
    let st := stateAfter E h
    let st' := stateAfter E (h ++ [(now, .upgrade i)])
    st'.principalAddress = st.principalAddress ∧ st'.addressPrincipal = st.addressPrincipal ∧
    st'.certifiedData = st.certifiedData ∧ st'.lib.messages = [] ∧ st'.lib.rng = none ∧ ∀ sh dh, ¬Holds st'.sigMap sh dh := by
  obtain ⟨s, p, hc, he⟩ := upgrade_done (inv_stateAfter E h) hd
  have e2 : stateAfter E (h ++ [(now, .upgrade i)]) = (step (stateAfter E h) now (.upgrade i)).1 := run_snoc _ _ _ _
  simp only [e2, he, true_and]
  rintro sh dh ⟨t, h1, _⟩
  simp [SigMap.empty, HasSeed] at h1

/-- C46: after an upgrade no message issued before it can be used: until a new one is issued every well-formed login
answers that there is no message. -/
theorem C46_messages_gone (E : Env) (h h2 : History) (now : UInt64) (i : SettingsInput)
    (hd : (step (stateAfter E h) now (.upgrade i)).2 = .done)
    (hn : ∀ e ∈ traceFrom (stateAfter E (h ++ [(now, .upgrade i)])) h2, ∀ a n t, ¬e.Issues a n t)
    (t : UInt64) (sig addr key nonce : Bytes) (ha : IsAddress E.keccak addr) (hs : HexString 130 sig) :
    (step (stateAfter E (h ++ (now, .upgrade i) :: h2)) t (.login sig addr key nonce)).2 = .err (.login .messageNotFound) := by
  refine C14_one_answer _ _ _ _ _ _ _ _ (C14_decision E _ t sig addr key nonce) (.notFound ha hs ?_)
  rintro ⟨m, txt, ⟨bs, hl, hb, hp⟩, _⟩
  have e1 : stateAfter E (h ++ (now, .upgrade i) :: h2) = (run (stateAfter E (h ++ [(now, .upgrade i)])) h2).1 := by
    rw [show h ++ (now, .upgrade i) :: h2 = (h ++ [(now, .upgrade i)]) ++ h2 by simp]
    exact run_append _ _ _
  rw [e1] at hp
  rcases pending_origin (inv_stateAfter E (h ++ [(now, .upgrade i)])) h2 _ m hp with ⟨_, g⟩ |
    ⟨b, e, a, addr', nonce', text, _, _, g1, _, g2, _⟩
  · rw [(C46_state E h now i hd).2.2.2.1] at g; cases g
  · exact hn e (by rw [g1]; simp) _ _ _ g2

/-- C46: after an upgrade no delegation granted before it can be fetched: until a new login none is returned. -/
theorem C46_delegations_gone (E : Env) (h h2 : History) (now : UInt64) (i : SettingsInput)
    (hd : (step (stateAfter E h) now (.upgrade i)).2 = .done)
    (hn : ∀ e ∈ traceFrom (stateAfter E (h ++ [(now, .upgrade i)])) h2, ∀ a k n d, ¬e.LogsIn a k n d)
    (t : UInt64) (cert : Option Bytes) (addr key : Bytes) (exp : UInt64) (d : SignedDelegation) :
    (step (stateAfter E (h ++ (now, .upgrade i) :: h2)) t (.getDelegation cert addr key exp)).2 ≠ .delegation d := by
  intro hr
  have hdec := C52_decision E (h ++ (now, .upgrade i) :: h2) t cert addr key exp
  rw [hr] at hdec
  have e1 : stateAfter E (h ++ (now, .upgrade i) :: h2) = (run (stateAfter E (h ++ [(now, .upgrade i)])) h2).1 := by
    rw [show h ++ (now, .upgrade i) :: h2 = (h ++ [(now, .upgrade i)]) ++ h2 by simp]
    exact run_append _ _ _
  cases hdec with
  | success c s sh dh w _ h1 h2 h3 h4 h5 h6 h7 h8 h9 h10 h11 =>
    obtain ⟨x, hx, _⟩ := SigMap.exists_of_not_isExpired (inv_stateAfter E _).sigs h8 h7
    rw [e1] at hx
    rcases entry_origin (inv_stateAfter E (h ++ [(now, .upgrade i)])) _ x hx with ⟨_, g⟩ |
      ⟨s', _, b, e, a, addr', key', nonce, ld, g1, _, g2, _⟩
    · obtain ⟨s, p, hc, he⟩ := upgrade_done (inv_stateAfter E h) hd
      have e2 : stateAfter E (h ++ [(now, .upgrade i)]) = (step (stateAfter E h) now (.upgrade i)).1 := run_snoc _ _ _ _
      rw [e2, he] at g
      simp [SigMap.empty] at g
    · exact hn e (by rw [g1]; simp) _ _ _ _ g2

theorem rng_none_step {E : Env} {st : State E} (hi : Inv st) (hr : st.lib.rng = none) (now : UInt64) (op : Op)
    (hop : ∀ s, op ≠ .rngSeeded s) : (step st now op).1.lib.rng = none := by
  have h := step_case hi now op
  generalize (step st now op).1 = st' at h ⊢
  generalize (step st now op).2 = r at h
  cases h with
  | seeded s => exact absurd rfl (hop s)
  | prepared addr bs g s txt _ _ _ h => rw [hr] at h; cases h
  | found sig addr key nonce bs m txt st'' r' h1 h2 h3 h4 h5 h6 h7 hf => cases hf <;> exact hr
  | installed => rfl
  | upgraded => rfl
  | _ => exact hr

/-- C46: after an upgrade (and after an installation) `siwe_prepare_login` traps for every valid address until randomness
has arrived. -/
theorem C46_prepare_waits_for_randomness (E : Env) (h h2 : History) (now : UInt64) (i : SettingsInput) (op : Op)
    (hop : op = .install i ∨ op = .upgrade i) (hd : (step (stateAfter E h) now op).2 = .done)
    (hn : ∀ x ∈ h2, ∀ seed, x.2 ≠ .rngSeeded seed) (t : UInt64) (addr : Bytes) (ha : IsAddress E.keccak addr) :
    (step (stateAfter E (h ++ (now, op) :: h2)) t (.prepareLogin addr)).2 = .trap := by
  have key : (stateAfter E (h ++ (now, op) :: h2)).lib.rng = none := by
    have e1 : stateAfter E (h ++ (now, op) :: h2) = (run (step (stateAfter E h) now op).1 h2).1 := by
      rw [show h ++ (now, op) :: h2 = (h ++ [(now, op)]) ++ h2 by simp]
      show (run (State.fresh E) _).1 = _
      rw [run_append, run_snoc]; rfl
    rw [e1]
    have h0 : (step (stateAfter E h) now op).1.lib.rng = none := by
      have hc := step_case (inv_stateAfter E h) now op
      rw [hd] at hc
      generalize (step (stateAfter E h) now op).1 = st' at hc ⊢
      rcases hop with rfl | rfl <;> cases hc <;> rfl
    have hi := inv_step (inv_stateAfter E h) now op
    clear e1
    generalize (step (stateAfter E h) now op).1 = st at h0 hi ⊢
    induction h2 generalizing st with
    | nil => exact h0
    | cons x h2 ih =>
      obtain ⟨t', op'⟩ := x
      exact ih (fun y hy => hn y (List.mem_cons_of_mem _ hy)) _
        (rng_none_step hi h0 t' op' (hn (t', op') List.mem_cons_self)) (inv_step hi t' op')
  have hc := step_case (inv_stateAfter E (h ++ (now, op) :: h2)) t (.prepareLogin addr)
  generalize (step (stateAfter E (h ++ (now, op) :: h2)) t (.prepareLogin addr)).1 = st' at hc
  generalize (step (stateAfter E (h ++ (now, op) :: h2)) t (.prepareLogin addr)).2 = r at hc ⊢
  cases hc with
  | badPrepare _ _ g => exact absurd ha g
  | notReady => rfl
  | prepared _ _ _ _ _ _ _ _ g => rw [key] at g; cases g

/-- Non-vacuity: the second address had prepared and the first logged in before the upgrade; then nothing of it works. -/
example :
    (step (stateAfter Toy.env Ex.loggedIn) 150 (.upgrade Ex.input)).2 = .done ∧
    (step (stateAfter Toy.env Ex.loggedIn) 160 (.login Ex.bobSig Ex.bob Ex.key (Ex.nonce 4))).2 ≠
      .err (.login .messageNotFound) ∧
    (step (stateAfter Toy.env (Ex.loggedIn ++ [(150, .upgrade Ex.input)])) 160
      (.login Ex.bobSig Ex.bob Ex.key (Ex.nonce 4))).2 = .err (.login .messageNotFound) ∧
    (step (stateAfter Toy.env (Ex.loggedIn ++ [(150, .upgrade Ex.input)])) 160
      (.getDelegation (some [7]) Ex.alice Ex.key Ex.expiration)).2 = .err (.delegation .signatureNotFound) ∧
    (step (stateAfter Toy.env (Ex.loggedIn ++ [(150, .upgrade Ex.input)])) 160 (.prepareLogin Ex.alice)).2 = .trap ∧
    (match (step (stateAfter Toy.env (Ex.loggedIn ++ [(150, .upgrade Ex.input), (155, .rngSeeded [1])])) 160
      (.prepareLogin Ex.alice)).2 with | .prepared _ => true | _ => false) = true := by
  decide +kernel

/-! ### C47 -/

/-- The methods declared as queries. -/
inductive IsQuery : Op → Prop
  | getDelegation (c : Option Bytes) (a k : Bytes) (e : UInt64) : IsQuery (.getDelegation c a k e)
  | getAddress (p : Bytes) : IsQuery (.getAddress p)
  | getCallerAddress (c : Bytes) : IsQuery (.getCallerAddress c)
  | getPrincipal (a : Bytes) : IsQuery (.getPrincipal a)

theorem query_state {E : Env} (st : State E) (now : UInt64) {op : Op} (hq : IsQuery op) : (step st now op).1 = st := by
  cases hq <;> rfl

theorem trap_state {E : Env} (st : State E) (now : UInt64) (op : Op) (ht : (step st now op).2 = .trap) :
    (step st now op).1 = st := by
  cases op with
  | install i =>
    simp only [step, commitInit] at ht ⊢
    split
    · next h => rw [h] at ht; cases ht
    · next e _ => exact nomatch e
    · rfl
  | upgrade i =>
    simp only [step, commitInit] at ht ⊢
    split
    · next h => rw [h] at ht; cases ht
    · next e _ => exact nomatch e
    · rfl
  | rngSeeded s => cases ht
  | prepareLogin a =>
    simp only [step, commit] at ht ⊢
    cases h : (siwePrepareLogin st now a).2 with
    | panic => rfl
    | ok x => rw [h] at ht; cases ht
    | err x => rw [h] at ht; cases ht
  | login sig a k n =>
    simp only [step, commit] at ht ⊢
    cases h : (siweLogin st now sig a k n).2 with
    | panic => rfl
    | ok x => rw [h] at ht; cases ht
    | err x => rw [h] at ht; cases ht
  | getDelegation => rfl
  | getAddress => rfl
  | getCallerAddress => rfl
  | getPrincipal => rfl

/-- C47: a query leaves no trace: taking it out of a history changes no other reply and not the state reached. -/
theorem C47_queries_invisible (E : Env) (h h2 : History) (now : UInt64) (op : Op) (hq : IsQuery op) :
    stateAfter E (h ++ (now, op) :: h2) = stateAfter E (h ++ h2) ∧
    ∃ e : Event, e.call = op ∧ trace E (h ++ (now, op) :: h2) = trace E h ++ e :: (trace E (h ++ h2)).drop (trace E h).length := by
  have e1 : (step (run (State.fresh E) h).1 now op).1 = (run (State.fresh E) h).1 := query_state _ now hq
  constructor
  · show (run _ _).1 = (run _ _).1
    rw [run_append, run_append]
    show (run (step (run (State.fresh E) h).1 now op).1 h2).1 = _
    rw [e1]
  · refine ⟨⟨now, op, (step (run (State.fresh E) h).1 now op).2⟩, rfl, ?_⟩
    simp only [trace]
    rw [traceFrom_append, traceFrom_append, List.drop_left]
    show _ ++ (_ :: traceFrom (step (run (State.fresh E) h).1 now op).1 h2) = _
    rw [e1]

/-- C47: so does a call that traps, whichever it is. -/
theorem C47_traps_invisible (E : Env) (h h2 : History) (now : UInt64) (op : Op) (ht : (step (stateAfter E h) now op).2 = .trap) :
    stateAfter E (h ++ (now, op) :: h2) = stateAfter E (h ++ h2) ∧
    ∃ e : Event, e.call = op ∧ e.reply = .trap ∧
      trace E (h ++ (now, op) :: h2) = trace E h ++ e :: (trace E (h ++ h2)).drop (trace E h).length := by
  have e1 : (step (run (State.fresh E) h).1 now op).1 = (run (State.fresh E) h).1 := trap_state _ now op ht
  constructor
  · show (run _ _).1 = (run _ _).1
    rw [run_append, run_append]
    show (run (step (run (State.fresh E) h).1 now op).1 h2).1 = _
    rw [e1]
  · refine ⟨⟨now, op, (step (run (State.fresh E) h).1 now op).2⟩, rfl, ht, ?_⟩
    simp only [trace]
    rw [traceFrom_append, traceFrom_append, List.drop_left]
    show _ ++ (_ :: traceFrom (step (run (State.fresh E) h).1 now op).1 h2) = _
    rw [e1]

/-- C47: exactly which calls trap: a rejected installation or upgrade; `siwe_prepare_login` of a valid address before settings and
randomness are there; `siwe_get_delegation` called without a certificate, or of a valid address before installation. -/
theorem C47_when_it_traps (E : Env) (h : History) (now : UInt64) (op : Op) :
    (step (stateAfter E h) now op).2 = .trap ↔
    (∃ i, (op = .install i ∨ op = .upgrade i) ∧ ¬∃ s p, Configures E i s p ∧ ValidSettings E s) ∨
    (∃ addr, op = .prepareLogin addr ∧ IsAddress E.keccak addr ∧
      ((¬∃ seed since, SeededWith (trace E h) seed since) ∨ ¬∃ s p, InForce E (trace E h) s p)) ∨
    (∃ cert addr key exp, op = .getDelegation cert addr key exp ∧
      (cert = none ∨ IsAddress E.keccak addr ∧ ¬∃ s p, InForce E (trace E h) s p)) := by
  rw [← rng_ready, ← settings_ready]
  constructor
  swap
  · rintro (⟨i, rfl | rfl, h1⟩ | ⟨addr, rfl, h1, h2⟩ | ⟨cert, addr, key, exp, rfl, h1⟩)
    · have h2 : (step (stateAfter E h) now (.install i)).2 ≠ .done := fun hd =>
        h1 (by obtain ⟨s, p, g1, g2, _⟩ := (C42_install _ _ now i).mp (Prod.ext rfl hd); exact ⟨s, p, g1, g2⟩)
      rw [C42_otherwise_trap _ now i _ (.inl rfl) h2]
    · have h2 : (step (stateAfter E h) now (.upgrade i)).2 ≠ .done := fun hd =>
        h1 (by obtain ⟨s, p, g1, g2, _⟩ := (C42_upgrade _ _ now i).mp (Prod.ext rfl hd); exact ⟨s, p, g1, g2⟩)
      rw [C42_otherwise_trap _ now i _ (.inr rfl) h2]
    · have hc := step_case (inv_stateAfter E h) now (.prepareLogin addr)
      generalize (step (stateAfter E h) now (.prepareLogin addr)).1 = st' at hc
      generalize (step (stateAfter E h) now (.prepareLogin addr)).2 = r at hc
      cases hc with
      | badPrepare _ _ g => exact absurd h1 g
      | notReady => rfl
      | prepared _ _ _ _ _ _ _ _ g1 g2 => rcases h2 with h2 | h2 <;> simp [h2] at g1 g2
    · have hd := C52_decision E h now cert addr key exp
      generalize (step (stateAfter E h) now (.getDelegation cert addr key exp)).2 = r at hd
      rcases h1 with rfl | ⟨h1, h2⟩
      · cases hd; rfl
      · cases hd with
        | noCertificate => rfl
        | notInstalled => rfl
        | badAddress _ e g =>
          have := (ethAddress_new_ok_iff E addr ⟨addr⟩).mpr ⟨h1, rfl⟩
          rw [(addressError_iff E addr e).mpr g] at this
          cases this
        | badKey _ _ _ _ g => rw [h2] at g; cases g
        | zero _ _ _ g => rw [h2] at g; cases g
        | expired _ _ _ _ _ g => rw [h2] at g; cases g
        | notFound _ _ _ _ _ g => rw [h2] at g; cases g
        | success _ _ _ _ _ _ _ g => rw [h2] at g; cases g
  intro ht
  have hi := inv_stateAfter E h
  have hc := step_case hi now op
  cases op with
  | install i =>
    refine .inl ⟨i, .inl rfl, fun ⟨s, p, g1, g2⟩ => ?_⟩
    rw [(C42_install (stateAfter E h) _ now i).mpr ⟨s, p, g1, g2, rfl⟩] at ht
    cases ht
  | upgrade i =>
    refine .inl ⟨i, .inr rfl, fun ⟨s, p, g1, g2⟩ => ?_⟩
    rw [(C42_upgrade (stateAfter E h) _ now i).mpr ⟨s, p, g1, g2, rfl⟩] at ht
    cases ht
  | rngSeeded s => cases ht
  | prepareLogin a =>
    rw [ht] at hc
    generalize (step (stateAfter E h) now (.prepareLogin a)).1 = st' at hc
    cases hc with
    | notReady _ h1 h2 => exact .inr (.inl ⟨a, rfl, h1, h2⟩)
  | login sig a k n =>
    have := C14_decision E h now sig a k n
    rw [ht] at this
    cases this
  | getDelegation c a k e =>
    have := C52_decision E h now c a k e
    rw [ht] at this
    cases this with
    | noCertificate => exact .inr (.inr ⟨_, _, _, _, rfl, .inl rfl⟩)
    | notInstalled c h1 h2 => exact .inr (.inr ⟨_, _, _, _, rfl, .inr ⟨h1, h2⟩⟩)
  | getAddress p =>
    exfalso
    simp only [step, getAddress] at ht
    split at ht
    · cases ht
    · split at ht
      · cases ht
      · split at ht
        · cases ht
        · next bs hb =>
          rw [(convert_bytes E (show bs.length ≤ 32 by rw [mapped_length hb]; omega)).1] at ht; cases ht
  | getCallerAddress p =>
    exfalso
    rw [getCallerAddress_eq] at ht
    simp only [step, getAddress] at ht
    split at ht
    · cases ht
    · split at ht
      · cases ht
      · split at ht
        · cases ht
        · next bs hb =>
          rw [(convert_bytes E (show bs.length ≤ 32 by rw [mapped_length hb]; omega)).1] at ht; cases ht
  | getPrincipal a =>
    exfalso
    simp only [step, getPrincipal] at ht
    split at ht
    · cases ht
    · cases hx : EthAddress.new E a with
      | panic => exact absurd hx (ethAddress_new_no_panic E a)
      | err e => rw [hx] at ht; cases ht
      | ok x =>
        obtain ⟨hA, ea⟩ := (ethAddress_new_ok_iff E a x).mp hx
        have ea : x = ⟨a⟩ := by cases x; simp at ea; rw [ea]
        subst ea
        obtain ⟨ds, bs, e0, _, sp, _, _, hb⟩ := isAddress_bytes hA
        rw [hx] at ht
        simp only [Res.mapErr_ok, Res.ok_bind, hb, Res.unwrap_ok] at ht
        cases hl : (stateAfter E h).addressPrincipal.lookup bs <;> rw [hl] at ht <;> cases ht

/-- Non-vacuity: a trapping call between others, and a query between others. -/
example : IsQuery (.getPrincipal Ex.alice) ∧
    (step (stateAfter Toy.env [(1, .install Ex.input)]) 2 (.prepareLogin Ex.alice)).2 = .trap ∧
    (step (stateAfter Toy.env Ex.loggedIn) 2 (.upgrade { Ex.input with salt := [] })).2 = .trap :=
  ⟨.getPrincipal _, by decide +kernel, by decide +kernel⟩

end Siwe
