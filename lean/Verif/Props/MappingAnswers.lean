import Verif.Spec.MappingAnswers
import Verif.Props.Mappings
/- Property C72: what the mapping queries answer, in every state. -/
namespace Siwe
open Spec

theorem lastCounted_snoc {counts : List Event → Event → Prop} (es : List Event) (x : Event) (b : List Event) (e : Event) :
    LastCounted counts (es ++ [x]) b e ↔
      (b = es ∧ e = x ∧ counts es x) ∨ (¬x.Installs ∧ ¬counts es x ∧ LastCounted counts es b e) := by
  constructor
  · rintro ⟨after, h1, h2, h3, h4⟩
    rcases List.eq_nil_or_concat after with rfl | ⟨a, y, rfl⟩
    · obtain ⟨rfl, h⟩ := List.append_inj' h1 rfl
      cases h
      exact .inl ⟨rfl, rfl, h2⟩
    · rw [List.concat_eq_append, ← List.cons_append, ← List.append_assoc] at h1
      obtain ⟨rfl, h⟩ := List.append_inj' h1 rfl
      cases h
      refine .inr ⟨h3 x (by simp), h4 a x [] (by simp), a, rfl, h2, fun y hy => h3 y (by simp [hy]), ?_⟩
      intro b' e' r hr
      exact h4 b' e' (r ++ [x]) (by simp [hr])
  · rintro (⟨rfl, rfl, h⟩ | ⟨h1, h2, after, rfl, h3, h4, h5⟩)
    · exact ⟨[], rfl, h, fun y hy => (by cases hy), fun _ _ _ h => absurd h (by simp)⟩
    · refine ⟨after ++ [x], by simp, h3, ?_, ?_⟩
      · intro y hy
        rcases List.mem_append.mp hy with hy | hy
        · exact h4 y hy
        · rw [List.mem_singleton] at hy; rwa [hy]
      · intro b' e' r hr
        rcases List.eq_nil_or_concat r with rfl | ⟨r', y, rfl⟩
        · obtain ⟨rfl, h⟩ := List.append_inj' hr rfl
          cases h
          exact h2
        · rw [List.concat_eq_append, ← List.cons_append, ← List.append_assoc] at hr
          obtain ⟨rfl, h⟩ := List.append_inj' hr rfl
          exact h5 b' e' r' rfl

theorem hasFeature_iff {E : Env} (h : History) :
    (HasFeature (trace E h) .disablePrincipalToEthMapping ↔ (stateAfter E h).settings.disablePrincipalToEthMapping = true) ∧
    (HasFeature (trace E h) .disableEthToPrincipalMapping ↔ (stateAfter E h).settings.disableEthToPrincipalMapping = true) := by
  refine ⟨⟨?_, ?_⟩, ⟨?_, ?_⟩⟩
  · rintro ⟨i, hi, hf⟩
    obtain ⟨s, p, c1, _, c3⟩ := lastArgument_state hi
    rw [c3]; exact c1.principalToEth.mpr hf
  · intro hd
    cases hs : (stateAfter E h).lib.settings with
    | none => rw [(no_settings_flags hs).2] at hd; cases hd
    | some s =>
      obtain ⟨b, e, a, j, g1, g2, g3, g4, g5⟩ := settings_inForce hs
      exact ⟨j, ⟨b, e, a, g1, g2, g3, g4⟩, g5.principalToEth.mp hd⟩
  · rintro ⟨i, hi, hf⟩
    obtain ⟨s, p, c1, _, c3⟩ := lastArgument_state hi
    rw [c3]; exact c1.ethToPrincipal.mpr hf
  · intro hd
    cases hs : (stateAfter E h).lib.settings with
    | none => rw [(no_settings_flags hs).1] at hd; cases hd
    | some s =>
      obtain ⟨b, e, a, j, g1, g2, g3, g4, g5⟩ := settings_inForce hs
      exact ⟨j, ⟨b, e, a, g1, g2, g3, g4⟩, g5.ethToPrincipal.mp hd⟩

theorem not_lastCounted_nil {counts : List Event → Event → Prop} {b : List Event} {e : Event} : ¬LastCounted counts [] b e := by
  rintro ⟨_, h, _⟩; simp at h

/-- The mapping from principals holds the last recorded login. -/
theorem recordedAddress_iff (E : Env) (h : History) (p a : Bytes) : AddressOf E (trace E h) p a ↔
    ∃ bs, (stateAfter E h).principalAddress.lookup p = some bs ∧ IsAddress E.keccak a ∧ Spells (a.drop 2) bs := by
  induction h using history_induction with
  | nil =>
    constructor
    · rintro ⟨_, _, _, _, _, h, _⟩; exact absurd h not_lastCounted_nil
    · rintro ⟨bs, h, _⟩; cases h
  | snoc h now op ih =>
    have e1 : trace E (h ++ [(now, op)]) = trace E h ++ [⟨now, op, (step (stateAfter E h) now op).2⟩] := traceFrom_snoc _ _ _ _
    have e2 : stateAfter E (h ++ [(now, op)]) = (step (stateAfter E h) now op).1 := run_snoc _ _ _ _
    rw [e1, e2]
    have skip : ¬Event.Installs ⟨now, op, (step (stateAfter E h) now op).2⟩ →
        ¬CountsForPrincipal E p (trace E h) ⟨now, op, (step (stateAfter E h) now op).2⟩ →
        (AddressOf E (trace E h ++ [⟨now, op, (step (stateAfter E h) now op).2⟩]) p a ↔ AddressOf E (trace E h) p a) := by
      intro h1 h2
      constructor
      · rintro ⟨b, e, k, n, d, hl, hi⟩
        rcases (lastCounted_snoc _ _ _ _).mp hl with ⟨_, _, h3⟩ | ⟨_, _, h3⟩
        · exact absurd h3 h2
        · exact ⟨b, e, k, n, d, h3, hi⟩
      · rintro ⟨b, e, k, n, d, hl, hi⟩
        exact ⟨b, e, k, n, d, (lastCounted_snoc _ _ _ _).mpr (.inr ⟨h1, h2, hl⟩), hi⟩
    cases mapEffect (inv_stateAfter E h) now op with
    | cleared g0 g1 g2 =>
      rw [g1]
      constructor
      · rintro ⟨b, e, k, n, d, hl, hi⟩
        rcases (lastCounted_snoc _ _ _ _).mp hl with ⟨_, _, _, _, _, _, d', ⟨_, h4⟩, _⟩ | ⟨h3, _, _⟩
        · obtain ⟨_, _, h5⟩ := g0
          rw [h4] at h5; cases h5
        · exact absurd g0 h3
      · rintro ⟨bs, h, _⟩; cases h
    | same g1 g0 g2 g3 =>
      rw [g2, skip g1 ?_, ih]
      rintro ⟨_, _, _, _, d, ⟨_, h4⟩, _⟩
      exact g0 d h4
    | mapped sig addr key nonce bs' d s g1 g2 g3 g4 g5 g6 g7 g8 g9 =>
      have hn : ¬Event.Installs ⟨now, op, (step (stateAfter E h) now op).2⟩ := by simp [Event.Installs, g2]
      have hl : Event.LogsIn ⟨now, op, (step (stateAfter E h) now op).2⟩ addr key nonce d := ⟨⟨sig, g1⟩, g2⟩
      have only : ∀ {a' k' n' d'}, Event.LogsIn ⟨now, op, (step (stateAfter E h) now op).2⟩ a' k' n' d' → a' = addr ∧ d' = d := by
        rintro a' k' n' d' ⟨⟨_, q1⟩, q2⟩
        rw [g1] at q1; rw [g2] at q2
        cases q1; cases q2
        exact ⟨rfl, rfl⟩
      rw [g8]
      cases hd : (stateAfter E h).settings.disablePrincipalToEthMapping with
      | true =>
        rw [if_pos rfl, skip hn, ih]
        rintro ⟨q, _⟩
        exact q ((hasFeature_iff h).1.mpr hd)
      | false =>
        rw [if_neg (by simp), stableMap_lookup_insert]
        have hf : ¬HasFeature (trace E h) .disablePrincipalToEthMapping := fun q => by rw [(hasFeature_iff h).1.mp q] at hd; cases hd
        by_cases hp : p = principalOfKey E d.userCanisterPubkey
        · rw [if_pos hp]
          have hcnt : CountsForPrincipal E p (trace E h) ⟨now, op, (step (stateAfter E h) now op).2⟩ :=
            ⟨hf, addr, key, nonce, d, hl, hp.symm⟩
          constructor
          · rintro ⟨b, e, k', n', d', q1, q2⟩
            rcases (lastCounted_snoc _ _ _ _).mp q1 with ⟨_, rfl, _⟩ | ⟨_, q3, _⟩
            · obtain ⟨rfl, rfl⟩ := only q2
              exact ⟨bs', rfl, g3, g5⟩
            · exact absurd hcnt q3
          · rintro ⟨bs, q1, q2, q3⟩
            cases q1
            rw [addr_of_bytes q2 g3 q3 g5]
            exact ⟨_, _, key, nonce, d, (lastCounted_snoc _ _ _ _).mpr (.inl ⟨rfl, rfl, hcnt⟩), hl⟩
        · rw [if_neg hp, skip hn, ih]
          rintro ⟨_, _, _, _, d', q, q'⟩
          obtain ⟨_, rfl⟩ := only q
          exact hp q'.symm

/-- The mapping from addresses holds the last recorded login. -/
theorem recordedPrincipal_iff (E : Env) (h : History) (a p bs : Bytes) (ha : IsAddress E.keccak a) (hs : Spells (a.drop 2) bs) :
    PrincipalFor E (trace E h) a p ↔ (stateAfter E h).addressPrincipal.lookup bs = some p := by
  induction h using history_induction with
  | nil =>
    constructor
    · rintro ⟨_, _, _, _, _, h, _⟩; exact absurd h not_lastCounted_nil
    · intro h; cases h
  | snoc h now op ih =>
    have e1 : trace E (h ++ [(now, op)]) = trace E h ++ [⟨now, op, (step (stateAfter E h) now op).2⟩] := traceFrom_snoc _ _ _ _
    have e2 : stateAfter E (h ++ [(now, op)]) = (step (stateAfter E h) now op).1 := run_snoc _ _ _ _
    rw [e1, e2]
    have skip : ¬Event.Installs ⟨now, op, (step (stateAfter E h) now op).2⟩ →
        ¬CountsForAddress a (trace E h) ⟨now, op, (step (stateAfter E h) now op).2⟩ →
        (PrincipalFor E (trace E h ++ [⟨now, op, (step (stateAfter E h) now op).2⟩]) a p ↔ PrincipalFor E (trace E h) a p) := by
      intro h1 h2
      constructor
      · rintro ⟨b, e, k, n, d, hl, hi⟩
        rcases (lastCounted_snoc _ _ _ _).mp hl with ⟨_, _, h3⟩ | ⟨_, _, h3⟩
        · exact absurd h3 h2
        · exact ⟨b, e, k, n, d, h3, hi⟩
      · rintro ⟨b, e, k, n, d, hl, hi⟩
        exact ⟨b, e, k, n, d, (lastCounted_snoc _ _ _ _).mpr (.inr ⟨h1, h2, hl⟩), hi⟩
    cases mapEffect (inv_stateAfter E h) now op with
    | cleared g0 g1 g2 =>
      rw [g2]
      constructor
      · rintro ⟨b, e, k, n, d, hl, hi⟩
        rcases (lastCounted_snoc _ _ _ _).mp hl with ⟨_, _, _, _, _, d', ⟨_, h4⟩⟩ | ⟨h3, _, _⟩
        · obtain ⟨_, _, h5⟩ := g0
          rw [h4] at h5; cases h5
        · exact absurd g0 h3
      · intro h; cases h
    | same g1 g0 g2 g3 =>
      rw [g3, skip g1 ?_, ih]
      rintro ⟨_, _, _, d, ⟨_, h4⟩⟩
      exact g0 d h4
    | mapped sig addr key nonce bs' d s g1 g2 g3 g4 g5 g6 g7 g8 g9 =>
      have hn : ¬Event.Installs ⟨now, op, (step (stateAfter E h) now op).2⟩ := by simp [Event.Installs, g2]
      have hl : Event.LogsIn ⟨now, op, (step (stateAfter E h) now op).2⟩ addr key nonce d := ⟨⟨sig, g1⟩, g2⟩
      have only : ∀ {a' k' n' d'}, Event.LogsIn ⟨now, op, (step (stateAfter E h) now op).2⟩ a' k' n' d' → a' = addr ∧ d' = d := by
        rintro a' k' n' d' ⟨⟨_, q1⟩, q2⟩
        rw [g1] at q1; rw [g2] at q2
        cases q1; cases q2
        exact ⟨rfl, rfl⟩
      rw [g9]
      cases hd : (stateAfter E h).settings.disableEthToPrincipalMapping with
      | true =>
        rw [if_pos rfl, skip hn, ih]
        rintro ⟨q, _⟩
        exact q ((hasFeature_iff h).2.mpr hd)
      | false =>
        rw [if_neg (by simp), stableMap_lookup_insert]
        have hf : ¬HasFeature (trace E h) .disableEthToPrincipalMapping := fun q => by rw [(hasFeature_iff h).2.mp q] at hd; cases hd
        by_cases hp : bs = bs'
        · subst hp
          obtain rfl := addr_of_bytes ha g3 hs g5
          rw [if_pos rfl]
          have hcnt : CountsForAddress a (trace E h) ⟨now, op, (step (stateAfter E h) now op).2⟩ := ⟨hf, key, nonce, d, hl⟩
          constructor
          · rintro ⟨b, e, k', n', d', q1, q2, q3⟩
            rcases (lastCounted_snoc _ _ _ _).mp q1 with ⟨_, rfl, _⟩ | ⟨_, q4, _⟩
            · obtain ⟨_, rfl⟩ := only q2
              rw [q3]
            · exact absurd hcnt q4
          · intro q1
            exact ⟨_, _, key, nonce, d, (lastCounted_snoc _ _ _ _).mpr (.inl ⟨rfl, rfl, hcnt⟩), hl, Option.some.inj q1⟩
        · rw [if_neg hp, skip hn, ih]
          rintro ⟨_, _, _, d', q⟩
          obtain ⟨rfl, _⟩ := only q
          exact hp (spells_unique hs g5)

/-! ### C72 -/

/-- C72: what `get_address` answers, in every state. -/
theorem C72_get_address (E : Env) (h : History) (now : UInt64) (p : Bytes) :
    AddressAnswer E (trace E h) p (step (stateAfter E h) now (.getAddress p)).2 := by
  have hb := getAddress_reply (stateAfter E h) now p
  cases hd : (stateAfter E h).settings.disablePrincipalToEthMapping with
  | true =>
    have : (step (stateAfter E h) now (.getAddress p)).2 = .err .principalToEthDisabled := by
      simp only [step, getAddress, hd, if_true, reply]
    rw [this]
    exact .disabled ((hasFeature_iff h).1.mpr hd)
  | false =>
    have hf : ¬HasFeature (trace E h) .disablePrincipalToEthMapping := fun q => by rw [(hasFeature_iff h).1.mp q] at hd; cases hd
    by_cases hl : p.length > 29
    · have : (step (stateAfter E h) now (.getAddress p)).2 = .err .notABlob := by
        simp only [step, getAddress, hd, Bool.false_eq_true, if_false, if_pos hl, reply]
      rw [this]
      exact .tooLong hf hl
    · cases hm : (stateAfter E h).principalAddress.lookup p with
      | none =>
        have : (step (stateAfter E h) now (.getAddress p)).2 = .err .noAddress := by
          simp only [step, getAddress, hd, Bool.false_eq_true, if_false, if_neg hl, hm, reply]
        rw [this]
        refine .none hf (Nat.le_of_not_lt hl) fun a q => ?_
        obtain ⟨bs, q1, _⟩ := (recordedAddress_iff E h p a).mp q
        rw [hm] at q1; cases q1
      | some bs =>
        obtain ⟨b, e, af, addr, key, nonce, ld, g1, g2, g3, g4, g5, g6, g7⟩ := mapping_origin E h p bs (.inl hm)
        rw [(hb addr fun q bs hq => mapped_length hq).mpr ⟨hd, Nat.le_of_not_lt hl, bs, hm, g4, g6⟩]
        exact .found addr hf ((recordedAddress_iff E h p addr).mpr ⟨bs, hm, g4, g6⟩)

/-- C72: likewise `get_caller_address`, for the caller. -/
theorem C72_get_caller_address (E : Env) (h : History) (now : UInt64) (p : Bytes) :
    AddressAnswer E (trace E h) p (step (stateAfter E h) now (.getCallerAddress p)).2 := by
  rw [getCallerAddress_eq]; exact C72_get_address E h now p

/-- C72: what `get_principal` answers, in every state. -/
theorem C72_get_principal (E : Env) (h : History) (now : UInt64) (a : Bytes) :
    PrincipalAnswer E (trace E h) a (step (stateAfter E h) now (.getPrincipal a)).2 := by
  cases hd : (stateAfter E h).settings.disableEthToPrincipalMapping with
  | true =>
    have : (step (stateAfter E h) now (.getPrincipal a)).2 = .err .ethToPrincipalDisabled := by
      simp only [step, getPrincipal, hd, if_true, reply]
    rw [this]
    exact .disabled ((hasFeature_iff h).2.mpr hd)
  | false =>
    have hf : ¬HasFeature (trace E h) .disableEthToPrincipalMapping := fun q => by rw [(hasFeature_iff h).2.mp q] at hd; cases hd
    cases hn : EthAddress.new E a with
    | panic => exact absurd hn (ethAddress_new_no_panic E a)
    | err e =>
      have : (step (stateAfter E h) now (.getPrincipal a)).2 = .err (.eth e) := by
        simp only [step, getPrincipal, hd, Bool.false_eq_true, if_false, hn, Res.mapErr_err, Res.err_bind, reply]
      rw [this]
      exact .badAddress e hf ((addressError_iff E a e).mp hn)
    | ok x =>
      obtain ⟨ha, ea⟩ := (ethAddress_new_ok_iff E a x).mp hn
      have ea : x = ⟨a⟩ := by cases x; simp at ea; rw [ea]
      subst ea
      obtain ⟨ds, bs, e0, _, sp, _, _, hb⟩ := isAddress_bytes ha
      have hs : Spells (a.drop 2) bs := by rw [e0]; simpa using sp
      cases hm : (stateAfter E h).addressPrincipal.lookup bs with
      | some p =>
        rw [(getPrincipal_reply (stateAfter E h) now a p).mpr ⟨hd, ha, bs, hs, hm⟩]
        exact .found p hf ha ((recordedPrincipal_iff E h a p bs ha hs).mpr hm)
      | none =>
        have : (step (stateAfter E h) now (.getPrincipal a)).2 = .err .noPrincipal := by
          simp only [step, getPrincipal, hd, Bool.false_eq_true, if_false, hn, Res.mapErr_ok, Res.ok_bind, hb, Res.unwrap_ok, hm, reply]
        rw [this]
        refine .none hf ha fun p q => ?_
        rw [recordedPrincipal_iff E h a p bs ha hs, hm] at q; cases q

/-- C72: the last recorded login determines the answer: there is only one. -/
theorem C72_unique (E : Env) (h : History) :
    (∀ p a a', AddressOf E (trace E h) p a → AddressOf E (trace E h) p a' → a = a') ∧
    (∀ a p p', IsAddress E.keccak a → PrincipalFor E (trace E h) a p → PrincipalFor E (trace E h) a p' → p = p') := by
  constructor
  · intro p a a' h1 h2
    obtain ⟨bs, q1, q2, q3⟩ := (recordedAddress_iff E h p a).mp h1
    obtain ⟨bs', r1, r2, r3⟩ := (recordedAddress_iff E h p a').mp h2
    rw [q1] at r1; cases r1
    exact addr_of_bytes q2 r2 q3 r3
  · intro a p p' ha h1 h2
    obtain ⟨bs, _, hs⟩ := address_spelled ha
    rw [recordedPrincipal_iff E h a _ bs ha hs] at h1 h2
    rw [h1] at h2; exact Option.some.inj h2

/-- The example's settings with another salt. -/
def Ex.otherSalt : SettingsInput := { Ex.input with salt := ascii "other" }

/-- Alice logs in, the salt is changed, and Alice logs in again. -/
def Ex.twoLogins : History := Ex.loggedIn ++
  [(110, .upgrade Ex.otherSalt), (111, .rngSeeded [1, 2, 3]), (112, .prepareLogin Ex.alice),
   (113, .login Ex.aliceSig Ex.alice Ex.key (Ex.nonce 3))]

/-- Then the principals of addresses are no longer recorded, the salt is changed back, Alice logs in, and recording is enabled again. -/
def Ex.threeLogins : History := Ex.twoLogins ++
  [(120, .upgrade { Ex.input with runtimeFeatures := some [.disableEthToPrincipalMapping] }), (121, .rngSeeded [1, 2, 3]),
   (122, .prepareLogin Ex.alice), (123, .login Ex.aliceSig Ex.alice Ex.key (Ex.nonce 3)), (124, .upgrade Ex.input)]

/-- Non-vacuity: all the answers occur; the last recorded login decides, not an earlier one and not a later one that was not
recorded; both principals keep their address. -/
example :
    (step (stateAfter Toy.env Ex.loggedIn) 200 (.getAddress Ex.alicePrincipal)).2 = .bytes Ex.alice ∧
    (step (stateAfter Toy.env Ex.loggedIn) 200 (.getAddress [4])).2 = .err .noAddress ∧
    (step (stateAfter Toy.env Ex.loggedIn) 200 (.getAddress (List.replicate 30 0))).2 = .err .notABlob ∧
    (step (stateAfter Toy.env Ex.disabled) 200 (.getAddress Ex.alicePrincipal)).2 = .err .principalToEthDisabled ∧
    (step (stateAfter Toy.env Ex.loggedIn) 200 (.getPrincipal Ex.alice)).2 = .bytes Ex.alicePrincipal ∧
    (step (stateAfter Toy.env Ex.loggedIn) 200 (.getPrincipal Ex.bob)).2 = .err .noPrincipal ∧
    (step (stateAfter Toy.env Ex.loggedIn) 200 (.getPrincipal [4])).2 = .err (.eth .addressFormatError) ∧
    (step (stateAfter Toy.env (Ex.threeLogins.take 10)) 200 (.getPrincipal Ex.alice)).2 = .err .ethToPrincipalDisabled ∧
    principalOf Toy.env Ex.otherSalt Ex.alice ≠ Ex.alicePrincipal ∧
    (step (stateAfter Toy.env Ex.twoLogins) 200 (.getPrincipal Ex.alice)).2 = .bytes (principalOf Toy.env Ex.otherSalt Ex.alice) ∧
    (step (stateAfter Toy.env Ex.threeLogins) 200 (.getPrincipal Ex.alice)).2 = .bytes (principalOf Toy.env Ex.otherSalt Ex.alice) ∧
    (step (stateAfter Toy.env Ex.threeLogins) 200 (.getAddress Ex.alicePrincipal)).2 = .bytes Ex.alice ∧
    (step (stateAfter Toy.env Ex.threeLogins) 200 (.getAddress (principalOf Toy.env Ex.otherSalt Ex.alice))).2 = .bytes Ex.alice := by
  decide +kernel

end Siwe
