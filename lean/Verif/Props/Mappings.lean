import Verif.Lemmas.Mappings
import Verif.Props.Identity
import Verif.Examples.Histories
/- Properties C43-C45: the mappings between addresses and principals. -/
namespace Siwe
open Spec

/-! ### C43 -/

theorem mapped_length {E : Env} {h : History} {p bs : Bytes}
    (hx : (stateAfter E h).principalAddress.lookup p = some bs) : bs.length = 20 := by
  obtain ⟨_, _, _, _, _, _, _, _, _, _, _, l, _⟩ := mapping_origin E h p bs (.inl hx)
  exact l

/-- C43: the address `get_address(p)` returns is one that logged in with a key of principal `p`, since the last new
installation (upgrades do not matter). -/
theorem C43_get_address (E : Env) (h : History) (now : UInt64) (p a : Bytes)
    (hr : (step (stateAfter E h) now (.getAddress p)).2 = .bytes a) : SignedInAs E (trace E h) a p := by
  obtain ⟨_, _, bs, hl, hA, hs⟩ := (getAddress_reply _ now p a fun q bs hq => mapped_length hq).mp hr
  obtain ⟨b, e, af, addr, key, nonce, ld, g1, g2, g3, g4, g5, g6, g7⟩ := mapping_origin E h p bs (.inl hl)
  exact ⟨b, e, af, key, nonce, ld, g1, g2, addr_of_bytes g4 hA g6 hs ▸ g3, g7⟩

theorem getCallerAddress_eq {E : Env} (st : State E) (now : UInt64) (p : Bytes) :
    (step st now (.getCallerAddress p)).2 = (step st now (.getAddress p)).2 := by
  simp only [step, getCallerAddress]
  split
  · next h => simp [getAddress, h]
  · rfl

/-- C43: the same for `get_caller_address`, where `p` is the caller. -/
theorem C43_get_caller_address (E : Env) (h : History) (now : UInt64) (p a : Bytes)
    (hr : (step (stateAfter E h) now (.getCallerAddress p)).2 = .bytes a) : SignedInAs E (trace E h) a p :=
  C43_get_address E h now p a (by rwa [getCallerAddress_eq] at hr)

/-- C43: `get_caller_address` answers what `get_address` answers for the caller's principal. -/
theorem C43_caller_is_address (E : Env) (h : History) (now : UInt64) (p : Bytes) :
    (step (stateAfter E h) now (.getCallerAddress p)).2 = (step (stateAfter E h) now (.getAddress p)).2 :=
  getCallerAddress_eq _ _ _

/-- C43: the principal `get_principal(a)` returns is that of a key `a` logged in with since the last new installation. -/
theorem C43_get_principal (E : Env) (h : History) (now : UInt64) (a p : Bytes)
    (hr : (step (stateAfter E h) now (.getPrincipal a)).2 = .bytes p) : SignedInAs E (trace E h) a p := by
  obtain ⟨_, hA, bs, hs, hl⟩ := (getPrincipal_reply _ now a p).mp hr
  obtain ⟨b, e, af, addr, key, nonce, ld, g1, g2, g3, g4, g5, g6, g7⟩ := mapping_origin E h p bs (.inr hl)
  exact ⟨b, e, af, key, nonce, ld, g1, g2, addr_of_bytes g4 hA g6 hs ▸ g3, g7⟩

/-- Alice's principal after the example's login. -/
def Ex.alicePrincipal : Bytes := principalOf Toy.env Ex.input Ex.alice

/-- Non-vacuity: after the login, and still after an upgrade, the queries answer; before it they do not. -/
example :
    (step (stateAfter Toy.env Ex.loggedIn) 200 (.getAddress Ex.alicePrincipal)).2 = .bytes Ex.alice ∧
    (step (stateAfter Toy.env Ex.loggedIn) 200 (.getCallerAddress Ex.alicePrincipal)).2 = .bytes Ex.alice ∧
    (step (stateAfter Toy.env Ex.loggedIn) 200 (.getPrincipal Ex.alice)).2 = .bytes Ex.alicePrincipal ∧
    (step (stateAfter Toy.env (Ex.loggedIn ++ [(150, .upgrade Ex.input)])) 200 (.getPrincipal Ex.alice)).2 =
      .bytes Ex.alicePrincipal ∧
    (step (stateAfter Toy.env Ex.prepared) 200 (.getPrincipal Ex.alice)).2 = .err .noPrincipal ∧
    (step (stateAfter Toy.env (Ex.loggedIn ++ [(150, .install Ex.input)])) 200 (.getPrincipal Ex.alice)).2 =
      .err .noPrincipal := by
  decide +kernel

/-! ### C44 -/

theorem principalOf_inj {E : Env} {i : SettingsInput} {a a' : Bytes} (ha : IsAddress E.keccak a) (ha' : IsAddress E.keccak a')
    (h : principalOf E i a = principalOf E i a') : a = a' ∨ IdentityCollision E i a a' := by
  by_cases hk : keyOf E i a = keyOf E i a'
  · obtain ⟨_, hs⟩ := C25_key_injective _ _ _ _ E.canisterId_len E.canisterId_len (Hash.len _) (Hash.len _) hk
    by_cases hi : identityOf i a = identityOf i a'
    · left
      exact identityString_address_inj ((address_length ha).trans (address_length ha').symm) hi
    · exact .inr (.inl ⟨hi, Hash.ext' hs⟩)
  · right; right
    refine ⟨hk, ?_⟩
    simp only [principalOf, principalOfKey, List.append_cancel_right_eq] at h
    generalize E.sha224 (keyOf E i a) = x at h ⊢
    generalize E.sha224 (keyOf E i a') = y at h ⊢
    cases x; cases y; simp_all

theorem steady_settings {E : Env} {i : SettingsInput} {h : History} (hs : Steady i (trace E h)) {s : Settings}
    (hset : (stateAfter E h).lib.settings = some s) :
    (stateAfter E h).settings.disableEthToPrincipalMapping = false ∧
    (stateAfter E h).settings.disablePrincipalToEthMapping = false ∧ ∀ a, userKey E s ⟨a⟩ = keyOf E i a := by
  obtain ⟨b, e, a, j, g1, g2, g3, g4, g5⟩ := settings_inForce hset
  obtain ⟨k1, k2, k3⟩ := hs e (by rw [g1]; simp) j g3 g4
  refine ⟨?_, ?_, fun x => ?_⟩
  · exact Bool.eq_false_iff.mpr fun z => k2 (g5.ethToPrincipal.mp z)
  · exact Bool.eq_false_iff.mpr fun z => k3 (g5.principalToEth.mp z)
  · rw [seed_identityOf g5]; unfold keyOf; rw [k1 x]

theorem steady_maps {E : Env} {i : SettingsInput} (h : History) (hs : Steady i (trace E h)) :
    LoginsCollide E i (trace E h) ∨
    ((∀ p bs, (stateAfter E h).principalAddress.lookup p = some bs ↔ (stateAfter E h).addressPrincipal.lookup bs = some p) ∧
      ∀ p bs, (stateAfter E h).addressPrincipal.lookup bs = some p →
        ∃ e ∈ trace E h, ∃ a k n d, e.LogsIn a k n d ∧ IsAddress E.keccak a ∧ Spells (a.drop 2) bs ∧ p = principalOf E i a) := by
  induction h using history_induction with
  | nil =>
    exact .inr ⟨fun p bs => ⟨fun hx => (by cases hx), fun hx => (by cases hx)⟩, fun p bs hx => (by cases hx)⟩
  | snoc h now op ih =>
    have e1 : trace E (h ++ [(now, op)]) = trace E h ++ [⟨now, op, (step (stateAfter E h) now op).2⟩] := traceFrom_snoc _ _ _ _
    have e2 : stateAfter E (h ++ [(now, op)]) = (step (stateAfter E h) now op).1 := run_snoc _ _ _ _
    rw [e1] at hs ⊢
    rw [e2]
    have hsub : ∀ x ∈ trace E h, x ∈ trace E h ++ [⟨now, op, (step (stateAfter E h) now op).2⟩] :=
      fun x hx => List.mem_append_left _ hx
    have hs' : Steady i (trace E h) := fun x hx => hs x (hsub x hx)
    rcases ih hs' with ⟨x, hx, y, hy, hc⟩ | ⟨hiff, horg⟩
    · exact .inl ⟨x, hsub x hx, y, hsub y hy, hc⟩
    have horg' : ∀ p bs, (stateAfter E h).addressPrincipal.lookup bs = some p →
        ∃ e ∈ trace E h ++ [⟨now, op, (step (stateAfter E h) now op).2⟩], ∃ a k n d, e.LogsIn a k n d ∧ IsAddress E.keccak a ∧
          Spells (a.drop 2) bs ∧ p = principalOf E i a := by
      intro p bs hx
      obtain ⟨x, hx, hr⟩ := horg p bs hx
      exact ⟨x, hsub x hx, hr⟩
    cases mapEffect (inv_stateAfter E h) now op with
    | cleared _ g1 g2 =>
      right
      rw [g1, g2]
      exact ⟨fun p bs => ⟨fun hx => (by cases hx), fun hx => (by cases hx)⟩, fun p bs hx => (by cases hx)⟩
    | same _ _ g1 g2 => right; rw [g1, g2]; exact ⟨hiff, horg'⟩
    | mapped sig addr key nonce b d s g1 g2 g3 g4 g5 g6 g7 g8 g9 =>
      obtain ⟨f1, f2, f3⟩ := steady_settings hs' g6
      have hnew : Event.LogsIn ⟨now, op, (step (stateAfter E h) now op).2⟩ addr key nonce d := ⟨⟨sig, g1⟩, g2⟩
      have hmem : (⟨now, op, (step (stateAfter E h) now op).2⟩ : Event) ∈
          trace E h ++ [⟨now, op, (step (stateAfter E h) now op).2⟩] := by simp
      have hP : principalOfKey E d.userCanisterPubkey = principalOf E i addr := by rw [g7, f3]; rfl
      rw [f2, hP] at g8; rw [f1, hP] at g9
      simp only [Bool.false_eq_true, if_false] at g8 g9
      rw [g8, g9]
      by_cases hcol : LoginsCollide E i (trace E h ++ [⟨now, op, (step (stateAfter E h) now op).2⟩])
      · exact .inl hcol
      right
      constructor
      · intro p bs
        rw [stableMap_lookup_insert, stableMap_lookup_insert]
        by_cases hp : p = principalOf E i addr
        · by_cases hb : bs = b
          · simp [hp, hb]
          · rw [if_pos hp, if_neg hb]
            constructor
            · intro z; exact absurd (Option.some.inj z).symm hb
            · intro z
              obtain ⟨x, hx, a', k', n', d', q1, q2, q3, q4⟩ := horg p bs z
              rcases principalOf_inj (i := i) q2 g3 (q4.symm.trans hp) with rfl | hc
              · exact absurd (spells_unique q3 g5) hb
              · exact absurd ⟨x, hsub x hx, _, hmem, a', addr, k', key, n', nonce, d', d, q1, hnew, hc⟩ hcol
        · by_cases hb : bs = b
          · subst hb
            rw [if_neg hp, if_pos rfl]
            constructor
            · intro z
              obtain ⟨x, hx, a', k', n', d', q1, q2, q3, q4⟩ := horg p bs ((hiff p bs).mp z)
              exact absurd (addr_of_bytes q2 g3 q3 g5 ▸ q4) hp
            · intro z; exact absurd (Option.some.inj z).symm hp
          · rw [if_neg hp, if_neg hb]; exact hiff p bs
      · intro p bs hx
        rw [stableMap_lookup_insert] at hx
        split at hx
        · next hb =>
          subst hb
          exact ⟨_, hmem, addr, key, nonce, d, hnew, g3, g5, (Option.some.inj hx).symm⟩
        · exact horg' p bs hx

/-- C44: if no installation or upgrade changed how identities are derived or disabled a mapping, the two queries are each
other's inverse, or two addresses that logged in exhibit a hash collision. -/
theorem C44_one_to_one (E : Env) (i : SettingsInput) (h : History) (hs : Steady i (trace E h)) :
    (∀ now now' a p, (step (stateAfter E h) now (.getPrincipal a)).2 = .bytes p ↔
      (step (stateAfter E h) now' (.getAddress p)).2 = .bytes a) ∨ LoginsCollide E i (trace E h) := by
  rcases steady_maps h hs with hc | ⟨hiff, horg⟩
  · exact .inr hc
  left
  intro now now' a p
  rw [getPrincipal_reply, getAddress_reply _ _ _ _ fun q bs hq => mapped_length hq]
  have flags : ∀ bs, (stateAfter E h).addressPrincipal.lookup bs = some p →
      (stateAfter E h).settings.disableEthToPrincipalMapping = false ∧
      (stateAfter E h).settings.disablePrincipalToEthMapping = false := by
    intro bs hx
    cases hset : (stateAfter E h).lib.settings with
    | some s => exact ⟨(steady_settings hs hset).1, (steady_settings hs hset).2.1⟩
    | none => exact no_settings_flags hset
  constructor
  · rintro ⟨_, hA, bs, sp, hl⟩
    obtain ⟨_, _, a', _, _, _, _, _, _, hp⟩ := horg p bs hl
    exact ⟨(flags bs hl).2, by rw [hp]; simp [principalOf, principalOfKey, Hash28.len], bs, (hiff p bs).mpr hl, hA, sp⟩
  · rintro ⟨_, _, bs, hl, hA, sp⟩
    exact ⟨(flags bs ((hiff p bs).mp hl)).1, hA, bs, sp, (hiff p bs).mp hl⟩

/-- C44: and the principal is the one determined by the configuration and the address. -/
theorem C44_principal_determined (E : Env) (i : SettingsInput) (h : History) (hs : Steady i (trace E h)) (now : UInt64)
    (a p : Bytes) (hr : (step (stateAfter E h) now (.getPrincipal a)).2 = .bytes p) : p = principalOf E i a := by
  obtain ⟨b, e, af, key, nonce, ld, g1, g2, g3, g4⟩ := C43_get_principal E h now a p hr
  obtain ⟨h1, h2, e1, e2, e3, e4⟩ := traceFrom_split g1
  subst e2
  have hi := inv_stateAfter E h1
  obtain ⟨⟨sig, c1⟩, c2⟩ := g3
  have := mapEffect hi e.time e.call
  have e3' : e.reply = (step (stateAfter E h1) e.time e.call).2 := e3
  rw [← e3', c2, c1] at this
  cases this with
  | cleared q _ _ => obtain ⟨_, q, _⟩ := q; cases q
  | same _ q _ _ => exact absurd rfl (q ld)
  | mapped sig' addr' key' nonce' bs d s q1 q2 q3 q4 q5 q6 q7 q8 q9 =>
    cases q1; cases q2
    have hs1 : Steady i (trace E h1) := fun x hx => hs x (by rw [g1]; exact List.mem_append_left _ hx)
    rw [← g4, q7, (steady_settings hs1 q6).2.2]; rfl

/-- C44: right after a login (with both mappings kept), the queries answer with the login's pair, whatever happened before. -/
theorem C44_after_login (E : Env) (h : History) (i : SettingsInput) (hk : LastArgument (trace E h) i) (now : UInt64)
    (sig addr key nonce : Bytes) (d : LoginDetails)
    (hr : (step (stateAfter E h) now (.login sig addr key nonce)).2 = .loggedIn d) (now' : UInt64) :
    (.disablePrincipalToEthMapping ∉ i.runtimeFeatures.getD [] →
      (step (stateAfter E (h ++ [(now, .login sig addr key nonce)])) now'
        (.getAddress (principalOfKey E d.userCanisterPubkey))).2 = .bytes addr) ∧
    (.disableEthToPrincipalMapping ∉ i.runtimeFeatures.getD [] →
      (step (stateAfter E (h ++ [(now, .login sig addr key nonce)])) now' (.getPrincipal addr)).2 =
        .bytes (principalOfKey E d.userCanisterPubkey)) := by
  obtain ⟨s, p, c1, c2, c3⟩ := lastArgument_state hk
  have e2 : stateAfter E (h ++ [(now, .login sig addr key nonce)]) = (step (stateAfter E h) now (.login sig addr key nonce)).1 :=
    run_snoc _ _ _ _
  have hset : (stateAfter E (h ++ [(now, .login sig addr key nonce)])).settings = p := by
    rw [e2, ← c3]
    refine (effect_keep (effect (inv_stateAfter E h) now _) ?_).2
    rintro ⟨_, q, _⟩; rcases q with q | q <;> cases q
  have hm := mapEffect (inv_stateAfter E h) now (.login sig addr key nonce)
  rw [hr, ← e2] at hm
  cases hm with
  | cleared q _ _ => obtain ⟨_, q, _⟩ := q; cases q
  | same _ q _ _ => exact absurd rfl (q d)
  | mapped sig' addr' key' nonce' bs d' s' q1 q2 q3 q4 q5 q6 q7 q8 q9 =>
    cases q1; cases q2
    constructor
    · intro hf
      have hp : p.disablePrincipalToEthMapping = false := Bool.eq_false_iff.mpr fun z => hf (c1.principalToEth.mp z)
      rw [getAddress_reply _ _ _ _ fun q bs hq => mapped_length hq, hset]
      refine ⟨hp, by simp [principalOfKey, Hash28.len], bs, ?_, q3, q5⟩
      rw [q8, c3, hp]; simp [stableMap_lookup_insert]
    · intro hf
      have hp : p.disableEthToPrincipalMapping = false := Bool.eq_false_iff.mpr fun z => hf (c1.ethToPrincipal.mp z)
      rw [getPrincipal_reply, hset]
      refine ⟨hp, q3, bs, q5, ?_⟩
      rw [q9, c3, hp]; simp [stableMap_lookup_insert]

/-- Both of the example's addresses log in; an upgrade with another domain but the same identities in between. -/
def Ex.both : History := Ex.loggedIn ++
  [(110, .login Ex.bobSig Ex.bob Ex.key (Ex.nonce 4)), (120, .upgrade { Ex.input with domain := ascii "b.com" })]

/-- Non-vacuity: a steady history with two logins, after which both queries answer for both; and a login whose
configuration is known. -/
example : Steady Ex.input (trace Toy.env Ex.both) ∧
    (step (stateAfter Toy.env Ex.both) 200 (.getPrincipal Ex.alice)).2 = .bytes (principalOf Toy.env Ex.input Ex.alice) ∧
    (step (stateAfter Toy.env Ex.both) 200 (.getPrincipal Ex.bob)).2 = .bytes (principalOf Toy.env Ex.input Ex.bob) ∧
    (step (stateAfter Toy.env Ex.both) 200 (.getAddress (principalOf Toy.env Ex.input Ex.bob))).2 = .bytes Ex.bob ∧
    principalOf Toy.env Ex.input Ex.alice ≠ principalOf Toy.env Ex.input Ex.bob := by
  refine ⟨?_, by decide +kernel, by decide +kernel, by decide +kernel, by decide +kernel⟩
  intro e he j hj hd
  have hops : e.call ∈ Ex.both.map (·.2) := by
    rw [← trace_calls Toy.env Ex.both]; exact List.mem_map_of_mem he
  have same : ∀ j : SettingsInput, j = Ex.input ∨ j = { Ex.input with domain := ascii "b.com" } →
      SameIdentities j Ex.input ∧ KeepsMappings j := by
    rintro j (rfl | rfl)
    · exact ⟨fun _ => rfl, by unfold KeepsMappings; decide⟩
    · exact ⟨fun _ => rfl, by unfold KeepsMappings; decide⟩
  apply same
  simp only [Ex.both, Ex.loggedIn, Ex.prepared, List.cons_append, List.nil_append, List.map_cons, List.map_nil, List.mem_cons,
    List.not_mem_nil, or_false] at hops
  rcases hj with hj | hj <;> rw [hj] at hops <;> simp at hops
  · exact .inl hops
  · exact .inr hops

/-! ### C45 -/

/-- C45: while the principal-to-address mapping is disabled by the last installation or upgrade, both queries of it always
answer with that error. -/
theorem C45_get_address_disabled (E : Env) (h : History) (i : SettingsInput) (hk : LastArgument (trace E h) i)
    (hf : .disablePrincipalToEthMapping ∈ i.runtimeFeatures.getD []) (now : UInt64) (p : Bytes) :
    (step (stateAfter E h) now (.getAddress p)).2 = .err .principalToEthDisabled ∧
    (step (stateAfter E h) now (.getCallerAddress p)).2 = .err .principalToEthDisabled := by
  obtain ⟨s, q, c1, c2, c3⟩ := lastArgument_state hk
  have hp := c1.principalToEth.mpr hf
  rw [getCallerAddress_eq, and_self]
  simp [step, getAddress, c3, hp, reply]

/-- C45: likewise `get_principal` when the other mapping is disabled, whatever its argument. -/
theorem C45_get_principal_disabled (E : Env) (h : History) (i : SettingsInput) (hk : LastArgument (trace E h) i)
    (hf : .disableEthToPrincipalMapping ∈ i.runtimeFeatures.getD []) (now : UInt64) (a : Bytes) :
    (step (stateAfter E h) now (.getPrincipal a)).2 = .err .ethToPrincipalDisabled := by
  obtain ⟨s, q, c1, c2, c3⟩ := lastArgument_state hk
  have hp := c1.ethToPrincipal.mpr hf
  simp [step, getPrincipal, c3, hp, reply]

/-- C45: and these errors are only given then. -/
theorem C45_enabled (E : Env) (h : History) (i : SettingsInput) (hk : LastArgument (trace E h) i) (now : UInt64) (x : Bytes) :
    (.disablePrincipalToEthMapping ∉ i.runtimeFeatures.getD [] →
      (step (stateAfter E h) now (.getAddress x)).2 ≠ .err .principalToEthDisabled) ∧
    (.disableEthToPrincipalMapping ∉ i.runtimeFeatures.getD [] →
      (step (stateAfter E h) now (.getPrincipal x)).2 ≠ .err .ethToPrincipalDisabled) := by
  obtain ⟨s, q, c1, c2, c3⟩ := lastArgument_state hk
  constructor
  · intro hf
    have hp : q.disablePrincipalToEthMapping = false := Bool.eq_false_iff.mpr fun z => hf (c1.principalToEth.mp z)
    simp only [step, getAddress, c3, hp, Bool.false_eq_true, if_false]
    split
    · simp [reply]
    · split
      · simp [reply]
      · next a _ => cases convertToEip55 E (bytesToEthAddress a) <;> simp [reply, Res.mapErr]
  · intro hf
    have hp : q.disableEthToPrincipalMapping = false := Bool.eq_false_iff.mpr fun z => hf (c1.ethToPrincipal.mp z)
    simp only [step, getPrincipal, c3, hp, Bool.false_eq_true, if_false]
    cases EthAddress.new E x with
    | err e => simp [reply]
    | panic => simp [reply]
    | ok a =>
      simp only [Res.mapErr_ok, Res.ok_bind]
      cases a.asByteArray with
      | err e => simp [reply]
      | panic => simp [reply]
      | ok b =>
        simp only [Res.unwrap_ok, Res.ok_bind]
        cases (stateAfter E h).addressPrincipal.lookup b <;> simp [reply]

/-- C45: a disabled mapping is not recorded: no call other than a new installation changes it. -/
theorem C45_not_recorded (E : Env) (h : History) (i : SettingsInput) (hk : LastArgument (trace E h) i) (now : UInt64) (op : Op)
    (hn : ¬Event.Installs ⟨now, op, (step (stateAfter E h) now op).2⟩) :
    (.disablePrincipalToEthMapping ∈ i.runtimeFeatures.getD [] →
      (step (stateAfter E h) now op).1.principalAddress = (stateAfter E h).principalAddress) ∧
    (.disableEthToPrincipalMapping ∈ i.runtimeFeatures.getD [] →
      (step (stateAfter E h) now op).1.addressPrincipal = (stateAfter E h).addressPrincipal) := by
  obtain ⟨s, q, c1, c2, c3⟩ := lastArgument_state hk
  cases mapEffect (inv_stateAfter E h) now op with
  | cleared g _ _ => exact absurd g hn
  | same _ _ g1 g2 => exact ⟨fun _ => g1, fun _ => g2⟩
  | mapped sig addr key nonce b d s g1 g2 g3 g4 g5 g6 g7 g8 g9 =>
    refine ⟨fun hf => ?_, fun hf => ?_⟩
    · rw [g8, c3, c1.principalToEth.mpr hf, if_pos rfl]
    · rw [g9, c3, c1.ethToPrincipal.mpr hf, if_pos rfl]

/-- The example's login with the first mapping disabled. -/
def Ex.disabled : History :=
  [(1, .install { Ex.input with runtimeFeatures := some [.disablePrincipalToEthMapping] }), (2, .rngSeeded [1, 2, 3]),
   (5, .prepareLogin Ex.alice), (100, .login Ex.aliceSig Ex.alice Ex.key (Ex.nonce 3))]

/-- Non-vacuity: that login succeeds, records one mapping and not the other; enabling the mapping later shows that nothing
was recorded. -/
example :
    LastArgument (trace Toy.env Ex.disabled) { Ex.input with runtimeFeatures := some [.disablePrincipalToEthMapping] } ∧
    (step (stateAfter Toy.env Ex.disabled) 200 (.getAddress Ex.alicePrincipal)).2 = .err .principalToEthDisabled ∧
    (step (stateAfter Toy.env Ex.disabled) 200 (.getPrincipal Ex.alice)).2 = .bytes Ex.alicePrincipal ∧
    (step (stateAfter Toy.env (Ex.disabled ++ [(150, .upgrade Ex.input)])) 200 (.getAddress Ex.alicePrincipal)).2 =
      .err .noAddress := by
  refine ⟨⟨[], _, _, rfl, ?_, .inl rfl, by decide +kernel⟩, by decide +kernel, by decide +kernel, by decide +kernel⟩
  intro e he
  simp only [traceFrom, List.mem_cons, List.not_mem_nil, or_false] at he
  rcases he with rfl | rfl | rfl <;> (rintro ⟨j, hj | hj, _⟩ <;> cases hj)

end Siwe
