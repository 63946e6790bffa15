import Verif.Lemmas.Grants
import Verif.Spec.Mapping
/- What calls do to the mappings, and where the entries come from. -/
namespace Siwe
open Spec

theorem stableMap_lookup_insert (m : StableMap) (k v k' : Bytes) :
    (m.insert k v).lookup k' = if k' = k then some v else m.lookup k' := by
  unfold StableMap.insert
  rw [List.lookup_cons]
  by_cases h : k' = k
  · subst h; simp
  · rw [if_neg h, show (k' == k) = false by simpa using h]
    simp only
    induction m with
    | nil => rfl
    | cons x m ih =>
      obtain ⟨a, b⟩ := x
      by_cases ha : a = k
      · subst ha
        rw [List.filter_cons_of_neg (by simp), ih, List.lookup_cons, show (k' == a) = false by simpa using h]
      · rw [List.filter_cons_of_pos (by simpa using ha), List.lookup_cons, List.lookup_cons, ih]

/-- What one call does to the mappings. -/
inductive MapEffect {E : Env} (st st' : State E) (now : UInt64) (op : Op) (r : Reply) : Prop
  | cleared : Event.Installs ⟨now, op, r⟩ → st'.principalAddress = [] → st'.addressPrincipal = [] → MapEffect st st' now op r
  | same : ¬Event.Installs ⟨now, op, r⟩ → (∀ d, r ≠ .loggedIn d) → st'.principalAddress = st.principalAddress →
      st'.addressPrincipal = st.addressPrincipal → MapEffect st st' now op r
  | mapped (sig addr key nonce bs : Bytes) (d : LoginDetails) (s : Settings) : op = .login sig addr key nonce →
      r = .loggedIn d → IsAddress E.keccak addr → bs.length = 20 → Spells (addr.drop 2) bs → st.lib.settings = some s →
      d.userCanisterPubkey = userKey E s ⟨addr⟩ →
      st'.principalAddress = (if st.settings.disablePrincipalToEthMapping then st.principalAddress
        else st.principalAddress.insert (principalOfKey E d.userCanisterPubkey) bs) →
      st'.addressPrincipal = (if st.settings.disableEthToPrincipalMapping then st.addressPrincipal
        else st.addressPrincipal.insert bs (principalOfKey E d.userCanisterPubkey)) →
      MapEffect st st' now op r

theorem mapEffect {E : Env} {st : State E} (hi : Inv st) (now : UInt64) (op : Op) :
    MapEffect st (step st now op).1 now op (step st now op).2 := by
  have h := step_case hi now op
  generalize (step st now op).1 = st' at h ⊢
  generalize (step st now op).2 = r at h ⊢
  cases h with
  | installed i s p h1 h2 => exact .cleared ⟨i, rfl, rfl⟩ rfl rfl
  | upgraded i s p h1 h2 => exact .same (by simp [Event.Installs]) (by simp) rfl rfl
  | found sig addr key nonce bs m txt st'' r' h1 h2 h3 h4 h5 h6 h7 hf =>
    cases hf with
    | badSignature e _ => exact .same (by simp [Event.Installs]) (by simp [reply]) rfl rfl
    | badKey s n sm e _ _ hp _ => exact .same (by simp [Event.Installs]) (by simp [reply]) rfl rfl
    | success s n sm sm' d dh _ hs hp hd hdh hput =>
      exact .mapped sig addr key nonce bs _ s rfl rfl h1 h3 h4 hs rfl rfl rfl
  | getDelegation c a k e =>
    refine .same (by simp [Event.Installs]) ?_ rfl rfl
    intro d; cases siweGetDelegation st now c a k e <;> simp [reply]
  | getAddress p =>
    refine .same (by simp [Event.Installs]) ?_ rfl rfl
    intro d; cases Siwe.getAddress st p <;> simp [reply]
  | getCallerAddress p =>
    refine .same (by simp [Event.Installs]) ?_ rfl rfl
    intro d; cases Siwe.getCallerAddress st p <;> simp [reply]
  | getPrincipal p =>
    refine .same (by simp [Event.Installs]) ?_ rfl rfl
    intro d; cases Siwe.getPrincipal st p <;> simp [reply]
  | _ => exact .same (by simp [Event.Installs]) (by simp) rfl rfl

/-- A pair of mapping entries stems from a login. -/
def MappedBy (E : Env) (es : List Event) (p bs : Bytes) : Prop :=
  ∃ before e after addr key nonce ld, es = before ++ e :: after ∧ (∀ y ∈ after, ¬y.Installs) ∧ e.LogsIn addr key nonce ld ∧
    IsAddress E.keccak addr ∧ bs.length = 20 ∧ Spells (addr.drop 2) bs ∧ principalOfKey E ld.userCanisterPubkey = p

theorem mapping_origin (E : Env) (h : History) (p bs : Bytes)
    (hx : (stateAfter E h).principalAddress.lookup p = some bs ∨ (stateAfter E h).addressPrincipal.lookup bs = some p) :
    MappedBy E (trace E h) p bs := by
  induction h using history_induction with
  | nil => rcases hx with hx | hx <;> cases hx
  | snoc h now op ih =>
    have e1 : trace E (h ++ [(now, op)]) = trace E h ++ [⟨now, op, (step (stateAfter E h) now op).2⟩] := traceFrom_snoc _ _ _ _
    have e2 : stateAfter E (h ++ [(now, op)]) = (step (stateAfter E h) now op).1 := run_snoc _ _ _ _
    rw [e1]
    rw [e2] at hx
    have carry : ¬Event.Installs ⟨now, op, (step (stateAfter E h) now op).2⟩ →
        ((stateAfter E h).principalAddress.lookup p = some bs ∨ (stateAfter E h).addressPrincipal.lookup bs = some p) →
        MappedBy E (trace E h ++ [⟨now, op, (step (stateAfter E h) now op).2⟩]) p bs := by
      intro hn hx
      obtain ⟨b, e, a, addr, key, nonce, ld, g1, g2, g3⟩ := ih hx
      refine ⟨b, e, a ++ [⟨now, op, (step (stateAfter E h) now op).2⟩], addr, key, nonce, ld, by rw [g1, List.append_assoc]; rfl, ?_, g3⟩
      intro y hy
      rcases List.mem_append.mp hy with hy | hy
      · exact g2 y hy
      · rw [List.mem_singleton] at hy; rwa [hy]
    cases mapEffect (inv_stateAfter E h) now op with
    | cleared _ g1 g2 => rw [g1, g2] at hx; rcases hx with hx | hx <;> cases hx
    | same g1 _ g2 g3 => rw [g2, g3] at hx; exact carry g1 hx
    | mapped sig addr key nonce bs' d s g1 g2 g3 g4 g5 g6 g7 g8 g9 =>
      have hn : ¬Event.Installs ⟨now, op, (step (stateAfter E h) now op).2⟩ := by simp [Event.Installs, g2]
      rw [g8, g9] at hx
      have new : p = principalOfKey E d.userCanisterPubkey → bs = bs' →
          MappedBy E (trace E h ++ [⟨now, op, (step (stateAfter E h) now op).2⟩]) p bs := by
        rintro rfl rfl
        exact ⟨trace E h, _, [], addr, key, nonce, d, rfl, fun y hy => by simp at hy, ⟨⟨sig, g1⟩, g2⟩, g3, g4, g5, rfl⟩
      rcases hx with hx | hx
      · split at hx
        · exact carry hn (.inl hx)
        · rw [stableMap_lookup_insert] at hx
          split at hx
          · next hp => exact new hp (Option.some.inj hx).symm
          · exact carry hn (.inl hx)
      · split at hx
        · exact carry hn (.inr hx)
        · rw [stableMap_lookup_insert] at hx
          split at hx
          · next hp => exact new (Option.some.inj hx).symm hp
          · exact carry hn (.inr hx)

/-! ### the queries -/

theorem getAddress_reply {E : Env} (st : State E) (now : UInt64) (p a : Bytes)
    (hlen : ∀ q bs, st.principalAddress.lookup q = some bs → bs.length = 20) :
    (step st now (.getAddress p)).2 = .bytes a ↔ st.settings.disablePrincipalToEthMapping = false ∧ p.length ≤ 29 ∧
      ∃ bs, st.principalAddress.lookup p = some bs ∧ IsAddress E.keccak a ∧ Spells (a.drop 2) bs := by
  simp only [step, getAddress]
  cases hd : st.settings.disablePrincipalToEthMapping with
  | true => simp [reply]
  | false =>
    simp only [Bool.false_eq_true, if_false, true_and]
    by_cases hp : p.length > 29
    · rw [if_pos hp]
      simp only [reply, reduceCtorEq, false_iff]
      rintro ⟨h, _⟩; omega
    · rw [if_neg hp]
      cases hb : st.principalAddress.lookup p with
      | none => simp [reply]
      | some bs =>
        have hl := hlen p bs hb
        have hs := addressOf_spec E.keccak hl
        simp only [(convert_bytes E (show bs.length ≤ 32 by omega)).1, Res.mapErr_ok, reply, Reply.bytes.injEq]
        constructor
        · rintro rfl; exact ⟨by omega, bs, rfl, hs⟩
        · rintro ⟨_, bs', e, g1, g2⟩; cases e
          exact addr_of_bytes hs.1 g1 hs.2 g2

theorem getPrincipal_reply {E : Env} (st : State E) (now : UInt64) (a p : Bytes) :
    (step st now (.getPrincipal a)).2 = .bytes p ↔ st.settings.disableEthToPrincipalMapping = false ∧
      IsAddress E.keccak a ∧ ∃ bs, Spells (a.drop 2) bs ∧ st.addressPrincipal.lookup bs = some p := by
  simp only [step, getPrincipal]
  cases hd : st.settings.disableEthToPrincipalMapping with
  | true => simp [reply]
  | false =>
    simp only [Bool.false_eq_true, if_false, true_and]
    cases ha : EthAddress.new E a with
    | panic => exact absurd ha (ethAddress_new_no_panic E a)
    | err e =>
      simp only [Res.mapErr_err, Res.err_bind, reply, reduceCtorEq, false_iff]
      rintro ⟨h, _⟩
      rw [(ethAddress_new_ok_iff E a ⟨a⟩).mpr ⟨h, rfl⟩] at ha; cases ha
    | ok x =>
      obtain ⟨hA, ea⟩ := (ethAddress_new_ok_iff E a x).mp ha
      have ea : x = ⟨a⟩ := by cases x; simp at ea; rw [ea]
      subst ea
      obtain ⟨ds, bs, e0, _, sp, _, _, hb⟩ := isAddress_bytes hA
      have sp' : Spells (a.drop 2) bs := by rw [e0]; simpa using sp
      simp only [Res.mapErr_ok, Res.ok_bind, hb, Res.unwrap_ok]
      cases hl : st.addressPrincipal.lookup bs with
      | none =>
        simp only [reply, reduceCtorEq, false_iff]
        rintro ⟨_, bs', s', h'⟩
        rw [spells_unique s' sp', hl] at h'; cases h'
      | some q =>
        simp only [reply, Reply.bytes.injEq]
        constructor
        · rintro rfl; exact ⟨hA, bs, sp', hl⟩
        · rintro ⟨_, bs', s', h'⟩
          rw [spells_unique s' sp', hl] at h'; cases h'; rfl

theorem seed_identityOf {E : Env} {i : SettingsInput} {s : Settings} {p : ProviderSettings} (h : Configures E i s p) (a : Bytes) :
    userKey E s ⟨a⟩ = keyOf E i a := by
  unfold userKey keyOf generateSeed hashBytes identityOf
  have hf := h.uriFeature
  by_cases hm : ProviderFeature.includeUriInSeed ∈ i.runtimeFeatures.getD []
  · rw [if_pos hm] at hf ⊢
    have hu : UsesUri s := ⟨_, hf, by simp⟩
    rw [seedInput_uses hu, h.salt, h.uri]
  · rw [if_neg hm] at hf ⊢
    have hu : ¬UsesUri s := by rintro ⟨fs, h1, _⟩; rw [hf] at h1; cases h1
    rw [seedInput_without hu, h.salt]

theorem lastArgument_state {E : Env} {h : History} {i : SettingsInput} (hk : LastArgument (trace E h) i) :
    ∃ s p, Configures E i s p ∧ (stateAfter E h).lib.settings = some s ∧ (stateAfter E h).settings = p := by
  obtain ⟨b, e, a, g1, g2, g3, g4⟩ := hk
  obtain ⟨h1, h2, e1, e2, e3, e4⟩ := traceFrom_split g1
  have hf := effect (inv_stateAfter E h1) e.time e.call
  have e3 : e.reply = (step (stateAfter E h1) e.time e.call).2 := e3
  rw [← e3] at hf
  have key : ∃ s p, Configures E i s p := by
    cases hf with
    | reset j s p q1 q2 q3 =>
      have : j = i := by
        rcases q1 with q1 | q1 <;> rcases g3 with g3 | g3 <;> rw [q1] at g3 <;> cases g3 <;> rfl
      exact ⟨s, p, this ▸ q3⟩
    | same q => exact absurd ⟨i, g3, g4⟩ q
    | issued _ _ _ _ _ _ _ _ q => rcases g3 with g3 | g3 <;> rw [q] at g3 <;> cases g3
    | attempted _ _ _ _ _ _ _ _ _ q => rcases g3 with g3 | g3 <;> rw [q] at g3 <;> cases g3
  obtain ⟨s, p, hc⟩ := key
  exact ⟨s, p, hc, inForce_state ⟨b, e, a, i, g1, g2, g3, g4, hc⟩⟩

/-- Before the first installation the flags have their initial values. -/
theorem no_settings_flags {E : Env} {h : History} (hs : (stateAfter E h).lib.settings = none) :
    (stateAfter E h).settings.disableEthToPrincipalMapping = false ∧
    (stateAfter E h).settings.disablePrincipalToEthMapping = false := by
  have key : ∀ h : History, (stateAfter E h).lib.settings = none → (stateAfter E h).settings = ⟨false, false⟩ := by
    intro h
    induction h using history_induction with
    | nil => intro _; rfl
    | snoc h now op ih =>
      have e2 : stateAfter E (h ++ [(now, op)]) = (step (stateAfter E h) now op).1 := run_snoc _ _ _ _
      rw [e2]
      intro hn
      have hf := effect (inv_stateAfter E h) now op
      cases hf with
      | reset j s p q1 q2 q3 q4 q5 => rw [q5] at hn; cases hn
      | same _ _ _ _ q1 q2 => rw [q2]; exact ih (q1 ▸ hn)
      | issued _ _ _ _ _ _ _ _ _ _ _ q1 => rw [q1] at hn; cases hn
      | attempted _ _ _ _ _ _ _ _ _ _ q1 q2 => rw [q2]; exact ih (q1 ▸ hn)
  rw [key h hs]; exact ⟨rfl, rfl⟩

theorem traceFrom_calls {E : Env} (s : State E) (h : History) : (traceFrom s h).map (·.call) = h.map (·.2) := by
  induction h generalizing s with
  | nil => rfl
  | cons x h ih => obtain ⟨now, op⟩ := x; simp only [traceFrom, List.map_cons, ih]

theorem trace_calls (E : Env) (h : History) : (trace E h).map (·.call) = h.map (·.2) := traceFrom_calls _ _

end Siwe
