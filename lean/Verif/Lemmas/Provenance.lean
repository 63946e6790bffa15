import Verif.Props.Login
/- Where pending messages, settings, signatures and mappings come from. -/
namespace Siwe
open Spec

/-- What one call does to settings and pending messages. -/
inductive Effect {E : Env} (st st' : State E) (now : UInt64) (op : Op) (r : Reply) : Prop
  | reset (i : SettingsInput) (s : Settings) (p : ProviderSettings) : (op = .install i ∨ op = .upgrade i) → r = .done →
      Configures E i s p → ValidSettings E s → st'.lib.settings = some s → st'.settings = p → st'.lib.messages = [] →
      st'.sigMap = .empty → Effect st st' now op r
  | same : ¬Event.Reinstalls ⟨now, op, r⟩ → (∀ a n t, ¬Event.Issues ⟨now, op, r⟩ a n t) →
      (∀ sig a k n, op = .login sig a k n → IsAddress E.keccak a → HexString 130 sig → False) →
      (∀ d, r ≠ .loggedIn d) →
      st'.lib.settings = st.lib.settings → st'.settings = st.settings → st'.lib.messages = st.lib.messages →
      st'.sigMap = st.sigMap → Effect st st' now op r
  | issued (addr bs nonce text : Bytes) (s : Settings) : IsAddress E.keccak addr → bs.length = 20 →
      Spells (addr.drop 2) bs → op = .prepareLogin addr → r = .prepared ⟨text, nonce⟩ →
      st.lib.settings = some s → st'.lib.settings = some s → st'.settings = st.settings →
      (∀ ε, (SiweMessage.new s now ⟨addr⟩ nonce).text (ε := ε) = .ok text) →
      (∀ k, st'.lib.messages.lookup k =
        if k = storeKey E bs nonce then some (SiweMessage.new s now ⟨addr⟩ nonce) else st.lib.messages.lookup k) →
      st'.sigMap = st.sigMap → Effect st st' now op r
  | attempted (sig addr key nonce bs : Bytes) : IsAddress E.keccak addr → HexString 130 sig → bs.length = 20 →
      Spells (addr.drop 2) bs → op = .login sig addr key nonce →
      st'.lib.settings = st.lib.settings → st'.settings = st.settings →
      (∀ k m, st'.lib.messages.lookup k = some m ↔
        st.lib.messages.lookup k = some m ∧ now.toNat < m.expirationTime.toNat ∧ k ≠ storeKey E bs nonce) →
      (r = .err (.login .messageNotFound) ∨ (∃ e, r = .err (.login e)) ∨ ∃ d, r = .loggedIn d) →
      Effect st st' now op r

theorem lookup_used {m : SiweMessageMap} (h : UniqueKeys m) (now : UInt64) (k0 k : Hash) (x : SiweMessage) :
    (SiweMessageMap.erase (SiweMessageMap.pruneExpired m now) k0).lookup k = some x ↔
      m.lookup k = some x ∧ now.toNat < x.expirationTime.toNat ∧ k ≠ k0 := by
  unfold SiweMessageMap.erase SiweMessageMap.pruneExpired
  rw [lookup_filter (uniqueKeys_filter h _), lookup_filter h]
  simp [UInt64.lt_iff_toNat_lt, and_assoc]

theorem effect {E : Env} {st : State E} (hi : Inv st) (now : UInt64) (op : Op) :
    Effect st (step st now op).1 now op (step st now op).2 := by
  have h := step_case hi now op
  generalize (step st now op).1 = st' at h ⊢
  generalize (step st now op).2 = r at h ⊢
  cases h with
  | installed i s p h1 h2 => exact .reset i s p (.inl rfl) rfl h1 h2 rfl rfl rfl rfl
  | upgraded i s p h1 h2 => exact .reset i s p (.inr rfl) rfl h1 h2 rfl rfl rfl rfl
  | prepared addr bs g s txt h1 h2 h3 h4 h5 h6 h7 =>
    refine .issued addr bs (nonceOf E g) txt s h1 h2 h3 rfl rfl h5 h5 rfl h6 (fun k => ?_) rfl
    by_cases hk : k = storeKey E bs (nonceOf E g)
    · subst hk; simp [preparedLib, storeKey]
    · rw [if_neg hk]
      simp only [preparedLib, List.lookup_cons]
      rw [show (k == E.sha256 (pendingKey bs (nonceOf E g))) = false by simpa using (show k ≠ E.sha256 _ from hk)]
      exact lookup_erase_ne _ hk
  | notFound sig addr key nonce bs h1 h2 h3 h4 h5 =>
    refine .attempted sig addr key nonce bs h1 h2 h3 h4 rfl rfl rfl (fun k m => ?_) (.inl rfl)
    simp only [prunedLib]
    rw [lookup_prune hi.keys]
    constructor
    · rintro ⟨g1, g2⟩
      refine ⟨g1, g2, ?_⟩
      rintro rfl
      rw [(lookup_prune hi.keys now _ m).mpr ⟨g1, g2⟩] at h5; cases h5
    · rintro ⟨g1, g2, _⟩; exact ⟨g1, g2⟩
  | found sig addr key nonce bs m txt st'' r' h1 h2 h3 h4 h5 h6 h7 hf =>
    have key := lookup_used hi.keys now (storeKey E bs nonce)
    cases hf with
    | badSignature e _ => exact .attempted sig addr _ nonce bs h1 h2 h3 h4 rfl rfl rfl key (.inr (.inl ⟨e, rfl⟩))
    | badKey s n sm e => exact .attempted sig addr _ nonce bs h1 h2 h3 h4 rfl rfl rfl key (.inr (.inl ⟨_, rfl⟩))
    | success s n sm sm' d dh => exact .attempted sig addr _ nonce bs h1 h2 h3 h4 rfl rfl rfl key (.inr (.inr ⟨_, rfl⟩))
  | badAddress sig addr key nonce e h1 _ =>
    refine .same ?_ ?_ ?_ ?_ rfl rfl rfl rfl <;> simp [Event.Reinstalls, Event.Issues]
    rintro _ _ _ _ rfl rfl rfl rfl; simp_all
  | badSignature sig addr key nonce e h1 h2 _ =>
    refine .same ?_ ?_ ?_ ?_ rfl rfl rfl rfl <;> simp [Event.Reinstalls, Event.Issues]
    rintro _ _ _ _ rfl rfl rfl rfl; simp_all
  | getDelegation c a k e =>
    refine .same ?_ ?_ ?_ ?_ rfl rfl rfl rfl <;> simp [Event.Reinstalls, Event.Issues]
    intro d; cases siweGetDelegation st now c a k e <;> simp [reply]
  | getAddress p =>
    refine .same ?_ ?_ ?_ ?_ rfl rfl rfl rfl <;> simp [Event.Reinstalls, Event.Issues]
    intro d; cases Siwe.getAddress st p <;> simp [reply]
  | getCallerAddress p =>
    refine .same ?_ ?_ ?_ ?_ rfl rfl rfl rfl <;> simp [Event.Reinstalls, Event.Issues]
    intro d; cases Siwe.getCallerAddress st p <;> simp [reply]
  | getPrincipal p =>
    refine .same ?_ ?_ ?_ ?_ rfl rfl rfl rfl <;> simp [Event.Reinstalls, Event.Issues]
    intro d; cases Siwe.getPrincipal st p <;> simp [reply]
  | _ => refine .same ?_ ?_ ?_ ?_ rfl rfl rfl rfl <;> simp [Event.Reinstalls, Event.Issues]

theorem sameModule_snoc {es : List Event} {e : Event} (h : SameModule es) (he : ¬e.Reinstalls) : SameModule (es ++ [e]) := by
  intro x hx
  rcases List.mem_append.mp hx with hx | hx
  · exact h x hx
  · rw [List.mem_singleton] at hx; rwa [hx]

/-- Where the settings come from. -/
theorem settings_origin {E : Env} {s0 : State E} (h0 : Inv s0) (h : History) (s : Settings)
    (hs : (run s0 h).1.lib.settings = some s) :
    (SameModule (traceFrom s0 h) ∧ s0.lib.settings = some s ∧ (run s0 h).1.settings = s0.settings) ∨
      InForce E (traceFrom s0 h) s (run s0 h).1.settings := by
  induction h using history_induction generalizing s with
  | nil => exact .inl ⟨fun e he => by simp [traceFrom] at he, hs, rfl⟩
  | snoc h now op ih =>
    rw [run_snoc] at hs ⊢
    rw [traceFrom_snoc]
    have hi := inv_run h0 h
    generalize (run s0 h).1 = st at hi hs ih ⊢
    have carry : ∀ (st' : State E) r, st'.lib.settings = st.lib.settings → st'.settings = st.settings →
        ¬Event.Reinstalls ⟨now, op, r⟩ → st'.lib.settings = some s →
        (SameModule (traceFrom s0 h ++ [⟨now, op, r⟩]) ∧ s0.lib.settings = some s ∧ st'.settings = s0.settings) ∨
          InForce E (traceFrom s0 h ++ [⟨now, op, r⟩]) s st'.settings := by
      intro st' r e1 e2 hr hs'
      rcases ih s (e1 ▸ hs') with ⟨g1, g2, g3⟩ | ⟨before, e, after, i, g1, g2, g3⟩
      · exact .inl ⟨sameModule_snoc g1 hr, g2, e2.trans g3⟩
      · exact .inr ⟨before, e, after ++ [⟨now, op, r⟩], i, by rw [g1]; simp, sameModule_snoc g2 hr, e2 ▸ g3⟩
    cases effect hi now op with
    | reset i s' p g1 g2 g3 _ g4 g5 _ _ =>
      rw [hs] at g4; cases g4
      exact .inr ⟨traceFrom s0 h, _, [], i, rfl, fun e he => by simp at he, g1, g2, g5 ▸ g3⟩
    | same g1 _ _ _ g4 g5 _ _ => exact carry _ _ g4 g5 g1 hs
    | issued addr bs nonce text s' _ _ _ g4 g5 g6 g7 g8 _ _ _ =>
      exact carry _ _ (g7.trans g6.symm) g8 (by simp [Event.Reinstalls, g4]) hs
    | attempted sig addr key nonce bs _ _ _ _ g5 g6 g7 _ _ =>
      exact carry _ _ g6 g7 (by simp [Event.Reinstalls, g5]) hs

theorem settings_inForce {E : Env} {h : History} {s : Settings} (hs : (stateAfter E h).lib.settings = some s) :
    InForce E (trace E h) s (stateAfter E h).settings := by
  rcases settings_origin (inv_fresh E) h s hs with ⟨_, g, _⟩ | g
  · cases g
  · exact g

theorem effect_keep {E : Env} {st st' : State E} {now : UInt64} {op : Op} {r : Reply} (h : Effect st st' now op r)
    (hr : ¬Event.Reinstalls ⟨now, op, r⟩) : st'.lib.settings = st.lib.settings ∧ st'.settings = st.settings := by
  cases h with
  | reset i s p g1 g2 => exact absurd ⟨i, g1, g2⟩ hr
  | same _ _ _ _ g4 g5 _ _ => exact ⟨g4, g5⟩
  | issued _ _ _ _ _ _ _ _ _ _ g6 g7 g8 => exact ⟨g7.trans g6.symm, g8⟩
  | attempted _ _ _ _ _ _ _ _ _ _ g6 g7 => exact ⟨g6, g7⟩

theorem settings_keep {E : Env} {s0 : State E} (h0 : Inv s0) (h : History) (hm : SameModule (traceFrom s0 h)) :
    (run s0 h).1.lib.settings = s0.lib.settings ∧ (run s0 h).1.settings = s0.settings := by
  induction h using history_induction with
  | nil => exact ⟨rfl, rfl⟩
  | snoc h now op ih =>
    rw [traceFrom_snoc] at hm
    rw [run_snoc]
    have ih := ih fun e he => hm e (List.mem_append_left _ he)
    have := effect_keep (effect (inv_run h0 h) now op) (hm _ (List.mem_append_right _ (by simp)))
    exact ⟨this.1.trans ih.1, this.2.trans ih.2⟩

theorem configures_unique {E : Env} {i : SettingsInput} {s s' : Settings} {p p' : ProviderSettings}
    (h : Configures E i s p) (h' : Configures E i s' p') : s = s' ∧ p = p' := by
  have ht : s.targets = s'.targets := by
    cases hi : i.targets with
    | none => rw [h.noTargets hi, h'.noTargets hi]
    | some ts =>
      obtain ⟨ps, e1, e2, _⟩ := h.targets ts hi
      obtain ⟨ps', e1', e2', _⟩ := h'.targets ts hi
      rw [e1, e1', List.map_injective_iff.mpr (Option.some_injective _) (e2.symm.trans e2')]
  refine ⟨?_, ?_⟩
  · have := h.domain.trans h'.domain.symm
    have := h.uri.trans h'.uri.symm
    have := h.salt.trans h'.salt.symm
    have := h.chainId.trans h'.chainId.symm
    have := h.scheme.trans h'.scheme.symm
    have := h.statement.trans h'.statement.symm
    have := h.signIn.trans h'.signIn.symm
    have := h.session.trans h'.session.symm
    have := h.uriFeature.trans h'.uriFeature.symm
    cases s; cases s'; simp_all
  · have e1 := h.ethToPrincipal.trans h'.ethToPrincipal.symm
    have e2 := h.principalToEth.trans h'.principalToEth.symm
    cases p; cases p'
    simp only [ProviderSettings.mk.injEq]
    exact ⟨Bool.eq_iff_iff.mpr e1, Bool.eq_iff_iff.mpr e2⟩

theorem inForce_state {E : Env} {h : History} {s : Settings} {p : ProviderSettings} (hf : InForce E (trace E h) s p) :
    (stateAfter E h).lib.settings = some s ∧ (stateAfter E h).settings = p := by
  obtain ⟨before, e, after, i, g1, g2, g3, g4, g5⟩ := hf
  obtain ⟨h1, h2, e1, e2, e3, e4⟩ := traceFrom_split g1
  have hi := inv_run (inv_fresh E) h1
  have hi' := inv_step hi e.time e.call
  have hx : (stateAfter E h) = (run (step (run (State.fresh E) h1).1 e.time e.call).1 h2).1 := by
    rw [stateAfter, e1, run_append]; rfl
  rw [hx]
  rw [e4] at g2
  obtain ⟨k1, k2⟩ := settings_keep hi' h2 g2
  rw [k1, k2]
  rw [g4] at e3
  cases effect hi e.time e.call with
  | reset i' s' p' f1 f2 f3 f4 f5 f6 =>
    have : i' = i := by rcases f1 with f1 | f1 <;> rcases g3 with g3 | g3 <;> rw [f1] at g3 <;> cases g3 <;> rfl
    subst this
    obtain ⟨rfl, rfl⟩ := configures_unique f3 g5
    exact ⟨f5, f6⟩
  | same f1 => exact absurd ⟨i, g3, e3.symm⟩ f1
  | issued _ _ _ _ _ _ _ _ _ f5 => rw [← e3] at f5; cases f5
  | attempted _ _ _ _ _ _ _ _ _ f5 => rw [f5] at g3; rcases g3 with g3 | g3 <;> cases g3

/-- Where a pending message comes from. -/
theorem pending_origin {E : Env} {s0 : State E} (h0 : Inv s0) (h : History) (k : Hash) (m : SiweMessage)
    (hp : (run s0 h).1.lib.messages.lookup k = some m) :
    (SameModule (traceFrom s0 h) ∧ s0.lib.messages.lookup k = some m) ∨
    ∃ before e after addr nonce text bs s, traceFrom s0 h = before ++ e :: after ∧ SameModule after ∧
      e.Issues addr nonce text ∧ IsAddress E.keccak addr ∧ bs.length = 20 ∧ Spells (addr.drop 2) bs ∧
      k = storeKey E bs nonce ∧ (run s0 h).1.lib.settings = some s ∧ m = SiweMessage.new s e.time ⟨addr⟩ nonce ∧
      ∀ ε, m.text (ε := ε) = .ok text := by
  induction h using history_induction with
  | nil => exact .inl ⟨fun e he => by simp [traceFrom] at he, hp⟩
  | snoc h now op ih =>
    rw [run_snoc] at hp ⊢
    rw [traceFrom_snoc]
    have hi := inv_run h0 h
    generalize (run s0 h).1 = st at hi hp ih ⊢
    have carry : ∀ (st' : State E) r, st'.lib.settings = st.lib.settings → ¬Event.Reinstalls ⟨now, op, r⟩ →
        st.lib.messages.lookup k = some m → (SameModule (traceFrom s0 h ++ [⟨now, op, r⟩]) ∧ s0.lib.messages.lookup k = some m) ∨
        ∃ before e after addr nonce text bs s, traceFrom s0 h ++ [⟨now, op, r⟩] = before ++ e :: after ∧ SameModule after ∧
        e.Issues addr nonce text ∧ IsAddress E.keccak addr ∧ bs.length = 20 ∧ Spells (addr.drop 2) bs ∧
        k = storeKey E bs nonce ∧ st'.lib.settings = some s ∧ m = SiweMessage.new s e.time ⟨addr⟩ nonce ∧
        ∀ ε, m.text (ε := ε) = .ok text := by
      intro st' r hs hr hl
      rcases ih hl with ⟨g1, g2⟩ | ⟨before, e, after, addr, nonce, text, bs, s, g1, g2, g3, g4, g5, g6, g7, g8, g9, g10⟩
      · exact .inl ⟨sameModule_snoc g1 hr, g2⟩
      · exact .inr ⟨before, e, after ++ [⟨now, op, r⟩], addr, nonce, text, bs, s, by rw [g1]; simp,
          sameModule_snoc g2 hr, g3, g4, g5, g6, g7, hs.trans g8, g9, g10⟩
    cases effect hi now op with
    | reset i s p _ _ _ _ _ _ h5 => rw [h5] at hp; cases hp
    | same g1 g2 g3 _ g4 _ g5 _ => rw [g5] at hp; exact carry _ _ g4 g1 hp
    | issued addr bs nonce text s g1 g2 g3 g4 g5 g6 g7 _ g8 g9 _ =>
      rw [g9 k] at hp
      by_cases hk : k = storeKey E bs nonce
      · rw [if_pos hk] at hp
        have := Option.some.inj hp
        subst this
        exact .inr ⟨traceFrom s0 h, _, [], addr, nonce, text, bs, s, rfl, fun e he => by simp at he, ⟨g4, g5⟩, g1, g2, g3, hk,
          g7, rfl, g8⟩
      · rw [if_neg hk] at hp
        exact carry _ _ (g7.trans g6.symm) (by simp [Event.Reinstalls, g4]) hp
    | attempted sig addr key nonce bs g1 g2 g3 g4 g5 g6 _ g7 _ =>
      exact carry _ _ g6 (by simp [Event.Reinstalls, g5]) ((g7 k m).mp hp).1

theorem addr_of_bytes {E : Env} {a a' bs : Bytes} (h : IsAddress E.keccak a) (h' : IsAddress E.keccak a')
    (s : Spells (a.drop 2) bs) (s' : Spells (a'.drop 2) bs) : a = a' := by
  obtain ⟨d, rfl, _⟩ := h.imp fun _ h => h
  obtain ⟨d', rfl, _⟩ := h'.imp fun _ h => h
  rw [isAddress_unique h h' (by simpa using s) (by simpa using s')]

theorem address_spelled {E : Env} {a : Bytes} (h : IsAddress E.keccak a) : ∃ bs, bs.length = 20 ∧ Spells (a.drop 2) bs := by
  obtain ⟨ds, bs, e, _, s, l, _⟩ := isAddress_bytes h
  exact ⟨bs, l, by rw [e]; simpa using s⟩

/-- Equal storage keys: equal pairs, or a collision. -/
theorem storeKey_inj {E : Env} {a a' bs bs' n n' : Bytes} (h : IsAddress E.keccak a) (h' : IsAddress E.keccak a')
    (s : Spells (a.drop 2) bs) (s' : Spells (a'.drop 2) bs') (l : bs.length = 20) (l' : bs'.length = 20)
    (hk : storeKey E bs n = storeKey E bs' n') : (a' = a ∧ n' = n) ∨ KeyCollision E a n a' n' := by
  by_cases e : pendingKey bs n = pendingKey bs' n'
  · obtain ⟨rfl, rfl⟩ := pendingKey_inj l l' e
    exact .inl ⟨addr_of_bytes h' h s' s, rfl⟩
  · exact .inr ⟨bs, bs', s, s', e, hk⟩

end Siwe
