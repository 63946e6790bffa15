import Verif.Lemmas.Provenance
import Verif.Lemmas.HashTree
import Verif.Spec.Grant
import Verif.Props.Encoding
/- Where signatures come from, and what `siwe_get_delegation` answers. -/
namespace Siwe
open Spec

theorem isEntry_seedKey {E : Env} {s : Settings} {addr key : Bytes} {e : UInt64} {dh : Hash}
    (h : IsDelegationHash E (granted s key e) dh) : IsEntry E s addr key e (seedKey E s ⟨addr⟩) dh :=
  ⟨⟨_, isSeed_generate E s addr, rfl⟩, h⟩

theorem isEntry_unique {E : Env} {s : Settings} {addr key : Bytes} {e : UInt64} {sh dh sh' dh' : Hash}
    (h : IsEntry E s addr key e sh dh) (h' : IsEntry E s addr key e sh' dh') : sh' = sh ∧ dh' = dh := by
  obtain ⟨⟨x, h1, rfl⟩, h2⟩ := h
  obtain ⟨⟨y, h1', rfl⟩, h2'⟩ := h'
  rw [isSeed_unique h1' h1]
  exact ⟨rfl, delegationHash_unique h2' h2⟩

theorem isEntry_inj {E : Env} {s : Settings} {addr key addr' key' : Bytes} {e e' : UInt64} {sh dh : Hash}
    (ha : IsAddress E.keccak addr) (ha' : IsAddress E.keccak addr')
    (h : IsEntry E s addr key e sh dh) (h' : IsEntry E s addr' key' e' sh dh) :
    (addr' = addr ∧ key' = key ∧ e' = e) ∨ GrantCollision E s addr key e addr' key' e' := by
  obtain ⟨⟨x, h1, rfl⟩, h2⟩ := h
  obtain ⟨⟨y, h1', e1⟩, h2'⟩ := h'
  rcases delegation_inj h2 h2' with hd | ⟨p, q, hp, hq, hc⟩
  · simp only [granted, Delegation.mk.injEq, and_true] at hd
    obtain ⟨rfl, rfl⟩ := hd
    by_cases hxy : x = y
    · subst hxy
      have g1 := isSeed_unique h1 (isSeed_generate E s addr)
      have g2 := isSeed_unique h1' (isSeed_generate E s addr')
      rcases C22_keys_differ E s ⟨addr⟩ ⟨addr'⟩ ((ethAddress_new_ok_iff E addr ⟨addr⟩).mpr ⟨ha, rfl⟩)
        ((ethAddress_new_ok_iff E addr' ⟨addr'⟩).mpr ⟨ha', rfl⟩) (by rw [← g1, ← g2]) with h | h
      · cases h; exact .inl ⟨rfl, rfl, rfl⟩
      · exact .inr (.inl h)
    · exact .inr (.inr (.inl ⟨x, y, h1, h1', fun hb => hxy (Hash.ext' hb), e1⟩))
  · exact .inr (.inr (.inr ⟨p, q, hp, hq, hc⟩))

theorem prune_nothing (ε : Type) {m : SigMap} {now : UInt64} (k : Nat)
    (h : ∀ x ∈ m.expirationQueue, now.toNat < x.expiresAt.toNat) : (m.pruneExpired now k : Res ε _) = .ok (0, m) := by
  unfold SigMap.pruneExpired
  cases hq : m.expirationQueue with
  | nil => simp [SigMap.pruneLoop]
  | cons x q =>
    cases hk : min k (x :: q).length with
    | zero => rfl
    | succ n =>
      rw [SigMap.pruneLoop, hq]
      simp only [heapPeek, List.head?_cons]
      rw [if_pos (show now < x.expiresAt from UInt64.lt_iff_toNat_lt.mpr (h x (by rw [hq]; simp)))]

/-- What one call does to the signature map and the certified data. -/
inductive SigEffect {E : Env} (st st' : State E) (now : UInt64) (op : Op) (r : Reply) : Prop
  | reset : Event.Reinstalls ⟨now, op, r⟩ → st'.sigMap = .empty →
      ((st'.certifiedData = st.certifiedData ∧ ∃ i, op = .upgrade i) ∨ (st'.certifiedData = [] ∧ ∃ i, op = .install i)) → SigEffect st st' now op r
  | same : ¬Event.Reinstalls ⟨now, op, r⟩ → st'.sigMap = st.sigMap → st'.certifiedData = st.certifiedData →
      (∀ d, r ≠ .loggedIn d) → SigEffect st st' now op r
  | pruned (removed : List SigExpiration) (e : DelegationError) : ¬Event.Reinstalls ⟨now, op, r⟩ →
      r = .err (.login (.delegation e)) →
      Pruned now maxSigsToPrune st.sigMap.expirationQueue removed st'.sigMap.expirationQueue →
      (∀ s d, Holds st'.sigMap s d ↔ Holds st.sigMap s d ∧ ∀ e ∈ removed, ¬(e.seedHash = s ∧ e.delegationHash = d)) →
      st'.certifiedData = st.certifiedData →
      ((∀ x ∈ st.sigMap.expirationQueue, now.toNat < x.expiresAt.toNat) → st'.sigMap = st.sigMap) →
      SigEffect st st' now op r
  | granted (removed rest : List SigExpiration) (sig addr key nonce : Bytes) (d : LoginDetails) (s : Settings) (sh dh : Hash)
      (x : UInt64) :
      op = .login sig addr key nonce → r = .loggedIn d → IsAddress E.keccak addr → st.lib.settings = some s →
      key ≠ [] → E.derOk key = true → d.expiration ≠ 0 → d.userCanisterPubkey = userKey E s ⟨addr⟩ →
      IsEntry E s addr key d.expiration sh dh → IsExpiryOf now x →
      Pruned now maxSigsToPrune st.sigMap.expirationQueue removed rest →
      (∀ y, y ∈ st'.sigMap.expirationQueue ↔ y = ⟨sh, dh, x⟩ ∨ y ∈ rest) →
      (∀ s' d', Holds st'.sigMap s' d' ↔ (s' = sh ∧ d' = dh) ∨
        Holds st.sigMap s' d' ∧ ∀ e ∈ removed, ¬(e.seedHash = s' ∧ e.delegationHash = d')) →
      st'.certifiedData = (digest E (certifiedTree st'.sigMap)).bytes → SigEffect st st' now op r

theorem sigEffect {E : Env} {st : State E} (hi : Inv st) (now : UInt64) (op : Op) :
    SigEffect st (step st now op).1 now op (step st now op).2 := by
  have h := step_case hi now op
  generalize (step st now op).1 = st' at h ⊢
  generalize (step st now op).2 = r at h ⊢
  cases h with
  | installed i s p h1 h2 => exact .reset ⟨i, .inl rfl, rfl⟩ rfl (.inr ⟨rfl, i, rfl⟩)
  | upgraded i s p h1 h2 => exact .reset ⟨i, .inr rfl, rfl⟩ rfl (.inl ⟨rfl, i, rfl⟩)
  | prepared addr bs g s txt h1 h2 h3 h4 h5 h6 h7 =>
    exact .same (by simp [Event.Reinstalls]) rfl rfl (by simp)
  | found sig addr key nonce bs m txt st'' r' h1 h2 h3 h4 h5 h6 h7 hf =>
    cases hf with
    | badSignature e _ => exact .same (by simp [Event.Reinstalls]) rfl rfl (by simp [reply])
    | badKey s n sm e _ _ hp _ =>
      obtain ⟨removed, sm1, g1, _, g3, g4⟩ := SigMap.ok_prune LoginError hi.sigs now maxSigsToPrune
      rw [hp] at g1; cases g1
      refine .pruned removed e (by simp [Event.Reinstalls]) rfl g3 g4 rfl fun hn => ?_
      rw [prune_nothing LoginError _ hn] at hp
      exact (Prod.mk.inj (Res.ok.inj hp)).2.symm
    | success s n sm sm' d dh _ hs hp hd hdh hput =>
      obtain ⟨removed, sm1, g1, g2, g3, g4⟩ := SigMap.ok_prune LoginError hi.sigs now maxSigsToPrune
      rw [hp] at g1; cases g1
      obtain ⟨sm2, f1, f2, f3, f4⟩ := SigMap.ok_put LoginError g2 now (seedKey E s ⟨addr⟩) dh
      rw [hput] at f1; cases f1
      obtain ⟨k1, k2, k3, rfl⟩ := (C26_create E s key _ d).mp hd
      refine .granted removed sm.expirationQueue sig addr key nonce _ s (seedKey E s ⟨addr⟩) dh _ rfl rfl h1 hs k1 k2 k3 rfl
        (isEntry_seedKey hdh) (SigMap.isExpiryOf_satAdd now) g3 (fun y => ?_) (fun s' d' => ?_) rfl
      · show y ∈ sm'.expirationQueue ↔ _
        rw [f3, (heapPush_perm _ _).mem_iff, List.mem_cons]
      · show Holds sm' s' d' ↔ _
        rw [f4, g4]
  | getDelegation c a k e =>
    refine .same (by simp [Event.Reinstalls]) rfl rfl ?_
    intro d; cases siweGetDelegation st now c a k e <;> simp [reply]
  | getAddress p =>
    refine .same (by simp [Event.Reinstalls]) rfl rfl ?_
    intro d; cases Siwe.getAddress st p <;> simp [reply]
  | getCallerAddress p =>
    refine .same (by simp [Event.Reinstalls]) rfl rfl ?_
    intro d; cases Siwe.getCallerAddress st p <;> simp [reply]
  | getPrincipal p =>
    refine .same (by simp [Event.Reinstalls]) rfl rfl ?_
    intro d; cases Siwe.getPrincipal st p <;> simp [reply]
  | _ => exact .same (by simp [Event.Reinstalls]) rfl rfl (by simp)

/-- Where an entry of the queue comes from. -/
def FromLogin (E : Env) (es : List Event) (s : Settings) (x : SigExpiration) : Prop :=
  ∃ before e after addr key nonce d, es = before ++ e :: after ∧ SameModule after ∧ e.LogsIn addr key nonce d ∧
    IsAddress E.keccak addr ∧ d.userCanisterPubkey = userKey E s ⟨addr⟩ ∧ IsEntry E s addr key d.expiration x.seedHash x.delegationHash ∧ IsExpiryOf e.time x.expiresAt

theorem entry_origin {E : Env} {s0 : State E} (h0 : Inv s0) (h : History) (x : SigExpiration)
    (hx : x ∈ (run s0 h).1.sigMap.expirationQueue) :
    (SameModule (traceFrom s0 h) ∧ x ∈ s0.sigMap.expirationQueue) ∨
    ∃ s, (run s0 h).1.lib.settings = some s ∧ FromLogin E (traceFrom s0 h) s x := by
  induction h using history_induction with
  | nil => exact .inl ⟨fun e he => by simp [traceFrom] at he, hx⟩
  | snoc h now op ih =>
    rw [run_snoc] at hx ⊢
    rw [traceFrom_snoc]
    have hi := inv_run h0 h
    generalize (run s0 h).1 = st at hi hx ih ⊢
    have carry : ¬Event.Reinstalls ⟨now, op, (step st now op).2⟩ → x ∈ st.sigMap.expirationQueue →
        (SameModule (traceFrom s0 h ++ [⟨now, op, (step st now op).2⟩]) ∧ x ∈ s0.sigMap.expirationQueue) ∨
        ∃ s, (step st now op).1.lib.settings = some s ∧ FromLogin E (traceFrom s0 h ++ [⟨now, op, (step st now op).2⟩]) s x := by
      intro hr hx
      rcases ih hx with ⟨g1, g2⟩ | ⟨s, g1, before, e, after, addr, key, nonce, d, g2, g3, g4⟩
      · exact .inl ⟨sameModule_snoc g1 hr, g2⟩
      · exact .inr ⟨s, (effect_keep (effect hi now op) hr).1.trans g1, before, e, after ++ [_], addr, key, nonce, d,
          by rw [g2]; simp, sameModule_snoc g3 hr, g4⟩
    cases sigEffect hi now op with
    | reset _ g2 => rw [g2] at hx; simp [SigMap.empty] at hx
    | same g1 g2 => exact carry g1 (g2 ▸ hx)
    | pruned removed e g1 _ g3 => exact carry g1 (g3.split.mem_iff.mpr (by simp [hx]))
    | granted removed rest sig addr key nonce d s sh dh t g1 g2 g3 g4 _ _ _ gk g5 g6 g7 g8 =>
      have hr : ¬Event.Reinstalls ⟨now, op, (step st now op).2⟩ := by simp [Event.Reinstalls, g2]
      rcases (g8 x).mp hx with rfl | hx
      · exact .inr ⟨s, (effect_keep (effect hi now op) hr).1.trans g4, traceFrom s0 h, _, [], addr, key, nonce, d, rfl,
          fun e he => by simp at he, ⟨⟨sig, g1⟩, g2⟩, g3, gk, g5, g6⟩
      · exact carry hr (g7.split.mem_iff.mpr (by simp [hx]))

theorem entry_from_login {E : Env} {h : History} {x : SigExpiration} (hx : x ∈ (stateAfter E h).sigMap.expirationQueue) :
    ∃ s, (stateAfter E h).lib.settings = some s ∧ FromLogin E (trace E h) s x := by
  rcases entry_origin (inv_fresh E) h x hx with ⟨_, g⟩ | g
  · simp [State.fresh, SigMap.empty] at g
  · exact g

/-! ### the answer of `siwe_get_delegation` -/

theorem getDelegation_reply {E : Env} {st : State E} (hi : Inv st) (now : UInt64) (cert : Option Bytes) (addr key : Bytes)
    (expiration : UInt64) :
    DelegationReply st now addr key expiration cert (step st now (.getDelegation cert addr key expiration)).2 := by
  simp only [step]
  cases cert with
  | none => exact .noCertificate
  | some c =>
    unfold siweGetDelegation
    simp only
    cases ha : EthAddress.new E addr with
    | panic => exact absurd ha (ethAddress_new_no_panic E addr)
    | err e => exact .badAddress c e ((addressError_iff E addr e).mp ha)
    | ok a =>
      obtain ⟨hA, ea⟩ := (ethAddress_new_ok_iff E addr a).mp ha
      have ea : a = ⟨addr⟩ := by cases a; simp at ea; rw [ea]
      subst ea
      simp only [Res.mapErr_ok, Res.ok_bind]
      cases hs : st.lib.settings with
      | none => exact .notInstalled c hA hs
      | some s =>
        simp only
        cases hc : createDelegation E s key expiration with
        | panic => exact absurd hc (createDelegation_no_panic E s key expiration)
        | err e =>
          rcases (C26_errors E s key expiration e).mp hc with ⟨g1, rfl⟩ | ⟨g1, g2, rfl⟩ | ⟨g1, g2, g3, rfl⟩
          · exact .badKey c s _ hA hs (.empty g1)
          · exact .badKey c s _ hA hs (.notDer g1 g2)
          · exact .zero c s hA hs g1 g2 g3
        | ok del =>
          obtain ⟨h1, h2, h3, rfl⟩ := (C26_create E s key expiration del).1 hc
          obtain ⟨dh, h4⟩ := C33_total ProviderError E ⟨key, expiration, s.targets⟩
          have h5 := (C33_delegation_hash ProviderError E ⟨key, expiration, s.targets⟩ dh).mp h4
          have hent : IsEntry E s addr key expiration (seedKey E s ⟨addr⟩) dh := isEntry_seedKey h5
          simp only [Res.mapErr_ok, Res.ok_bind, h4]
          by_cases hx : st.sigMap.isExpired now (seedKey E s ⟨addr⟩) dh = true
          · have : witness E st.sigMap now (generateSeed E s ⟨addr⟩) dh = .err .signatureExpired := if_pos hx
            rw [this]
            exact .expired c s _ dh hA hs h1 h2 h3 hent hx
          · have hw : witness E st.sigMap now (generateSeed E s ⟨addr⟩) dh =
                (match st.sigMap.witness E (seedKey E s ⟨addr⟩) dh with
                | none => .err .signatureNotFound
                | some w => if w.reconstruct E ≠ st.sigMap.rootHash E then
                    .err (.witnessHashMismatch (w.reconstruct E) (st.sigMap.rootHash E))
                  else .ok w) := if_neg hx
            rw [Bool.not_eq_true] at hx
            rw [hw]
            by_cases hh : Holds st.sigMap (seedKey E s ⟨addr⟩) dh
            · obtain ⟨w, g1, g2, _⟩ := SigMap.witness_spec E hi.sigs.trees hh
              rw [g1]
              simp only
              rw [← digest_eq, if_neg (by simp [g2])]
              exact .success c s _ dh w _ hA hs h1 h2 h3 hent hx hh g1 rfl rfl
            · rw [SigMap.witness_none E hi.sigs.trees hh]
              exact .notFound c s _ dh hA hs h1 h2 h3 hent hx hh

theorem delegationReply_unique {E : Env} (st : State E) (now : UInt64) (cert : Option Bytes) (addr key : Bytes)
    (expiration : UInt64) (r r' : Reply) (h : DelegationReply st now addr key expiration cert r)
    (h' : DelegationReply st now addr key expiration cert r') : r = r' := by
  have hkey : ∀ {e}, KeyError E key e → ¬(key ≠ [] ∧ E.derOk key = true) := by
    rintro e (⟨h⟩ | ⟨h, h'⟩) ⟨g, g'⟩
    · exact g h
    · simp_all
  cases h with
  | noCertificate => cases h'; rfl
  | badAddress c e h1 => cases h' with
    | badAddress _ e' g1 =>
      have := (addressError_iff E addr e).mpr h1
      rw [(addressError_iff E addr e').mpr g1] at this; cases this; rfl
    | notInstalled _ g => exact absurd g (isAddress_not_error h1)
    | badKey _ _ _ g => exact absurd g (isAddress_not_error h1)
    | zero _ _ g => exact absurd g (isAddress_not_error h1)
    | expired _ _ _ _ g => exact absurd g (isAddress_not_error h1)
    | notFound _ _ _ _ g => exact absurd g (isAddress_not_error h1)
    | success _ _ _ _ _ _ g => exact absurd g (isAddress_not_error h1)
  | notInstalled c h1 h2 => cases h' with
    | badAddress _ e' g1 => exact absurd h1 (isAddress_not_error g1)
    | notInstalled => rfl
    | badKey _ s _ _ g => rw [h2] at g; cases g
    | zero _ s _ g => rw [h2] at g; cases g
    | expired _ s _ _ _ g => rw [h2] at g; cases g
    | notFound _ s _ _ _ g => rw [h2] at g; cases g
    | success _ s _ _ _ _ _ g => rw [h2] at g; cases g
  | badKey c s e h1 h2 h3 => cases h' with
    | badAddress _ e' g1 => exact absurd h1 (isAddress_not_error g1)
    | notInstalled _ _ g => rw [h2] at g; cases g
    | badKey _ s' e' _ _ g3 => cases h3 <;> cases g3 <;> simp_all
    | zero _ s' _ _ g1 g2 => exact absurd ⟨g1, g2⟩ (hkey h3)
    | expired _ s' _ _ _ _ g1 g2 => exact absurd ⟨g1, g2⟩ (hkey h3)
    | notFound _ s' _ _ _ _ g1 g2 => exact absurd ⟨g1, g2⟩ (hkey h3)
    | success _ s' _ _ _ _ _ _ g1 g2 => exact absurd ⟨g1, g2⟩ (hkey h3)
  | zero c s h1 h2 h3 h4 h5 => cases h' with
    | badAddress _ e' g1 => exact absurd h1 (isAddress_not_error g1)
    | notInstalled _ _ g => rw [h2] at g; cases g
    | badKey _ s' e' _ _ g3 => exact absurd ⟨h3, h4⟩ (hkey g3)
    | zero => rfl
    | expired _ s' _ _ _ _ _ _ g3 => exact absurd h5 g3
    | notFound _ s' _ _ _ _ _ _ g3 => exact absurd h5 g3
    | success _ s' _ _ _ _ _ _ _ _ g3 => exact absurd h5 g3
  | expired c s sh dh h1 h2 h3 h4 h5 h6 h7 => cases h' with
    | badAddress _ e' g1 => exact absurd h1 (isAddress_not_error g1)
    | notInstalled _ _ g => rw [h2] at g; cases g
    | badKey _ s' e' _ _ g3 => exact absurd ⟨h3, h4⟩ (hkey g3)
    | zero _ _ _ _ _ _ g => exact absurd g h5
    | expired => rfl
    | notFound _ s' _ _ _ g2 _ _ _ g6 g7 =>
      rw [h2] at g2; cases g2; obtain ⟨rfl, rfl⟩ := isEntry_unique h6 g6; rw [h7] at g7; cases g7
    | success _ s' _ _ _ _ _ g2 _ _ _ g6 g7 =>
      rw [h2] at g2; cases g2; obtain ⟨rfl, rfl⟩ := isEntry_unique h6 g6; rw [h7] at g7; cases g7
  | notFound c s sh dh h1 h2 h3 h4 h5 h6 h7 h8 => cases h' with
    | badAddress _ e' g1 => exact absurd h1 (isAddress_not_error g1)
    | notInstalled _ _ g => rw [h2] at g; cases g
    | badKey _ s' e' _ _ g3 => exact absurd ⟨h3, h4⟩ (hkey g3)
    | zero _ _ _ _ _ _ g => exact absurd g h5
    | expired _ s' _ _ _ g2 _ _ _ g6 g7 =>
      rw [h2] at g2; cases g2; obtain ⟨rfl, rfl⟩ := isEntry_unique h6 g6; rw [h7] at g7; cases g7
    | notFound => rfl
    | success _ s' _ _ _ _ _ g2 _ _ _ g6 g7 g8 =>
      rw [h2] at g2; cases g2; obtain ⟨rfl, rfl⟩ := isEntry_unique h6 g6; exact absurd g8 h8
  | success c s sh dh w d h1 h2 h3 h4 h5 h6 h7 h8 h9 h10 h11 => cases h' with
    | badAddress _ e' g1 => exact absurd h1 (isAddress_not_error g1)
    | notInstalled _ _ g => rw [h2] at g; cases g
    | badKey _ s' e' _ _ g3 => exact absurd ⟨h3, h4⟩ (hkey g3)
    | zero _ _ _ _ _ _ g => exact absurd g h5
    | expired _ s' _ _ _ g2 _ _ _ g6 g7 =>
      rw [h2] at g2; cases g2; obtain ⟨rfl, rfl⟩ := isEntry_unique h6 g6; rw [h7] at g7; cases g7
    | notFound _ s' _ _ _ g2 _ _ _ g6 g7 g8 =>
      rw [h2] at g2; cases g2; obtain ⟨rfl, rfl⟩ := isEntry_unique h6 g6; exact absurd h8 g8
    | success _ s' _ _ w' d' _ g2 _ _ _ g6 g7 g8 g9 g10 g11 =>
      rw [h2] at g2; cases g2; obtain ⟨rfl, rfl⟩ := isEntry_unique h6 g6
      rw [h9] at g9; cases g9
      cases d; cases d'; simp_all

theorem addressable_flatten {t : HashTree} (h : ∀ x ∈ flattenForks t, Addressable x) : Addressable t := by
  induction t with
  | empty => trivial
  | fork l r ihl ihr =>
    simp only [flattenForks, List.mem_append] at h
    exact ⟨ihl fun x hx => h x (.inl hx), ihr fun x hx => h x (.inr hx)⟩
  | labeled l t _ => exact h _ (by simp [flattenForks])
  | leaf c => exact h _ (by simp [flattenForks])
  | pruned x => trivial

theorem addressable_oneLabel {k : Bytes} {u t : HashTree} (h : OneLabel k u t) (hk : k.length < 2 ^ 64) (hu : Addressable u) :
    Addressable t := by
  obtain ⟨A, B, h1, h2⟩ := h
  apply addressable_flatten
  intro x hx
  rw [h1] at hx
  simp only [List.mem_append, List.mem_cons] at hx
  rcases hx with hx | rfl | hx
  · obtain ⟨y, rfl⟩ := h2 x (by simp [hx]); trivial
  · exact ⟨hk, hu⟩
  · obtain ⟨y, rfl⟩ := h2 x (by simp [hx]); trivial

end Siwe
