import Verif.Spec.HashOrder
import Verif.Props.Delegations
import Verif.Props.LoginHistory
/-
C137: the order in which hash maps keep their entries cannot be observed, so replicas agree.
-/
namespace Siwe
open Spec

theorem lookup_perm {M N : SiweMessageMap} (hu : UniqueKeys M) (h : M.Perm N) (k : Hash) : N.lookup k = M.lookup k := by
  have hn : UniqueKeys N := (h.map _).nodup_iff.mp hu
  refine Option.ext fun x => ?_
  rw [lookup_iff_mem hn, lookup_iff_mem hu, h.mem_iff]

theorem sameButOrder_refl {E : Env} (s : State E) : SameButOrder s s := ⟨_, .refl _, rfl⟩

theorem sameButOrder_trans {E : Env} {s t u : State E} (h : SameButOrder s t) (h' : SameButOrder t u) : SameButOrder s u := by
  obtain ⟨M, h1, rfl⟩ := h
  obtain ⟨N, h2, rfl⟩ := h'
  exact ⟨N, h1.trans h2, rfl⟩

/-- The library's states. -/
def LibSame {E : Env} (l l' : LibState E) : Prop := ∃ M, l.messages.Perm M ∧ l' = { l with messages := M }

theorem loginWith_same {E : Env} {l l' : LibState E} (h : LibSame l l') (sm : SigMap) (now : UInt64) (sig : EthSignature)
    (a : EthAddress) (key cid nonce : Bytes) (m : SiweMessage) (text : Bytes) :
    (loginWith l' sm now sig a key cid nonce m text).2 = (loginWith l sm now sig a key cid nonce m text).2 ∧
      LibSame (loginWith l sm now sig a key cid nonce m text).1 (loginWith l' sm now sig a key cid nonce m text).1 := by
  obtain ⟨M, hM, rfl⟩ := h
  unfold loginWith SiweMessageMap.remove
  cases (siweMessageMapHash E a nonce : Res LoginError Hash) with
  | err e => exact ⟨rfl, M, hM, rfl⟩
  | panic => exact ⟨rfl, M, hM, rfl⟩
  | ok k =>
    have hp : (SiweMessageMap.erase l.messages k).Perm (SiweMessageMap.erase M k) := hM.filter _
    simp only [Res.ok_bind]
    cases checkSignature E text sig a with
    | err e => exact ⟨rfl, _, hp, rfl⟩
    | panic => exact ⟨rfl, _, hp, rfl⟩
    | ok _ =>
      cases l.settings with
      | none => exact ⟨rfl, _, hp, rfl⟩
      | some s => exact ⟨rfl, _, hp, rfl⟩

theorem login_same {E : Env} {l l' : LibState E} (hu : UniqueKeys l.messages) (h : LibSame l l') (sm : SigMap) (now : UInt64)
    (sig : EthSignature) (a : EthAddress) (key cid nonce : Bytes) :
    (login l' sm now sig a key cid nonce).2 = (login l sm now sig a key cid nonce).2 ∧
      LibSame (login l sm now sig a key cid nonce).1 (login l' sm now sig a key cid nonce).1 := by
  obtain ⟨M, hM, rfl⟩ := h
  have hp : (SiweMessageMap.pruneExpired l.messages now).Perm (SiweMessageMap.pruneExpired M now) := hM.filter _
  have hs : LibSame { l with messages := l.messages.pruneExpired now } { l with messages := SiweMessageMap.pruneExpired M now } := ⟨_, hp, rfl⟩
  unfold login SiweMessageMap.get
  cases (siweMessageMapHash E a nonce : Res LoginError Hash) with
  | err e => exact ⟨rfl, hs⟩
  | panic => exact ⟨rfl, hs⟩
  | ok k =>
    simp only [Res.ok_bind]
    have hlk : (SiweMessageMap.pruneExpired M now).lookup k = (SiweMessageMap.pruneExpired l.messages now).lookup k :=
      lookup_perm (uniqueKeys_filter hu _) hp k
    rw [hlk]
    cases (SiweMessageMap.pruneExpired l.messages now).lookup k with
    | none => exact ⟨rfl, hs⟩
    | some m =>
      dsimp only
      cases (m.text : Res LoginError Bytes) with
      | err e => exact ⟨rfl, hs⟩
      | panic => exact ⟨rfl, hs⟩
      | ok text => exact loginWith_same hs sm now sig a key cid nonce m text

theorem prepareLogin_same {E : Env} {l l' : LibState E} (h : LibSame l l') (now : UInt64) (a : EthAddress) :
    (prepareLogin l now a = .panic ∧ prepareLogin l' now a = .panic) ∨
      (∃ e, prepareLogin l now a = .err e ∧ prepareLogin l' now a = .err e) ∨
      ∃ t t' m n, prepareLogin l now a = .ok (t, m, n) ∧ prepareLogin l' now a = .ok (t', m, n) ∧ LibSame t t' := by
  obtain ⟨M, hM, rfl⟩ := h
  unfold prepareLogin generateNonce
  cases hr : l.rng with
  | none => exact .inl ⟨rfl, rfl⟩
  | some rng =>
    simp only [Res.ok_bind]
    cases hs : l.settings with
    | none => exact .inl ⟨rfl, rfl⟩
    | some s =>
      simp only [SiweMessageMap.insert]
      cases (siweMessageMapHash E a (hexEncode (E.rngFill10 rng).1.val) : Res EthError Hash) with
      | err e => exact .inr (.inl ⟨e, rfl, rfl⟩)
      | panic => exact .inl ⟨rfl, rfl⟩
      | ok k => exact .inr (.inr ⟨_, _, _, _, rfl, rfl, _, (hM.filter _).cons _, rfl⟩)

theorem manage_same {E : Env} {s s' : State E} (h : SameButOrder s s') (p : Bytes) (a : EthAddress) :
    (managePrincipalAddressMappings s p a = .panic ∧ managePrincipalAddressMappings s' p a = .panic) ∨
      (∃ e, managePrincipalAddressMappings s p a = .err e ∧ managePrincipalAddressMappings s' p a = .err e) ∨
      ∃ t t', managePrincipalAddressMappings s p a = .ok t ∧ managePrincipalAddressMappings s' p a = .ok t' ∧ SameButOrder t t' := by
  obtain ⟨M, hM, rfl⟩ := h
  unfold managePrincipalAddressMappings
  cases h1 : s.settings.disablePrincipalToEthMapping <;> cases h2 : s.settings.disableEthToPrincipalMapping <;>
    cases (a.asByteArray.unwrap : Res ProviderError Bytes) <;> simp [h1, h2] <;> exact ⟨M, hM, rfl⟩

theorem step_same {E : Env} {s s' : State E} (hu : UniqueKeys s.lib.messages) (h : SameButOrder s s') (now : UInt64) (op : Op) :
    (step s' now op).2 = (step s now op).2 ∧ SameButOrder (step s now op).1 (step s' now op).1 := by
  obtain ⟨M, hM, rfl⟩ := h
  have hl : LibSame s.lib { s.lib with messages := M } := ⟨M, hM, rfl⟩
  have hs : SameButOrder s { s with lib := { s.lib with messages := M } } := ⟨M, hM, rfl⟩
  cases op with
  | install i =>
    simp only [step, commitInit]
    cases siweInit (State.fresh E) i with
    | ok t => exact ⟨rfl, sameButOrder_refl _⟩
    | err e => exact nomatch e
    | panic => exact ⟨rfl, hs⟩
  | upgrade i =>
    simp only [step, commitInit, show State.afterUpgrade { s with lib := { s.lib with messages := M } } = s.afterUpgrade from rfl]
    cases siweInit s.afterUpgrade i with
    | ok t => exact ⟨rfl, sameButOrder_refl _⟩
    | err e => exact nomatch e
    | panic => exact ⟨rfl, hs⟩
  | rngSeeded seed => exact ⟨rfl, M, hM, rfl⟩
  | getDelegation c a k e => exact ⟨rfl, hs⟩
  | getAddress p => exact ⟨rfl, hs⟩
  | getCallerAddress p => exact ⟨rfl, hs⟩
  | getPrincipal a => exact ⟨rfl, hs⟩
  | prepareLogin a =>
    simp only [step, siwePrepareLogin]
    cases EthAddress.new E a with
    | err e => exact ⟨rfl, hs⟩
    | panic => exact ⟨rfl, hs⟩
    | ok a =>
      rcases prepareLogin_same hl now a with ⟨h1, h2⟩ | ⟨e, h1, h2⟩ | ⟨t, t', m, n, h1, h2, N, hN, rfl⟩
      · simp only [h1, h2, commit]; exact ⟨trivial, hs⟩
      · simp only [h1, h2, commit]; exact ⟨trivial, hs⟩
      · simp only [h1, h2]
        cases (m.text : Res ProviderError Bytes) with
        | err e => exact ⟨rfl, N, hN, rfl⟩
        | panic => exact ⟨rfl, hs⟩
        | ok text => exact ⟨rfl, N, hN, rfl⟩
  | login sig a key nonce =>
    simp only [step, siweLogin]
    cases EthAddress.new E a with
    | err e => exact ⟨rfl, hs⟩
    | panic => exact ⟨rfl, hs⟩
    | ok a =>
      cases EthSignature.new sig with
      | err e => exact ⟨rfl, hs⟩
      | panic => exact ⟨rfl, hs⟩
      | ok sig =>
        obtain ⟨h1, h2⟩ := login_same hu hl s.sigMap now sig a key E.canisterId nonce
        dsimp only
        generalize login s.lib s.sigMap now sig a key E.canisterId nonce = x at h1 h2 ⊢
        generalize login { s.lib with messages := M } s.sigMap now sig a key E.canisterId nonce = x' at h1 h2 ⊢
        obtain ⟨t, sm, r⟩ := x
        obtain ⟨t', sm', r'⟩ := x'
        simp only [Prod.mk.injEq] at h1 h2
        obtain ⟨rfl, rfl⟩ := h1
        obtain ⟨N, hN, rfl⟩ := h2
        cases r' with
        | err e => exact ⟨rfl, N, hN, rfl⟩
        | panic => exact ⟨rfl, hs⟩
        | ok d =>
          simp only
          split
          · exact ⟨rfl, hs⟩
          · rcases manage_same (s := updateRootHash { s with lib := t, sigMap := sm' })
              (s' := updateRootHash { s with lib := { t with messages := N }, sigMap := sm' }) ⟨N, hN, rfl⟩
              (List.take 29 (selfAuthenticating E d.userCanisterPubkey)) a with ⟨g1, g2⟩ | ⟨e, g1, g2⟩ | ⟨u, u', g1, g2, g3⟩
            · rw [g1, g2]; exact ⟨rfl, hs⟩
            · rw [g1, g2]; exact ⟨rfl, N, hN, rfl⟩
            · rw [g1, g2]; exact ⟨rfl, g3⟩

/-- C137: whatever order its hash map keeps the pending sign-ins in, and however that order changes between the calls, a replica gives to
every call the reply that the model gives, and ends in the same state but for that order. -/
theorem C137_order_is_not_observed (E : Env) (es : List Event) (s : State E) (h : Replica E es s) :
    es = trace E (callsAmong es) ∧ SameButOrder (stateAfter E (callsAmong es)) s := by
  induction h with
  | new => exact ⟨rfl, sameButOrder_refl _⟩
  | rearranged _ hs ih => exact ⟨ih.1, sameButOrder_trans ih.2 hs⟩
  | @called es s now op _ ih =>
    obtain ⟨h1, h2⟩ := step_same (inv_stateAfter E (callsAmong es)).keys ih.2 now op
    have hc : callsAmong (es ++ [⟨now, op, (step s now op).2⟩]) = callsAmong es ++ [(now, op)] := by simp [callsAmong]
    rw [hc]
    constructor
    · rw [trace, traceFrom_snoc, h1]
      exact congrArg (· ++ _) ih.1
    · rw [stateAfter, run_snoc]
      exact h2

/-- C137: so two replicas that were sent the same calls have given the same replies, certify the same data and have the same signatures and
mappings. -/
theorem C137_replicas_agree (E : Env) (es es' : List Event) (s s' : State E) (h : Replica E es s) (h' : Replica E es' s')
    (hc : callsAmong es = callsAmong es') :
    es = es' ∧ s.certifiedData = s'.certifiedData ∧ s.sigMap = s'.sigMap ∧ s.principalAddress = s'.principalAddress ∧
      s.addressPrincipal = s'.addressPrincipal ∧ s.lib.messages.Perm s'.lib.messages := by
  obtain ⟨h1, M, h2, rfl⟩ := C137_order_is_not_observed E es s h
  obtain ⟨h1', M', h2', rfl⟩ := C137_order_is_not_observed E es' s' h'
  rw [hc] at h1 h2 ⊢
  exact ⟨h1.trans h1'.symm, rfl, rfl, rfl, rfl, h2.symm.trans h2'⟩

/-- C137: the hash of a map does not depend on the order of its entries, so neither does that of a delegation. -/
theorem C137_hash_of_map {ε : Type} (E : Env) (m m' : List (Bytes × Value)) (h : m.Perm m') :
    (hashOfMap E m : Res ε Hash) = hashOfMap E m' := by
  obtain ⟨x, hx⟩ := mapHash_exists E m
  rw [(hashOfMap_spec ε E m x).2 hx, (hashOfMap_spec ε E m' x).2 (mapHash_perm h hx)]

/-- Every history is one of a replica. -/
theorem replica_of_history (E : Env) (h : History) : Replica E (trace E h) (stateAfter E h) := by
  rcases List.eq_nil_or_concat h with rfl | ⟨h', x, rfl⟩
  · exact .new
  · have := replica_of_history E h'
    rw [List.concat_eq_append, stateAfter, run_snoc, trace, traceFrom_snoc]
    exact .called x.1 x.2 this
termination_by h.length
decreasing_by simp_all

/-- Non-vacuity: replicas with two pending sign-ins have them in different orders. -/
example : ∃ s s', Replica Toy.env (trace Toy.env Ex.preparedAgain) s ∧ Replica Toy.env (trace Toy.env Ex.preparedAgain) s' ∧
    s.lib.messages ≠ s'.lib.messages := by
  refine ⟨_, _, replica_of_history _ _, .rearranged (replica_of_history _ _) ⟨_, (List.reverse_perm _).symm, rfl⟩, ?_⟩
  decide +kernel

end Siwe
