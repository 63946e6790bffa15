import Verif.Props.Growth
import Verif.Spec.Limits
/- Lemmas about the provider on a machine with limits. -/
namespace Siwe
open Spec

theorem pruneVisits_eq (m : SiweMessageMap) : m.pruneVisits = m.length := by
  induction m with
  | nil => rfl
  | cons x m ih => simp only [SiweMessageMap.pruneVisits, ih, List.length_cons]; omega

theorem pruneRounds_le (k : Nat) (m : SigMap) (now : UInt64) : SigMap.pruneRounds k m now ≤ k := by
  induction k generalizing m with
  | zero => exact Nat.le_refl _
  | succ k ih =>
    unfold SigMap.pruneRounds
    repeat' split
    all_goals first
      | omega
      | (have := ih m; omega)
      | (next m' _ => have := ih m'; omega)

theorem findVisits_le {α : Type} (p : α → Bool) (l : List α) : findVisits p l ≤ l.length := by
  induction l with
  | nil => exact Nat.le_refl _
  | cons x l ih => simp only [findVisits, List.length_cons]; split <;> omega

namespace Limits
variable {E : Env} (L : Limits)

theorem step_cases (s : State E) (now : UInt64) (op : Op) :
    L.step s now op = (s, .trap) ∨ L.step s now op = Siwe.step s now op := by
  unfold step; split
  · exact .inl rfl
  · exact .inr rfl

theorem run_append (s : State E) (h h' : History) : (L.run s (h ++ h')).1 = (L.run (L.run s h).1 h').1 := by
  induction h generalizing s with
  | nil => rfl
  | cons x h ih => obtain ⟨now, op⟩ := x; simp only [List.cons_append, run, ih]

theorem run_snoc (s : State E) (h : History) (now : UInt64) (op : Op) :
    (L.run s (h ++ [(now, op)])).1 = (L.step (L.run s h).1 now op).1 := by rw [L.run_append]; rfl

theorem trace_append (s : State E) (h h' : History) :
    limitedTrace L s (h ++ h') = limitedTrace L s h ++ limitedTrace L (L.run s h).1 h' := by
  induction h generalizing s with
  | nil => rfl
  | cons x h ih => obtain ⟨now, op⟩ := x; simp only [List.cons_append, run, limitedTrace, ih]

theorem trace_snoc (s : State E) (h : History) (now : UInt64) (op : Op) :
    limitedTrace L s (h ++ [(now, op)]) = limitedTrace L s h ++ [⟨now, op, (L.step (L.run s h).1 now op).2⟩] := by
  rw [L.trace_append]; rfl

theorem inv_step {s : State E} (hi : Inv s) (now : UInt64) (op : Op) : Inv (L.step s now op).1 := by
  rcases L.step_cases s now op with h | h <;> rw [h]
  · exact hi
  · exact Siwe.inv_step hi now op

theorem inv_run {s : State E} (hi : Inv s) (h : History) : Inv (L.run s h).1 := by
  induction h using history_induction with
  | nil => exact hi
  | snoc h now op ih => rw [L.run_snoc]; exact L.inv_step ih now op

theorem inv_stateAfter (h : History) : Inv (L.stateAfter E h) := L.inv_run (inv_fresh E) h

/-- There is never more stored than there is memory for. -/
theorem messages_le (h : History) : (L.stateAfter E h).lib.messages.length ≤ L.messages := by
  induction h using history_induction with
  | nil => exact Nat.zero_le _
  | snoc h now op ih =>
    show (L.run _ (h ++ [(now, op)])).1.lib.messages.length ≤ _
    rw [L.run_snoc]
    unfold step
    split
    · exact ih
    · next hn => exact Nat.not_lt.mp fun g => hn (.inr g)

end Limits

theorem visits_login_le {E : Env} (s : State E) (now : UInt64) (sig addr key nonce : Bytes) :
    visits s now (.login sig addr key nonce) ≤ s.lib.messages.length + min 10 s.sigMap.expirationQueue.length := by
  simp only [visits, siweLoginVisits]
  repeat' split
  · unfold loginVisits
    rw [pruneVisits_eq]
    apply Nat.add_le_add_left
    split
    · next m _ =>
      cases h : (m.text : Res LoginError _) with
      | ok t =>
        simp only [Res.elim]
        split
        · exact pruneRounds_le _ _ _
        · exact Nat.zero_le _
      | _ => exact Nat.zero_le _
    · exact Nat.zero_le _
  all_goals exact Nat.zero_le _

theorem visits_login_ge {E : Env} (s : State E) (now : UInt64) (sig addr key nonce : Bytes)
    (ha : IsAddress E.keccak addr) (hs : HexString 130 sig) :
    s.lib.messages.length ≤ visits s now (.login sig addr key nonce) := by
  simp only [visits, siweLoginVisits]
  rw [(ethAddress_new_ok_iff E addr ⟨addr⟩).mpr ⟨ha, rfl⟩, (ethSignature_new_ok_iff sig ⟨sig⟩).mpr ⟨hs, rfl⟩]
  simp only [loginVisits]
  rw [pruneVisits_eq]
  exact Nat.le_add_right _ _

theorem delete_queue {ε : Type} (ε' : Type) {m m' : SigMap} {a b : Hash} (h : (m.delete a b : Res ε _) = .ok m') :
    m'.expirationQueue = m.expirationQueue ∧ (m.delete a b : Res ε' _) = .ok m' := by
  unfold SigMap.delete at h ⊢
  cases hm : m.certifiedMap.modify a fun sub => sub.delete b with
  | none => rw [hm] at h; cases h
  | some cm =>
    rw [hm] at h
    simp only at h ⊢
    have done : ∀ b : Bool, (if b = true then (match cm.delete a with | none => .panic | some cm' => .ok ⟨cm', m.expirationQueue⟩)
        else .ok ⟨cm, m.expirationQueue⟩ : Res ε SigMap) = .ok m' → m'.expirationQueue = m.expirationQueue ∧
        (if b = true then (match cm.delete a with | none => .panic | some cm' => .ok ⟨cm', m.expirationQueue⟩)
        else .ok ⟨cm, m.expirationQueue⟩ : Res ε' SigMap) = .ok m' := by
      intro b h
      cases b
      · have := Res.ok.inj h
        subst this
        exact ⟨rfl, rfl⟩
      · cases hd : cm.delete a with
        | none => rw [hd] at h; cases h
        | some cm' =>
          rw [hd] at h
          have := Res.ok.inj h
          subst this
          exact ⟨rfl, rfl⟩
    exact done _ h

/-- Every signature that is pruned was looked at. -/
theorem pruneLoop_rounds {ε : Type} (k : Nat) {m m' : SigMap} {now : UInt64} {n n' : Nat} (hq : HeapOk m.expirationQueue)
    (h : (SigMap.pruneLoop k m now n : Res ε _) = .ok (n', m')) :
    m.expirationQueue.length ≤ m'.expirationQueue.length + SigMap.pruneRounds k m now := by
  induction k generalizing m n with
  | zero => cases h; exact Nat.le_refl _
  | succ k ih =>
    unfold SigMap.pruneLoop at h
    unfold SigMap.pruneRounds
    cases hp : heapPeek m.expirationQueue with
    | none =>
      rw [hp] at h
      have := ih hq h
      simp only
      omega
    | some e =>
      rw [hp] at h
      simp only at h ⊢
      split at h
      · cases h; omega
      · next hx =>
        rw [if_neg hx]
        obtain ⟨top, rest, hd⟩ : ∃ top rest, m.expirationQueue = top :: rest := by
          cases hm : m.expirationQueue with
          | nil => rw [hm] at hp; cases hp
          | cons t r => exact ⟨t, r, rfl⟩
        obtain ⟨q, h1, h2, h3⟩ := heapPop_spec (hd ▸ hq : HeapOk (top :: rest))
        rw [hd, h1] at h ⊢
        simp only at h ⊢
        cases hdel : (SigMap.delete ⟨m.certifiedMap, q⟩ top.seedHash top.delegationHash : Res ε SigMap) with
        | ok m1 =>
          rw [hdel] at h
          obtain ⟨e1, e2⟩ := delete_queue Empty hdel
          rw [e2]
          simp only at e1
          have := ih (by rw [e1]; exact h3) h
          rw [e1, h2.length_eq] at this
          simp only [List.length_cons]
          omega
        | err _ => rw [hdel] at h; cases h
        | panic => rw [hdel] at h; cases h

theorem login_dropped {E : Env} {l : LibState E} {sm : SigMap} (hq : HeapOk sm.expirationQueue) (now : UInt64) (g : EthSignature)
    (a : EthAddress) (key canisterId nonce : Bytes) :
    l.messages.length + sm.expirationQueue.length ≤
      loginVisits l sm now g a nonce + (Siwe.login l sm now g a key canisterId nonce).2.1.expirationQueue.length := by
  unfold loginVisits Siwe.login
  rw [pruneVisits_eq, Nat.add_assoc]
  apply Nat.add_le_add_left
  simp only
  split
  · next m hm =>
    rw [hm]
    simp only
    cases ht : (m.text : Res LoginError _) with
    | err e => simp only [Res.elim]; omega
    | panic => simp only [Res.elim]; omega
    | ok text =>
      simp only [Res.elim, loginWith]
      cases hrm : (SiweMessageMap.remove E (l.messages.pruneExpired now) a nonce : Res LoginError _) with
      | err e => simp only; omega
      | panic => simp only; omega
      | ok msgs =>
        simp only
        cases hc : checkSignature E text g a with
        | err e => simp only; omega
        | panic => simp only; omega
        | ok u =>
          simp only
          split
          · simp only; omega
          · unfold grant
            simp only
            cases hp : (sm.pruneExpired now maxSigsToPrune : Res LoginError _) with
            | err e => simp only; omega
            | panic => simp only; omega
            | ok x =>
              obtain ⟨n', m'⟩ := x
              have := pruneLoop_rounds _ hq hp
              simp only
              split
              · simp only; omega
              · simp only; omega
              · split
                · simp only; omega
                · simp only; omega
                · split
                  · simp only; omega
                  · simp only; omega
                  · next m2 hput =>
                    have : m2.expirationQueue.length = m'.expirationQueue.length + 1 := by
                      unfold SigMap.put at hput
                      simp only at hput
                      split at hput
                      · cases hput
                      · cases hput; exact (heapPush_perm _ _).length_eq
                    simp only; omega
  · next hn =>
    split
    · simp only; omega
    · simp only; omega
    · simp only; omega
    · next m hm => exact absurd hm (hn m)

theorem manage_sigMap {E : Env} {s s' : State E} {p : Bytes} {a : EthAddress} (h : managePrincipalAddressMappings s p a = .ok s') :
    s'.sigMap = s.sigMap := by
  unfold managePrincipalAddressMappings at h
  cases hb : (a.asByteArray.unwrap : Res ProviderError _) <;> rw [hb] at h <;>
  cases h1 : s.settings.disablePrincipalToEthMapping <;> cases h2 : s.settings.disableEthToPrincipalMapping <;>
    simp_all [Bind.bind, Res.bind] <;> (cases h; rfl)

theorem visits_login_dropped {E : Env} {s : State E} (hi : Inv s) (now : UInt64) (sig addr key nonce : Bytes)
    (ha : IsAddress E.keccak addr) (hs : HexString 130 sig) :
    s.lib.messages.length + s.sigMap.expirationQueue.length ≤
      visits s now (.login sig addr key nonce) + (step s now (.login sig addr key nonce)).1.sigMap.expirationQueue.length := by
  have hge := visits_login_ge s now sig addr key nonce ha hs
  have hd := login_dropped (l := s.lib) hi.sigs.heap now ⟨sig⟩ ⟨addr⟩ key E.canisterId nonce
  simp only [visits, siweLoginVisits, step, commit, siweLogin] at hge ⊢
  rw [(ethAddress_new_ok_iff E addr ⟨addr⟩).mpr ⟨ha, rfl⟩, (ethSignature_new_ok_iff sig ⟨sig⟩).mpr ⟨hs, rfl⟩] at hge ⊢
  simp only at hge ⊢
  generalize Siwe.login s.lib s.sigMap now ⟨sig⟩ ⟨addr⟩ key E.canisterId nonce = x at hd ⊢
  obtain ⟨l, sm, r⟩ := x
  cases r with
  | err e => exact hd
  | panic => simp only; omega
  | ok details =>
    simp only
    split
    · next hp =>
      simp only; omega
    · next hp =>
      split
      · next hq => rw [if_pos hq] at hp; exact absurd rfl hp
      · next hq =>
        rw [if_neg hq] at hp
        split
        · next hm => exact hd
        · next hm => rw [hm] at hp; exact absurd rfl hp
        · next s' hm =>
          rw [manage_sigMap hm]
          exact hd

theorem visits_login_bad {E : Env} (s : State E) (now : UInt64) (sig addr key nonce : Bytes)
    (h : ¬(IsAddress E.keccak addr ∧ HexString 130 sig)) : visits s now (.login sig addr key nonce) = 0 := by
  simp only [visits, siweLoginVisits]
  split
  · next a ha =>
    split
    · next g hg => exact absurd ⟨((ethAddress_new_ok_iff E addr a).mp ha).1, ((ethSignature_new_ok_iff sig g).mp hg).1⟩ h
    · rfl
  · rfl

theorem visits_getDelegation_le {E : Env} (s : State E) (now : UInt64) (c : Option Bytes) (a k : Bytes) (e : UInt64) :
    visits s now (.getDelegation c a k e) ≤ s.sigMap.expirationQueue.length := by
  simp only [visits, siweGetDelegationVisits]
  repeat' split
  all_goals first | exact Nat.zero_le _ | exact findVisits_le _ _

end Siwe
