import Verif.Lemmas.Grants
/-
Pruning removes a signature or leaves the trees exactly as they are.
-/
namespace Siwe
open Spec

namespace RbTree
variable {K V : Type} [Ord K]

theorem modify_absent {t : RbTree K V} {key : K} {f : V → Option V} (h : t.get key = none) : t.modify key f = some t := by
  induction t with
  | nil => rfl
  | node c l k v r ih1 ih2 =>
    rw [get] at h
    rcases hc : compare key k with _ | _ | _ <;> simp only [hc] at h
    · simp [modify, hc, ih1 h]
    · exact (nomatch h)
    · simp [modify, hc, ih2 h]

theorem modify_same {t : RbTree K V} {key : K} {f : V → Option V} {v : V} (h : t.get key = some v) (hf : f v = some v) :
    t.modify key f = some t := by
  induction t with
  | nil => exact (nomatch h)
  | node c l k w r ih1 ih2 =>
    rw [get] at h
    rcases hc : compare key k with _ | _ | _ <;> simp only [hc] at h
    · simp [modify, hc, ih1 h]
    · cases h; simp [modify, hc, hf]
    · simp [modify, hc, ih2 h]

end RbTree

namespace SigMap

theorem delete_absent (ε : Type) {m : SigMap} (h : TreesOk m) {s d : Hash} (hn : ¬Holds m s d) : (m.delete s d : Res ε SigMap) = .ok m := by
  rw [holds_iff h] at hn
  rcases hk : m.certifiedMap.get s with _ | sub
  · simp [delete, RbTree.modify_absent hk, hk]
  · have hd : sub.get d = none := by
      rcases hx : sub.get d with _ | u
      · rfl
      · exact absurd ⟨sub, hk, hx⟩ hn
    have hdel : sub.delete d = some sub := by unfold RbTree.delete; rw [hd]
    simp [delete, RbTree.modify_same (f := fun sub => sub.delete d) hk hdel, hk, (h.inner s sub hk).2]

theorem pruneLoop_same (ε : Type) (steps : Nat) {m m' : SigMap} {now : UInt64} {n n' : Nat} (h : TreesOk m) (hq : HeapOk m.expirationQueue)
    (hs : steps ≤ m.expirationQueue.length) (hp : (pruneLoop steps m now n : Res ε _) = .ok (n', m'))
    (hk : ∀ s d, Holds m s d → Holds m' s d) : m'.certifiedMap = m.certifiedMap := by
  induction steps generalizing m n with
  | zero => simp only [pruneLoop] at hp; cases hp; rfl
  | succ steps ih =>
    rcases hd : m.expirationQueue with _ | ⟨top, rest⟩
    · simp [hd] at hs
    · rw [hd] at hq hs
      obtain ⟨q, hpop, hperm, hq'⟩ := heapPop_spec hq
      have hlen := hperm.length_eq
      simp only [List.length_cons] at hs
      rw [pruneLoop] at hp
      simp only [hd, heapPeek, List.head?_cons] at hp
      by_cases hdue : top.expiresAt > now
      · rw [if_pos hdue] at hp; cases hp; rfl
      · rw [if_neg hdue] at hp
        simp only [hpop] at hp
        have h0 : TreesOk ⟨m.certifiedMap, q⟩ := ⟨h.outer, h.inner⟩
        by_cases hh : Holds ⟨m.certifiedMap, q⟩ top.seedHash top.delegationHash
        · exfalso
          obtain ⟨m1, hm1, ht1, hq1, hh1⟩ := delete_spec h0 ε top.seedHash top.delegationHash
          rw [hm1] at hp
          simp only [Res.ok_bind] at hp
          simp only at hq1
          obtain ⟨removed, m2, hm2, _, _, _, hh2⟩ := pruneLoop_spec ε steps ht1 (hq1 ▸ hq') now (n + 1) (by rw [hq1]; omega)
          rw [hm2] at hp
          cases hp
          have := hk top.seedHash top.delegationHash hh
          rw [hh2, hh1] at this
          exact this.1.1 ⟨rfl, rfl⟩
        · rw [delete_absent ε h0 hh] at hp
          simp only [Res.ok_bind] at hp
          exact ih (m := ⟨m.certifiedMap, q⟩) h0 hq' (by show steps ≤ q.length; omega) hp hk

theorem prune_same (ε : Type) {m m' : SigMap} {now : UInt64} {k n : Nat} (h : Ok m) (hp : (m.pruneExpired now k : Res ε _) = .ok (n, m'))
    (hk : ∀ s d, Holds m s d → Holds m' s d) : m'.certifiedMap = m.certifiedMap :=
  pruneLoop_same ε _ h.trees h.heap (Nat.min_le_right _ _) hp hk

end SigMap

/-- A call that neither logs in nor replaces the module keeps the certified data, adds no signature, and leaves the trees as they are
unless it removes a signature. -/
theorem quiet_step {E : Env} {st : State E} (hi : Inv st) (now : UInt64) (op : Op)
    (hr : ¬Event.Reinstalls ⟨now, op, (step st now op).2⟩) (hl : ∀ d, (step st now op).2 ≠ .loggedIn d) :
    (step st now op).1.certifiedData = st.certifiedData ∧
    (∀ s d, Holds (step st now op).1.sigMap s d → Holds st.sigMap s d) ∧
    ((∀ s d, Holds st.sigMap s d → Holds (step st now op).1.sigMap s d) →
      (step st now op).1.sigMap.certifiedMap = st.sigMap.certifiedMap) := by
  have h := step_case hi now op
  generalize (step st now op).1 = st' at h ⊢
  generalize (step st now op).2 = r at h hr hl ⊢
  cases h with
  | installed i s p h1 h2 => exact absurd ⟨i, .inl rfl, rfl⟩ hr
  | upgraded i s p h1 h2 => exact absurd ⟨i, .inr rfl, rfl⟩ hr
  | found sig addr key nonce bs m txt st'' r' h1 h2 h3 h4 h5 h6 h7 hf =>
    cases hf with
    | badSignature e _ => exact ⟨rfl, fun _ _ h => h, fun _ => rfl⟩
    | badKey s n sm e _ _ hp _ =>
      obtain ⟨removed, sm1, g1, _, g3, g4⟩ := SigMap.ok_prune LoginError hi.sigs now maxSigsToPrune
      have hp' := hp
      rw [hp] at g1; cases g1
      exact ⟨rfl, fun s d h => ((g4 s d).mp h).1, fun hk => SigMap.prune_same LoginError hi.sigs hp' hk⟩
    | success s n sm sm' d dh _ hs hp hd hdh hput => exact absurd rfl (hl _)
  | _ => exact ⟨rfl, fun _ _ h => h, fun _ => rfl⟩

end Siwe
