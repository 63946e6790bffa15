import Verif.Lemmas.HashTree
import Verif.Model.Delegation
import Verif.Examples.Toy
/- Properties of the signature map: C31, C32, C36–C39. -/
namespace Siwe
open Spec

/-- Maps that calls of the interface can produce from the empty map. -/
def Spec.Reachable (m : SigMap) : Prop := ∃ ops, applyOps .empty ops = .ok m

theorem Spec.Reachable.ok {m : SigMap} (h : Reachable m) : m.Ok := by
  obtain ⟨ops, h⟩ := h
  obtain ⟨m', _, h1, h2, _⟩ := SigMap.ok_applyOps SigMap.ok_empty ops _ SigMap.represents_empty
  rw [h] at h1; cases h1; exact h2

namespace Ex
/-- A hash whose bytes are all `n`. -/
def h (n : UInt8) : Hash := ⟨List.replicate 32 n, by simp⟩
/-- Two seeds; the second seed's only pair is put and deleted, one pair of the first is pruned. -/
def ops : List MapOp :=
  [.put 5 (h 1) (h 7), .put 9 (h 1) (h 6), .put 8 (h 2) (h 7), .delete (h 2) (h 7), .prune 60000000005 10]
/-- The resulting map. -/
def map : SigMap :=
  ⟨.node .black .nil (h 1) (.node .black .nil (h 6) () .nil) .nil,
    [⟨h 2, h 7, 60000000008⟩, ⟨h 1, h 6, 60000000009⟩]⟩
theorem run : applyOps .empty ops = .ok map := by decide +kernel
theorem reach : Reachable map := ⟨ops, run⟩
theorem holds : Holds map (h 1) (h 6) := ⟨.node .black .nil (h 6) () .nil, by simp [HasSeed, map], by simp⟩
end Ex

/-- C36: after any calls, none of which fails, the map holds exactly the pairs of the abstract set, and `witness`
sees exactly those. -/
theorem C36_signature_map_is_a_set_with_expiry (E : Env) (ops : List MapOp) :
    ∃ m a, applyOps .empty ops = .ok m ∧ AbsRun .empty ops a ∧ Represents m a ∧
      ∀ s d, (m.witness E s d).isSome = true ↔ a.pairs s d := by
  obtain ⟨m, a, h1, h2, h3, h4⟩ := SigMap.ok_applyOps SigMap.ok_empty ops _ SigMap.represents_empty
  refine ⟨m, a, h1, h3, h4, fun s d => ?_⟩
  rw [← h4.pairs]
  constructor
  · intro h
    by_cases hh : Holds m s d
    · exact hh
    · rw [SigMap.witness_none E h2.trees hh] at h; simp at h
  · intro hh
    obtain ⟨w, hw, _⟩ := SigMap.witness_spec E h2.trees hh
    simp [hw]

example : ∃ m, applyOps .empty Ex.ops = .ok m ∧ (m.witness Toy.env (Ex.h 1) (Ex.h 6)).isSome = true ∧
    (m.witness Toy.env (Ex.h 1) (Ex.h 7)).isSome = false ∧ (m.witness Toy.env (Ex.h 2) (Ex.h 7)).isSome = false :=
  ⟨Ex.map, Ex.run, by decide +kernel, by decide +kernel, by decide +kernel⟩

/-- An entry due at `now`. -/
def Spec.due (now : UInt64) (e : SigExpiration) : Bool := decide (e.expiresAt.toNat ≤ now.toNat)

theorem Spec.Pruned.count {now : UInt64} {k : Nat} {before removed after : List SigExpiration}
    (h : Pruned now k before removed after) : removed.length = min k (before.countP (Spec.due now)) := by
  rw [h.split.countP_eq, List.countP_append]
  have : removed.countP (Spec.due now) = removed.length := List.countP_eq_length.mpr fun e he => by simpa [Spec.due] using h.due e he
  have hb := h.bounded
  rcases h.exhaustive with h' | h'
  · omega
  · have : after.countP (Spec.due now) = 0 := List.countP_eq_zero.mpr fun e he => by
      have := h' e he; simp [Spec.due]; omega
    omega

/-- C37: pruning reports and removes as many due entries as the limit allows, soonest expiry first, and removes
exactly the pairs of the removed entries.  A pair without a due entry stays; with a sufficient limit no due entry
stays. -/
theorem C37_prune_removes_what_is_due (m : SigMap) (hm : Reachable m) (now : UInt64) (k : Nat) :
    ∃ removed m', (m.pruneExpired now k : Res Empty _) = .ok (removed.length, m') ∧
      removed.length = min k (m.expirationQueue.countP (due now)) ∧
      Pruned now k m.expirationQueue removed m'.expirationQueue ∧
      (∀ s d, Holds m' s d ↔ Holds m s d ∧ ∀ e ∈ removed, ¬(e.seedHash = s ∧ e.delegationHash = d)) ∧
      (∀ s d, Holds m s d →
        (∀ e ∈ m.expirationQueue, e.seedHash = s → e.delegationHash = d → now.toNat < e.expiresAt.toNat) →
        Holds m' s d) ∧
      (m.expirationQueue.length ≤ k → ∀ e ∈ m'.expirationQueue, now.toNat < e.expiresAt.toNat) := by
  obtain ⟨removed, m', h1, _, h3, h4⟩ := SigMap.ok_prune Empty hm.ok now k
  refine ⟨removed, m', h1, h3.count, h3, h4, fun s d hh hnd => ?_, fun hk e he => ?_⟩
  · refine (h4 s d).mpr ⟨hh, fun e he hs => ?_⟩
    have := hnd e (h3.split.mem_iff.mpr (by simp [he])) hs.1 hs.2
    have := h3.due e he
    omega
  · rcases h3.exhaustive with h | h
    · have := h3.split.length_eq
      simp only [List.length_append] at this
      have : m'.expirationQueue = [] := List.eq_nil_of_length_eq_zero (by omega)
      rw [this] at he; simp at he
    · exact h e he

example : Reachable Ex.map ∧ Ex.map.expirationQueue.countP (due 60000000008) = 1 ∧
    (Ex.map.pruneExpired 60000000008 10 : Res Empty _) =
      .ok (1, ⟨Ex.map.certifiedMap, [⟨Ex.h 1, Ex.h 6, 60000000009⟩]⟩) :=
  ⟨Ex.reach, by decide +kernel, by decide +kernel⟩

theorem applyOps_append (m : SigMap) (ops ops' : List MapOp) :
    applyOps m (ops ++ ops') = (applyOps m ops >>= fun m' => applyOps m' ops') := by
  induction ops generalizing m with
  | nil => rfl
  | cons op ops ih =>
    simp only [List.cons_append, applyOps]
    rcases op.apply m with m' | e | _
    · simp [ih]
    · rfl
    · rfl

/-- What the history of calls says about pairs and entries. -/
theorem sigmap_history (ops : List MapOp) (m : SigMap) (hm : applyOps .empty ops = .ok m) :
    (∀ s d, Holds m s d → ∃ before now after e, ops = before ++ .put now s d :: after ∧
      (∀ t, .put t s d ∉ after) ∧ .delete s d ∉ after ∧ IsExpiryOf now e ∧ ⟨s, d, e⟩ ∈ m.expirationQueue) ∧
    (∀ x ∈ m.expirationQueue, ∃ t, .put t x.seedHash x.delegationHash ∈ ops ∧ IsExpiryOf t x.expiresAt) := by
  induction hrev : ops.reverse generalizing ops m with
  | nil =>
    have : ops = [] := by simpa using hrev
    subst this
    cases hm
    exact ⟨fun s d ⟨sub, h, _⟩ => by simp [HasSeed, SigMap.empty] at h, fun x hx => by simp [SigMap.empty] at hx⟩
  | cons op rops ih =>
    have hops : ops = rops.reverse ++ [op] := by rw [← List.reverse_reverse ops, hrev]; simp
    subst hops
    rw [applyOps_append] at hm
    obtain ⟨m0, a0, h1, h2, _, h4⟩ := SigMap.ok_applyOps SigMap.ok_empty rops.reverse _ SigMap.represents_empty
    rw [h1] at hm
    simp only [Res.ok_bind, applyOps] at hm
    obtain ⟨ihp, ihe⟩ := ih rops.reverse m0 h1 (by simp)
    -- entries that stay come from the earlier calls
    have keepE : ∀ x ∈ m0.expirationQueue,
        ∃ t, MapOp.put t x.seedHash x.delegationHash ∈ rops.reverse ++ [op] ∧ IsExpiryOf t x.expiresAt := by
      intro x hx
      obtain ⟨t, ht, he⟩ := ihe x hx
      exact ⟨t, List.mem_append_left _ ht, he⟩
    cases op with
    | put now s0 d0 =>
      obtain ⟨m', g1, g2, g3, g4⟩ := SigMap.ok_put Empty h2 now s0 d0
      rw [show MapOp.apply m0 (.put now s0 d0) = _ from g1] at hm
      simp only [Res.ok_bind, Res.ok.injEq] at hm
      subst hm
      have hmem : ∀ x, x ∈ m'.expirationQueue ↔ x = ⟨s0, d0, satAdd now delegationSignatureExpiresAt⟩ ∨ x ∈ m0.expirationQueue := by
        intro x; rw [g3, (heapPush_perm _ _).mem_iff, List.mem_cons]
      refine ⟨fun s d hh => ?_, fun x hx => ?_⟩
      · by_cases hsd : s = s0 ∧ d = d0
        · obtain ⟨rfl, rfl⟩ := hsd
          exact ⟨rops.reverse, now, [], _, by simp, by simp, by simp, SigMap.isExpiryOf_satAdd now, (hmem _).mpr (.inl rfl)⟩
        · obtain ⟨b, t, a, e, e1, e2, e3, e4, e5⟩ := ihp s d (((g4 s d).mp hh).resolve_left hsd)
          refine ⟨b, t, a ++ [.put now s0 d0], e, by rw [e1]; simp, fun t' ht' => ?_, ?_, e4, (hmem _).mpr (.inr e5)⟩
          · rcases List.mem_append.mp ht' with h | h
            · exact e2 t' h
            · simp only [List.mem_singleton, MapOp.put.injEq] at h; exact hsd h.2
          · simpa using e3
      · rcases (hmem x).mp hx with rfl | hx
        · refine ⟨now, List.mem_append_right _ (List.mem_singleton.mpr rfl), ?_⟩
          dsimp only
          exact SigMap.isExpiryOf_satAdd now
        · exact keepE x hx
    | delete s0 d0 =>
      obtain ⟨m', g1, g2, g3, g4⟩ := SigMap.ok_delete Empty h2 s0 d0
      rw [show MapOp.apply m0 (.delete s0 d0) = _ from g1] at hm
      simp only [Res.ok_bind, Res.ok.injEq] at hm
      subst hm
      refine ⟨fun s d hh => ?_, fun x hx => keepE x (g3 ▸ hx)⟩
      obtain ⟨hne, hh⟩ := (g4 s d).mp hh
      obtain ⟨b, t, a, e, e1, e2, e3, e4, e5⟩ := ihp s d hh
      refine ⟨b, t, a ++ [.delete s0 d0], e, by rw [e1]; simp, fun t' => by simpa using e2 t', ?_, e4, g3 ▸ e5⟩
      simp only [List.mem_append, List.mem_singleton, MapOp.delete.injEq, not_or]
      exact ⟨e3, hne⟩
    | prune now k =>
      obtain ⟨removed, m', g1, g2, g3, g4⟩ := SigMap.ok_prune Empty h2 now k
      simp only [MapOp.apply, g1, Res.ok_bind, Res.ok.injEq] at hm
      subst hm
      refine ⟨fun s d hh => ?_, fun x hx => keepE x (g3.split.mem_iff.mpr (by simp [hx]))⟩
      obtain ⟨hh, hno⟩ := (g4 s d).mp hh
      obtain ⟨b, t, a, e, e1, e2, e3, e4, e5⟩ := ihp s d hh
      refine ⟨b, t, a ++ [.prune now k], e, by rw [e1]; simp, fun t' => by simpa using e2 t', by simpa using e3, e4, ?_⟩
      rcases List.mem_append.mp (g3.split.mem_iff.mp e5) with h | h
      · exact absurd ⟨rfl, rfl⟩ (hno _ h)
      · exact h

/-- C38: a pair in the map was put by some call of the history, has not been deleted since, and still has the expiry
entry of its last `put`, one minute later. -/
theorem C38_every_signature_will_expire (ops : List MapOp) (m : SigMap) (hm : applyOps .empty ops = .ok m)
    (s d : Hash) (hh : Holds m s d) :
    ∃ before now after e, ops = before ++ .put now s d :: after ∧ (∀ t, .put t s d ∉ after) ∧
      .delete s d ∉ after ∧ IsExpiryOf now e ∧ ⟨s, d, e⟩ ∈ m.expirationQueue :=
  (sigmap_history ops m hm).1 s d hh

example : ∃ e, IsExpiryOf 9 e ∧ ⟨Ex.h 1, Ex.h 6, e⟩ ∈ Ex.map.expirationQueue ∧ Holds Ex.map (Ex.h 1) (Ex.h 6) :=
  ⟨60000000009, by unfold IsExpiryOf minute; decide, by decide +kernel, Ex.holds⟩

/-- C38: once a minute has passed since every `put` of the pair, it is not retrievable, and a pruning call with a
sufficient limit removes it. -/
theorem C38_not_retrievable_for_ever (E : Env) (ops : List MapOp) (m : SigMap) (hm : applyOps .empty ops = .ok m)
    (seed d : Hash) (now : UInt64) (hold : ∀ t, .put t (E.sha256 seed.bytes) d ∈ ops → t.toNat + minute < now.toNat) :
    (∀ w, witness E m now seed d ≠ .ok w) ∧
    ∀ k n m', m.expirationQueue.length ≤ k → (m.pruneExpired now k : Res Empty _) = .ok (n, m') →
      ¬Holds m' (E.sha256 seed.bytes) d := by
  obtain ⟨hp, he⟩ := sigmap_history ops m hm
  have hok : m.Ok := Reachable.ok ⟨ops, hm⟩
  have hall : ∀ x ∈ m.expirationQueue, x.seedHash = E.sha256 seed.bytes → x.delegationHash = d → x.expiresAt.toNat < now.toNat := by
    intro x hx h1 h2
    obtain ⟨t, ht, hex⟩ := he x hx
    rw [h1, h2] at ht
    have := hold t ht
    rw [hex]
    omega
  constructor
  · intro w hw
    have hw : (if m.isExpired now (E.sha256 seed.bytes) d then (.err .signatureExpired : Res DelegationError HashTree)
      else match m.witness E (E.sha256 seed.bytes) d with
        | none => .err .signatureNotFound
        | some w => if w.reconstruct E ≠ m.rootHash E then .err (.witnessHashMismatch (w.reconstruct E) (m.rootHash E))
          else .ok w) = .ok w := hw
    by_cases hh : Holds m (E.sha256 seed.bytes) d
    · obtain ⟨x, hx, h1, h2⟩ := hok.covered _ _ hh
      have hexp : m.isExpired now (E.sha256 seed.bytes) d = true := SigMap.isExpired_of_all hx h1 h2 hall
      rw [if_pos hexp] at hw
      cases hw
    · rw [SigMap.witness_none E hok.trees hh] at hw
      simp only at hw
      split at hw <;> cases hw
  · intro k n m' hk hpr hh
    obtain ⟨removed, m'', h1, h2, h3, h4⟩ := SigMap.ok_prune Empty hok now k
    rw [h1] at hpr
    cases hpr
    obtain ⟨x, hx, e1, e2⟩ := h2.covered _ _ hh
    have := hall x (h3.split.mem_iff.mpr (by simp [hx])) e1 e2
    rcases h3.exhaustive with h | h
    · have := h3.split.length_eq
      simp only [List.length_append] at this
      have : m'.expirationQueue = [] := List.eq_nil_of_length_eq_zero (by omega)
      rw [this] at hx; simp at hx
    · have := h x hx
      omega

example : ∃ m, applyOps .empty [.put 9 (Toy.env.sha256 (Ex.h 3).bytes) (Ex.h 6)] = .ok m ∧
    (∃ w, witness Toy.env m 60000000009 (Ex.h 3) (Ex.h 6) = .ok w) ∧
    ∀ t, .put t (Toy.env.sha256 (Ex.h 3).bytes) (Ex.h 6) ∈ [MapOp.put 9 (Toy.env.sha256 (Ex.h 3).bytes) (Ex.h 6)] →
      t.toNat + minute < (60000000010 : UInt64).toNat := by
  refine ⟨⟨.node .black .nil (Toy.env.sha256 (Ex.h 3).bytes) (.node .black .nil (Ex.h 6) () .nil) .nil,
    [⟨Toy.env.sha256 (Ex.h 3).bytes, Ex.h 6, 60000000009⟩]⟩, by decide +kernel,
    ⟨.labeled (Toy.env.sha256 (Ex.h 3).bytes).bytes (.labeled (Ex.h 6).bytes (.leaf [])), by decide +kernel⟩, ?_⟩
  intro t ht
  simp only [List.mem_singleton, MapOp.put.injEq, and_true] at ht
  subst ht
  decide

/-- C39: a seed is in the tree exactly when it has a pair. -/
theorem C39_no_empty_submaps (m : SigMap) (hm : Reachable m) (s : Hash) :
    (∃ sub, HasSeed m s sub) ↔ ∃ d, Holds m s d := by
  have h := hm.ok.trees
  constructor
  · rintro ⟨sub, hs⟩
    have hg := h.inner s sub ((RbTree.get_iff _ h.outer.sorted s sub).mpr hs)
    cases sub with
    | nil => simp [RbTree.isEmpty] at hg
    | node c l k v r => exact ⟨k, _, hs, by simp⟩
  · rintro ⟨d, sub, hs, _⟩
    exact ⟨sub, hs⟩

example : Reachable Ex.map ∧ (∃ sub, HasSeed Ex.map (Ex.h 1) sub) ∧ ¬∃ sub, HasSeed Ex.map (Ex.h 2) sub := by
  refine ⟨Ex.reach, ⟨_, Ex.holds.choose_spec.1⟩, ?_⟩
  rintro ⟨sub, h⟩
  simp only [HasSeed, Ex.map, RbTree.toList_node, RbTree.toList_nil, List.nil_append, List.mem_singleton,
    Prod.mk.injEq] at h
  exact absurd h.1 (by decide +kernel)

/-- C32: for every stored pair of a reachable map the witness exists, is well-formed, has the digest of the complete
signature tree, which is the map's root hash, and shows the pair's empty leaf. -/
theorem C32_witness_is_consistent (E : Env) (m : SigMap) (hm : Reachable m) (s d : Hash) (hh : Holds m s d) :
    ∃ w, m.witness E s d = some w ∧ digest E w = m.rootHash E ∧ m.rootHash E = digest E (signatureTree m) ∧
      lookupPath [s.bytes, d.bytes] w = some [] ∧ WellFormed w := by
  obtain ⟨w, h1, h2, w1, h3, h4⟩ := SigMap.witness_spec E hm.ok.trees hh
  refine ⟨w, h1, h2, (digest_signatureTree E m).symm, ?_, ?_⟩
  · simp only [lookupPath, findLabel_oneLabel h3, findLabel_oneLabel h4, Option.bind_some]
  · exact wellFormed_oneLabel h3 (wellFormed_oneLabel h4 (.leaf _))

example : Reachable Ex.map ∧ Holds Ex.map (Ex.h 1) (Ex.h 6) := ⟨Ex.reach, Ex.holds⟩

/-- C32: so the `WitnessHashMismatch` error never occurs. -/
theorem C32_no_witness_hash_mismatch (E : Env) (m : SigMap) (hm : Reachable m) (now : UInt64) (seed d a b : Hash) :
    witness E m now seed d ≠ .err (.witnessHashMismatch a b) := by
  rw [witness]
  simp only
  split
  · simp
  · by_cases hh : Holds m (hashBytes E seed.bytes) d
    · obtain ⟨w, h1, h2, _⟩ := SigMap.witness_spec E hm.ok.trees hh
      rw [h1]
      simp only
      rw [← digest_eq, if_neg (by simp [h2])]
      simp
    · rw [SigMap.witness_none E hm.ok.trees hh]
      simp

example : Reachable Ex.map := Ex.reach

/-- C31: whatever hash tree has the digest of the certified tree and shows a value under `sig`, a seed and a
delegation hash: the value is the empty leaf and the map holds the pair, or the tree exhibits a SHA-256 collision
with the certified tree. -/
theorem C31_no_forgery (E : Env) (m : SigMap) (t : HashTree) (a b v : Bytes)
    (hd : digest E t = digest E (certifiedTree m)) (hr : Reveals t [ascii "sig", a, b] v) :
    (v = [] ∧ ∃ s d : Hash, a = s.bytes ∧ b = d.bytes ∧ Holds m s d) ∨
      ∃ x y, Hashes E t x ∧ Hashes E (certifiedTree m) y ∧ Collision E.sha256 x y := by
  rcases reveals_transfer E hr _ (full_certifiedTree m) hd with h | h
  · exact .inl (reveals_certifiedTree h)
  · exact .inr h

/-- C31 in terms of the IC's own lookup. -/
theorem C31_no_forgery_by_lookup (E : Env) (m : SigMap) (t : HashTree) (a b v : Bytes)
    (hd : digest E t = digest E (certifiedTree m)) (hr : lookupPath [ascii "sig", a, b] t = some v) :
    (v = [] ∧ ∃ s d : Hash, a = s.bytes ∧ b = d.bytes ∧ Holds m s d) ∨
      ∃ x y, Hashes E t x ∧ Hashes E (certifiedTree m) y ∧ Collision E.sha256 x y :=
  C31_no_forgery E m t a b v hd (reveals_of_lookup hr)

/-- The certified tree itself is such a tree. -/
example (E : Env) : digest E (certifiedTree Ex.map) = digest E (certifiedTree Ex.map) ∧
    lookupPath [ascii "sig", (Ex.h 1).bytes, (Ex.h 6).bytes] (certifiedTree Ex.map) = some [] :=
  ⟨rfl, by decide +kernel⟩

/-- And so is a pruned one. -/
def Ex.prunedTree (E : Env) : HashTree :=
  .fork (.pruned (digest E (.labeled (ascii "http_assets") .empty))) (.labeled (ascii "sig") (signatureTree Ex.map))

example (E : Env) : digest E (Ex.prunedTree E) = digest E (certifiedTree Ex.map) ∧
    lookupPath [ascii "sig", (Ex.h 1).bytes, (Ex.h 6).bytes] (Ex.prunedTree E) = some [] :=
  ⟨rfl, by rfl⟩

end Siwe
