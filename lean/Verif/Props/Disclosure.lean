import Verif.Spec.Disclosure
import Verif.Props.Signatures
/-
C135: what the signature of a delegation shows of other users, and how long it is.
-/
namespace Siwe
open Spec RbTree

section
variable {V : Type}

theorem shown_threeWayFork (l m r : HashTree) :
    shownLabels (threeWayFork l m r) = shownLabels l ++ shownLabels m ++ shownLabels r ∧
      shownLeaves (threeWayFork l m r) = shownLeaves l ++ shownLeaves m ++ shownLeaves r := by
  cases l <;> cases r <;> simp [threeWayFork, shownLabels, shownLeaves]

theorem shown_prunedTree (E : Env) (dataHash : V → Hash) (t : RbTree Hash V) :
    shownLabels (t.prunedTree E dataHash) = [] ∧ shownLeaves (t.prunedTree E dataHash) = [] := by
  cases t <;> exact ⟨rfl, rfl⟩

theorem length_head_le (m : UInt8) (n : Nat) : (cborHead m n).length ≤ 9 := by
  unfold cborHead; repeat' split
  all_goals simp [beFixed]

theorem length_cborHash (h : Hash) : (cborBytes h.bytes).length = 34 := by
  simp [cborBytes, h.len, cborHead]

theorem length_pruned (h : Hash) : (cborTree (.pruned h)).length = 36 := by
  simp [cborTree, length_cborHash]; simp [cborHead]

theorem length_labeled (h : Hash) (t : HashTree) : (cborTree (.labeled h.bytes t)).length = 36 + (cborTree t).length := by
  simp [cborTree, length_cborHash]; simp [cborHead]; omega

theorem length_fork (l r : HashTree) : (cborTree (.fork l r)).length = 2 + (cborTree l).length + (cborTree r).length := by
  simp [cborTree]; simp [cborHead]; omega

theorem length_threeWayFork (l m r : HashTree) :
    (cborTree (threeWayFork l m r)).length ≤ 4 + (cborTree l).length + (cborTree m).length + (cborTree r).length := by
  cases l <;> cases r <;> simp only [threeWayFork, length_fork] <;> omega

theorem length_prunedTree (E : Env) (dataHash : V → Hash) (t : RbTree Hash V) :
    (cborTree (t.prunedTree E dataHash)).length ≤ 36 := by
  cases t with
  | nil => simp [prunedTree, cborTree, cborHead]
  | node => simp only [prunedTree, length_pruned]; omega

/-- The longest path of a tree. -/
def depth : RbTree Hash V → Nat
  | nil => 0
  | node _ l _ _ r => max (depth l) (depth r) + 1

theorem depth_le {t : RbTree Hash V} {n : Nat} (h : RbTree.Inv t n) : depth t ≤ 2 * n + (if t.isRed then 1 else 0) := by
  induction t generalizing n with
  | nil => simp [depth]
  | node c l k v r ih1 ih2 =>
    cases c with
    | red =>
      obtain ⟨h1, h2, h3, h4⟩ := h
      have a := ih1 h3
      have b := ih2 h4
      simp only [h1, h2, Bool.false_eq_true, if_false, Nat.add_zero] at a b
      simp only [depth, isRed_red, if_true]
      omega
    | black =>
      cases n with
      | zero => exact h.elim
      | succ n =>
        obtain ⟨_, h3, h4⟩ := h
        have a := ih1 h3
        have b := ih2 h4
        simp only [depth, isRed_black, Bool.false_eq_true, if_false]
        split at a <;> split at b <;> omega

theorem size_ge {t : RbTree Hash V} {n : Nat} (h : RbTree.Inv t n) : 2 ^ n ≤ t.toList.length + 1 := by
  induction t generalizing n with
  | nil => cases h; simp
  | node c l k v r ih1 ih2 =>
    cases c with
    | red =>
      obtain ⟨_, _, h3, _⟩ := h
      have a := ih1 h3
      simp; omega
    | black =>
      cases n with
      | zero => exact h.elim
      | succ n =>
        obtain ⟨_, h3, h4⟩ := h
        have a := ih1 h3
        have b := ih2 h4
        simp [Nat.pow_succ]; omega

theorem depth_good {t : RbTree Hash V} (h : Good t) {k : Nat} (hk : t.toList.length < 2 ^ k) : depth t ≤ 2 * k := by
  obtain ⟨n, hn⟩ := h.inv
  have a := depth_le hn
  have b := size_ge hn
  rw [h.black] at a
  have : n ≤ k := by
    by_contra hc
    have := Nat.pow_le_pow_right (n := 2) (by omega) (show k + 1 ≤ n by omega)
    rw [Nat.pow_succ] at this
    have := Nat.two_pow_pos k
    omega
  simp at a; omega

theorem shown_lookup (E : Env) (dataHash : V → Hash) (t : RbTree Hash V) (key : Hash) {f : V → Option HashTree} {w : HashTree}
    (h : t.lookupAndBuild E dataHash key f = some w) :
    ∃ v u, t.get key = some v ∧ f v = some u ∧ shownLabels w = key.bytes :: shownLabels u ∧ shownLeaves w = shownLeaves u ∧
      (cborTree w).length ≤ 76 * depth t + 36 + (cborTree u).length := by
  induction t generalizing w with
  | nil => simp [lookupAndBuild] at h
  | node c l k v r ih1 ih2 =>
    have pl := shown_prunedTree E dataHash l
    have pr := shown_prunedTree E dataHash r
    have ll := length_prunedTree E dataHash l
    have lr := length_prunedTree E dataHash r
    rcases hc : compare key k with _ | _ | _ <;>
      simp only [lookupAndBuild, hc, Option.bind_eq_bind, Option.bind_eq_some_iff, Option.some.injEq] at h <;>
      obtain ⟨x, hx, rfl⟩ := h <;> simp only [RbTree.get, hc]
    · obtain ⟨v', u, h1, h2, h3, h4, h5⟩ := ih1 hx
      refine ⟨v', u, h1, h2, ?_, ?_, ?_⟩
      · rw [(shown_threeWayFork _ _ _).1, h3, pr.1]; simp [shownLabels]
      · rw [(shown_threeWayFork _ _ _).2, h4, pr.2]; simp [shownLeaves]
      · have := length_threeWayFork x (.pruned (labeledHash E k.bytes (dataHash v))) (r.prunedTree E dataHash)
        rw [length_pruned] at this
        simp only [depth]; omega
    · obtain rfl : key = k := cmp_eq.mp hc
      refine ⟨v, x, rfl, hx, ?_, ?_, ?_⟩
      · rw [(shown_threeWayFork _ _ _).1, pl.1, pr.1]; simp [shownLabels]
      · rw [(shown_threeWayFork _ _ _).2, pl.2, pr.2]; simp [shownLeaves]
      · have := length_threeWayFork (l.prunedTree E dataHash) (.labeled key.bytes x) (r.prunedTree E dataHash)
        rw [length_labeled] at this
        simp only [depth]; omega
    · obtain ⟨v', u, h1, h2, h3, h4, h5⟩ := ih2 hx
      refine ⟨v', u, h1, h2, ?_, ?_, ?_⟩
      · rw [(shown_threeWayFork _ _ _).1, h3, pl.1]; simp [shownLabels]
      · rw [(shown_threeWayFork _ _ _).2, h4, pl.2]; simp [shownLeaves]
      · have := length_threeWayFork (l.prunedTree E dataHash) (.pruned (labeledHash E k.bytes (dataHash v))) x
        rw [length_pruned] at this
        simp only [depth]; omega

end

theorem witness_shown (E : Env) {m : SigMap} {s d : Hash} {w : HashTree} (h : m.witness E s d = some w) :
    ∃ sub, m.certifiedMap.get s = some sub ∧ shownLabels w = [s.bytes, d.bytes] ∧ shownLeaves w = [[]] ∧
      (cborTree w).length ≤ 76 * depth m.certifiedMap + 76 * depth sub + 75 := by
  simp only [SigMap.witness, Option.bind_eq_bind, Option.bind_eq_some_iff] at h
  obtain ⟨sub, hs, _, _, h⟩ := h
  obtain ⟨sub', u, h1, h2, h3, h4, h5⟩ := shown_lookup E _ _ _ h
  rw [hs] at h1
  cases h1
  obtain ⟨_, u', _, g2, g3, g4, g5⟩ := shown_lookup E _ _ _ h2
  cases g2
  refine ⟨sub, hs, by rw [h3, g3]; rfl, by rw [h4, g4]; rfl, ?_⟩
  have : (cborTree (.leaf [])).length = 3 := by decide
  omega

/-- C135: the signature of a delegation shows in clear only the names on the way to this very delegation and an empty leaf: of all
other users and sessions it carries only 32-byte digests. -/
theorem C135_shows_only_itself (E : Env) (h : History) (now : UInt64) (cert addr key : Bytes) (expiration : UInt64) (d : SignedDelegation)
    (hc : cert.length < 2 ^ 64)
    (hd : (step (stateAfter E h) now (.getDelegation (some cert) addr key expiration)).2 = .delegation d) :
    ∃ s sh dh tree, (stateAfter E h).lib.settings = some s ∧ IsEntry E s addr key expiration sh dh ∧
      readSignature d.signature = some (cert, tree) ∧
      shownLabels tree = [ascii "sig", sh.bytes, dh.bytes] ∧ shownLeaves tree = [[]] := by
  have hr := C52_decision E h now (some cert) addr key expiration
  rw [hd] at hr
  cases hr with
  | success _ s sh dh w _ _ hs _ _ _ hent _ hh hw _ hsig =>
    obtain ⟨sub, _, h1, h2, _⟩ := witness_shown E hw
    obtain ⟨w', f1, _, w1, f3, f4⟩ := SigMap.witness_spec E (inv_stateAfter E h).sigs.trees hh
    rw [hw] at f1; cases f1
    have hadd : Addressable (.fork (.pruned (digest E (.labeled (ascii "http_assets") .empty))) (.labeled (ascii "sig") w)) :=
      ⟨trivial, by decide, addressable_oneLabel f3 (by rw [Hash.len]; decide) (addressable_oneLabel f4
        (by rw [Hash.len]; decide) (by simp [Addressable]))⟩
    refine ⟨s, sh, dh, _, hs, hent, by rw [hsig]; exact readSignature_create _ _ hc hadd, ?_, ?_⟩
    · simp [shownLabels, h1]
    · simp [shownLeaves, h2]

theorem keys_nodup {V : Type} {t : RbTree Hash V} (h : Good t) : (t.toList.map Prod.fst).Nodup := by
  refine List.pairwise_map.mpr (h.sorted.imp fun {a b} hab he => ?_)
  rw [he, (cmp_eq (a := b.1) (b := b.1)).mpr rfl] at hab
  cases hab

theorem choose_second {α β γ : Type} (P : α → γ → Prop) : ∀ l : List (α × β), (∀ x ∈ l, ∃ d, P x.1 d) →
    ∃ held : List (α × γ), held.map Prod.fst = l.map Prod.fst ∧ ∀ x ∈ held, P x.1 x.2
  | [], _ => ⟨[], rfl, by simp⟩
  | x :: l, h => by
    obtain ⟨held, h1, h2⟩ := choose_second P l fun y hy => h y (List.mem_cons_of_mem _ hy)
    obtain ⟨d, hd⟩ := h x List.mem_cons_self
    refine ⟨(x.1, d) :: held, by simp [h1], fun y hy => ?_⟩
    rcases List.mem_cons.mp hy with rfl | hy
    · exact hd
    · exact h2 y hy

theorem chosen_outer {m : SigMap} (ht : m.TreesOk) :
    ∃ held : List (Hash × Hash), held.Nodup ∧ (∀ x ∈ held, Holds m x.1 x.2) ∧ held.length = m.certifiedMap.toList.length := by
  obtain ⟨held, h1, h2⟩ := choose_second (Holds m) m.certifiedMap.toList fun x hx => by
    obtain ⟨_, hne⟩ := ht.inner _ _ ((get_iff _ ht.outer.sorted x.1 x.2).mpr hx)
    cases hsub : x.2 with
    | nil => rw [hsub] at hne; cases hne
    | node c l k v r => exact ⟨k, x.2, hx, by rw [hsub]; simp⟩
  refine ⟨held, List.Nodup.of_map Prod.fst (h1 ▸ keys_nodup ht.outer), h2, ?_⟩
  simpa using congrArg List.length h1

theorem queue_le_puts (ops : List MapOp) (m : SigMap) (hm : applyOps .empty ops = .ok m) :
    m.expirationQueue.length ≤ ops.countP (fun op => match op with | .put .. => true | _ => false) := by
  suffices H : ∀ (ops : List MapOp) (m m' : SigMap), m.Ok → applyOps m ops = .ok m' → m'.expirationQueue.length ≤
      m.expirationQueue.length + ops.countP (fun op => match op with | .put .. => true | _ => false) by
    simpa [SigMap.empty] using H ops _ _ SigMap.ok_empty hm
  intro ops
  induction ops with
  | nil => intro m m' _ h; cases h; simp
  | cons op ops ih =>
    intro m m' hok h
    simp only [applyOps] at h
    cases op with
    | put now s d =>
      obtain ⟨m1, g1, g2, g3, _⟩ := SigMap.ok_put Empty hok now s d
      simp only [MapOp.apply, g1, Res.ok_bind] at h
      have := ih m1 m' g2 h
      rw [g3, (heapPush_perm _ _).length_eq] at this
      simp at this ⊢; omega
    | delete s d =>
      obtain ⟨m1, g1, g2, g3, _⟩ := SigMap.ok_delete Empty hok s d
      simp only [MapOp.apply, g1, Res.ok_bind] at h
      have := ih m1 m' g2 h
      rw [g3] at this
      simpa using this
    | prune now k =>
      obtain ⟨removed, m1, g1, g2, g3, _⟩ := SigMap.ok_prune Empty hok now k
      simp only [MapOp.apply, g1, Res.ok_bind] at h
      have := ih m1 m' g2 h
      have hl := g3.split.length_eq
      simp at hl this ⊢; omega

/-- C135: it is short: where there were never 2 ^ k or more successful logins within a minute, it has at most 304 k + 149 bytes in addition to
the certificate. -/
theorem C135_short (E : Env) (h : History) (now : UInt64) (cert addr key : Bytes) (expiration : UInt64) (d : SignedDelegation) (k : Nat)
    (hclock : (trace E h).Pairwise fun x y => x.time.toNat ≤ y.time.toNat)
    (hk : ∀ t, loginsInMinute (trace E h) t < 2 ^ k)
    (hd : (step (stateAfter E h) now (.getDelegation (some cert) addr key expiration)).2 = .delegation d) :
    d.signature.length ≤ cert.length + 304 * k + 149 := by
  have hr := C52_decision E h now (some cert) addr key expiration
  rw [hd] at hr
  have ht := (inv_stateAfter E h).sigs.trees
  have hb := C93_bounded E h (2 ^ k - 1) hclock fun t => by have := hk t; omega
  have hpos := Nat.two_pow_pos k
  cases hr with
  | success _ s sh dh w _ _ hs _ _ _ hent _ hh hw _ hsig =>
    obtain ⟨sub, hsub, _, _, h3⟩ := witness_shown E hw
    have houter : (stateAfter E h).sigMap.certifiedMap.toList.length < 2 ^ k := by
      obtain ⟨held, g1, g2, g3⟩ := chosen_outer ht
      have := (hb held g1 g2).1
      omega
    have hinner : sub.toList.length < 2 ^ k := by
      have hg := (ht.inner _ _ hsub).1
      have := (hb (sub.toList.map fun x => (sh, x.1)) ?_ ?_).1
      · simp at this; omega
      · refine List.Nodup.of_map Prod.snd ?_
        simpa [List.map_map, Function.comp_def] using keys_nodup hg
      · intro x hx
        obtain ⟨y, hy, rfl⟩ := List.mem_map.mp hx
        exact ⟨sub, (get_iff _ ht.outer.sorted _ _).mp hsub, hy⟩
    have d1 := depth_good ht.outer houter
    have d2 := depth_good (ht.inner _ _ hsub).1 hinner
    rw [hsig]
    have hh := length_head_le 0x40 cert.length
    have e1 : (cborTree (.fork (.pruned (digest E (.labeled (ascii "http_assets") .empty))) (.labeled (ascii "sig") w))).length
        = 44 + (cborTree w).length := by
      rw [length_fork, length_pruned]
      have : (cborTree (.labeled (ascii "sig") w)).length = 6 + (cborTree w).length := by
        simp only [cborTree, List.length_append]
        have : (cborHead 0x80 3).length = 1 ∧ (cborHead 0x00 2).length = 1 ∧ (cborBytes (ascii "sig")).length = 4 := by decide
        omega
      omega
    have e2 : (cborHead 0xa0 2).length = 1 ∧ (cborText (ascii "certificate")).length = 12 ∧ (cborText (ascii "tree")).length = 5 := by decide
    simp only [createCertifiedSignature, List.length_append, e1, cborBytes, List.length_cons, List.length_nil]
    omega

/-- C135: the same holds of every signature map that a canister keeps, whatever it does with it: a witness shows only the pair it was
asked for, and is short if fewer than 2 ^ k pairs were put into the map. -/
theorem C135_any_map (E : Env) (ops : List MapOp) (m : SigMap) (hm : applyOps .empty ops = .ok m) (s d : Hash) (w : HashTree)
    (hw : m.witness E s d = some w) :
    shownLabels w = [s.bytes, d.bytes] ∧ shownLeaves w = [[]] ∧
      ∀ k, ops.countP (fun op => match op with | .put .. => true | _ => false) < 2 ^ k → (cborTree w).length ≤ 304 * k + 75 := by
  have hok := Reachable.ok ⟨ops, hm⟩
  obtain ⟨sub, hsub, h1, h2, h3⟩ := witness_shown E hw
  refine ⟨h1, h2, fun k hk => ?_⟩
  have hq := queue_le_puts ops m hm
  have hb : ∀ held : List (Hash × Hash), held.Nodup → (∀ x ∈ held, Holds m x.1 x.2) → held.length < 2 ^ k := by
    intro held hd hh
    have hsub : held ⊆ m.expirationQueue.map fun x => (x.seedHash, x.delegationHash) := by
      intro x hx
      obtain ⟨e, he, h1, h2⟩ := hok.covered _ _ (hh x hx)
      exact List.mem_map.mpr ⟨e, he, by rw [h1, h2]⟩
    have := (List.subperm_of_subset hd hsub).length_le
    simp at this
    omega
  have ht := hok.trees
  obtain ⟨held, g1, g2, g3⟩ := chosen_outer ht
  have d1 := depth_good ht.outer (g3 ▸ hb held g1 g2)
  have d2 := depth_good (ht.inner _ _ hsub).1 (k := k) (by
    have := hb (sub.toList.map fun x => (s, x.1)) (List.Nodup.of_map Prod.snd (by
      simpa [List.map_map, Function.comp_def] using keys_nodup (ht.inner _ _ hsub).1)) (fun x hx => by
        obtain ⟨y, hy, rfl⟩ := List.mem_map.mp hx
        exact ⟨sub, (get_iff _ ht.outer.sorted _ _).mp hsub, hy⟩)
    simpa using this)
  omega

/-- Non-vacuity: a map into which pairs were put has a witness for one of them. -/
example (E : Env) : ∃ w, Ex.map.witness E (Ex.h 1) (Ex.h 6) = some w := by
  obtain ⟨w, h, _⟩ := SigMap.witness_spec E Ex.reach.ok.trees Ex.holds
  exact ⟨w, h⟩

/-- Alice and Bob have both logged in within the minute. -/
def Ex.bothIn : History := Ex.loggedIn ++ [(200, .login Ex.bobSig Ex.bob Ex.key (Ex.nonce 4))]

/-- Non-vacuity: the clock does not run back, there are fewer than four logins in any minute, signatures of two users are held, and Alice
is given a delegation. -/
example : (trace Toy.env Ex.bothIn).Pairwise (fun x y => x.time.toNat ≤ y.time.toNat) ∧
    (∀ t, loginsInMinute (trace Toy.env Ex.bothIn) t < 2 ^ 2) ∧ (stateAfter Toy.env Ex.bothIn).sigMap.certifiedMap.toList.length = 2 ∧
    ∃ d, (step (stateAfter Toy.env Ex.bothIn) 300 (.getDelegation (some [7]) Ex.alice Ex.key Ex.expiration)).2 = .delegation d := by
  refine ⟨by decide +kernel, fun t => ?_, by decide +kernel, ?_⟩
  · refine Nat.lt_of_le_of_lt (List.countP_mono_left (q := Event.isLogin) fun e _ h => ?_)
      (show (trace Toy.env Ex.bothIn).countP Event.isLogin < 2 ^ 2 by decide +kernel)
    exact (Bool.and_eq_true_iff.mp h).1
  · have h : (match (step (stateAfter Toy.env Ex.bothIn) 300 (.getDelegation (some [7]) Ex.alice Ex.key Ex.expiration)).2 with
      | .delegation _ => true
      | _ => false) = true := by decide +kernel
    split at h
    · next d e => exact ⟨d, e⟩
    · cases h

end Siwe
