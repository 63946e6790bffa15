import Verif.Spec.HashTree
import Verif.Lemmas.SigMap
/- Hash trees: digests, witnesses, unforgeability. -/
namespace Siwe
open Spec RbTree

theorem digest_eq (E : Env) (t : HashTree) : digest E t = t.reconstruct E := by
  induction t with
  | empty => rfl
  | fork l r h1 h2 => rw [digest, HashTree.reconstruct, h1, h2]; rfl
  | labeled l t h => rw [digest, HashTree.reconstruct, h]; rfl
  | leaf v => rfl
  | pruned h => rfl

theorem digest_of_preimage {E : Env} {t : HashTree} {x : Bytes} (h : preimage E (digest E) t = some x) :
    digest E t = E.sha256 x := by
  cases t <;> simp only [preimage, Option.some.injEq, reduceCtorEq] at h <;> subst h <;> rfl

/-- No part of the tree is pruned. -/
def Full : HashTree → Prop
  | .empty => True
  | .fork l r => Full l ∧ Full r
  | .labeled _ t => Full t
  | .leaf _ => True
  | .pruned _ => False

theorem full_preimage (E : Env) {t : HashTree} (h : Full t) : ∃ x, preimage E (digest E) t = some x := by
  cases t <;> first | exact ⟨_, rfl⟩ | exact h.elim

/-- A path shown by a tree is shown by any complete tree with the same digest, or a collision is at hand. -/
theorem reveals_transfer (E : Env) {t : HashTree} {p : List Bytes} {v : Bytes} (hr : Reveals t p v) :
    ∀ u, Full u → digest E t = digest E u → Reveals u p v ∨ ∃ x y, Hashes E t x ∧ Hashes E u y ∧ Collision E.sha256 x y := by
  -- the preimages of the two roots agree, or collide
  have root : ∀ t x u, preimage E (digest E) t = some x → Full u → digest E t = digest E u →
      preimage E (digest E) u = some x ∨ ∃ x y, Hashes E t x ∧ Hashes E u y ∧ Collision E.sha256 x y := by
    intro t x u hx hf hd
    obtain ⟨y, hy⟩ := full_preimage E hf
    by_cases he : x = y
    · exact .inl (he ▸ hy)
    · exact .inr ⟨x, y, by unfold Hashes; exact .inl hx, by unfold Hashes; exact .inl hy, he,
        by rw [← digest_of_preimage hx, ← digest_of_preimage hy, hd]⟩
  induction hr with
  | leaf v =>
    intro u hf hd
    rcases root _ _ u rfl hf hd with h | h
    · cases u with
      | leaf w =>
        simp only [preimage, Option.some.injEq] at h
        have : w = v := List.append_cancel_left h
        subst this; exact .inl (.leaf w)
      | empty => simp [preimage] at h
      | pruned _ => exact hf.elim
      | labeled l u => simp [preimage] at h
      | fork a b =>
        simp only [preimage, Option.some.injEq] at h
        have := congrArg (fun z => List.take 17 z) h
        simp [show ascii "ic-hashtree-fork" = [105, 99, 45, 104, 97, 115, 104, 116, 114, 101, 101, 45, 102, 111, 114, 107] by decide,
          show ascii "ic-hashtree-leaf" = [105, 99, 45, 104, 97, 115, 104, 116, 114, 101, 101, 45, 108, 101, 97, 102] by decide] at this
    · exact .inr h
  | label l t p v _ ih =>
    intro u hf hd
    rcases root _ _ u rfl hf hd with h | h
    · cases u with
      | labeled l' u =>
        simp only [preimage, Option.some.injEq] at h
        rw [List.append_assoc, List.append_assoc] at h
        have h' := List.append_cancel_left h
        obtain ⟨h1, h2⟩ := List.append_inj' h' (by rw [(digest E u).len, (digest E t).len])
        rcases ih u hf (Hash.ext' h2).symm with h | ⟨x, y, hx, hy, hc⟩
        · exact .inl (h1 ▸ .label _ _ _ _ h)
        · exact .inr ⟨x, y, by unfold Hashes; exact .inr hx, by unfold Hashes; exact .inr hy, hc⟩
      | empty => simp [preimage] at h
      | pruned _ => exact hf.elim
      | leaf w => simp [preimage] at h
      | fork a b => simp [preimage] at h
    · exact .inr h
  | left l r p v _ ih =>
    intro u hf hd
    rcases root _ _ u rfl hf hd with h | h
    · cases u with
      | fork a b =>
        simp only [preimage, Option.some.injEq] at h
        rw [List.append_assoc, List.append_assoc] at h
        have h' := List.append_cancel_left h
        obtain ⟨h1, h2⟩ := List.append_inj h' (by rw [(digest E a).len, (digest E l).len])
        rcases ih a hf.1 (Hash.ext' h1).symm with h | ⟨x, y, hx, hy, hc⟩
        · exact .inl (.left _ _ _ _ h)
        · exact .inr ⟨x, y, by unfold Hashes; exact .inr (.inl hx), by unfold Hashes; exact .inr (.inl hy), hc⟩
      | empty => simp [preimage] at h
      | pruned _ => exact hf.elim
      | labeled _ _ => simp [preimage] at h
      | leaf w =>
        simp only [preimage, Option.some.injEq] at h
        have := congrArg (fun z => List.take 17 z) h
        simp [show ascii "ic-hashtree-fork" = [105, 99, 45, 104, 97, 115, 104, 116, 114, 101, 101, 45, 102, 111, 114, 107] by decide,
          show ascii "ic-hashtree-leaf" = [105, 99, 45, 104, 97, 115, 104, 116, 114, 101, 101, 45, 108, 101, 97, 102] by decide] at this
    · exact .inr h
  | right l r p v _ ih =>
    intro u hf hd
    rcases root _ _ u rfl hf hd with h | h
    · cases u with
      | fork a b =>
        simp only [preimage, Option.some.injEq] at h
        rw [List.append_assoc, List.append_assoc] at h
        have h' := List.append_cancel_left h
        obtain ⟨h1, h2⟩ := List.append_inj h' (by rw [(digest E a).len, (digest E l).len])
        rcases ih b hf.2 (Hash.ext' h2).symm with h | ⟨x, y, hx, hy, hc⟩
        · exact .inl (.right _ _ _ _ h)
        · exact .inr ⟨x, y, by unfold Hashes; exact .inr (.inr hx), by unfold Hashes; exact .inr (.inr hy), hc⟩
      | empty => simp [preimage] at h
      | pruned _ => exact hf.elim
      | labeled _ _ => simp [preimage] at h
      | leaf w =>
        simp only [preimage, Option.some.injEq] at h
        have := congrArg (fun z => List.take 17 z) h
        simp [show ascii "ic-hashtree-fork" = [105, 99, 45, 104, 97, 115, 104, 116, 114, 101, 101, 45, 102, 111, 114, 107] by decide,
          show ascii "ic-hashtree-leaf" = [105, 99, 45, 104, 97, 115, 104, 116, 114, 101, 101, 45, 108, 101, 97, 102] by decide] at this
    · exact .inr h

/-! ### the complete tree -/

section complete
variable {V : Type}

theorem full_completeTree {value : V → HashTree} (hv : ∀ v, Full (value v)) (t : RbTree Hash V) :
    Full (completeTree value t) := by
  induction t with
  | nil => trivial
  | node c l k v r ih1 ih2 =>
    cases l with
    | nil => cases r with
      | nil => exact hv v
      | node => exact ⟨hv v, ih2⟩
    | node => cases r with
      | nil => exact ⟨ih1, hv v⟩
      | node => exact ⟨ih1, hv v, ih2⟩

theorem digest_completeTree (E : Env) {value : V → HashTree} {dataHash : V → Hash}
    (hv : ∀ v, digest E (value v) = dataHash v) (t : RbTree Hash V) :
    digest E (completeTree value t) = t.subtreeHash E dataHash := by
  have lab : ∀ k v, digest E (.labeled k (value v)) = labeledHash E k (dataHash v) := by
    intro k v; rw [digest, hv]; rfl
  induction t with
  | nil => rfl
  | node c l k v r ih1 ih2 =>
    cases l with
    | nil => cases r with
      | nil => exact lab _ _
      | node =>
        rw [completeTree, digest, lab, ih2, subtreeHash]
        · rfl
        · intro h; cases h
    | node => cases r with
      | nil =>
        rw [completeTree, digest, lab, ih1, subtreeHash]
        · rfl
        · intro h; cases h
      | node =>
        rw [completeTree, digest, digest, lab, ih1, ih2, subtreeHash]
        · rfl
        all_goals intro h; cases h

theorem reveals_completeTree {value : V → HashTree} (t : RbTree Hash V) (p : List Bytes) (v : Bytes)
    (h : Reveals (completeTree value t) p v) :
    ∃ k x p', p = k.bytes :: p' ∧ (k, x) ∈ t.toList ∧ Reveals (value x) p' v := by
  have lab : ∀ (k : Hash) (x : V), Reveals (.labeled k.bytes (value x)) p v → ∃ p', p = k.bytes :: p' ∧ Reveals (value x) p' v := by
    intro k x h; cases h with
    | label _ _ p' _ h => exact ⟨p', rfl, h⟩
  induction t with
  | nil => cases h
  | node c l k w r ih1 ih2 =>
    have left : Reveals (completeTree value l) p v → ∃ k' x p', p = k'.bytes :: p' ∧ (k', x) ∈ (node c l k w r).toList ∧ Reveals (value x) p' v := by
      intro h; obtain ⟨k', x, p', h1, h2, h3⟩ := ih1 h; exact ⟨k', x, p', h1, by simp [h2], h3⟩
    have right : Reveals (completeTree value r) p v → ∃ k' x p', p = k'.bytes :: p' ∧ (k', x) ∈ (node c l k w r).toList ∧ Reveals (value x) p' v := by
      intro h; obtain ⟨k', x, p', h1, h2, h3⟩ := ih2 h; exact ⟨k', x, p', h1, by simp [h2], h3⟩
    have mid : Reveals (.labeled k.bytes (value w)) p v → ∃ k' x p', p = k'.bytes :: p' ∧ (k', x) ∈ (node c l k w r).toList ∧ Reveals (value x) p' v := by
      intro h; obtain ⟨p', h1, h2⟩ := lab k w h; exact ⟨k, w, p', h1, by simp, h2⟩
    cases l with
    | nil => cases r with
      | nil => exact mid h
      | node => cases h with
        | left _ _ _ _ h => exact mid h
        | right _ _ _ _ h => exact right h
    | node => cases r with
      | nil => cases h with
        | left _ _ _ _ h => exact left h
        | right _ _ _ _ h => exact mid h
      | node => cases h with
        | left _ _ _ _ h => exact left h
        | right _ _ _ _ h => cases h with
          | left _ _ _ _ h => exact mid h
          | right _ _ _ _ h => exact right h

theorem completeTree_reveals {value : V → HashTree} (t : RbTree Hash V) (k : Hash) (x : V) (p : List Bytes) (v : Bytes)
    (hm : (k, x) ∈ t.toList) (h : Reveals (value x) p v) : Reveals (completeTree value t) (k.bytes :: p) v := by
  induction t with
  | nil => simp at hm
  | node c l k' w r ih1 ih2 =>
    have h3 : (k, x) ∈ l.toList ∨ (k, x) = (k', w) ∨ (k, x) ∈ r.toList := by simpa using hm
    have mid : (k, x) = (k', w) → Reveals (.labeled k'.bytes (value w)) (k.bytes :: p) v := by
      intro e; cases e; exact .label _ _ _ _ h
    cases l with
    | nil => cases r with
      | nil => rcases h3 with h | h | h
               · simp at h
               · exact mid h
               · simp at h
      | node => rcases h3 with h | h | h
                · simp at h
                · exact .left _ _ _ _ (mid h)
                · exact .right _ _ _ _ (ih2 h)
    | node => cases r with
      | nil => rcases h3 with h | h | h
               · exact .left _ _ _ _ (ih1 h)
               · exact .right _ _ _ _ (mid h)
               · simp at h
      | node => rcases h3 with h | h | h
                · exact .left _ _ _ _ (ih1 h)
                · exact .right _ _ _ _ (.left _ _ _ _ (mid h))
                · exact .right _ _ _ _ (.right _ _ _ _ (ih2 h))

end complete

theorem full_certifiedTree (m : SigMap) : Full (certifiedTree m) :=
  ⟨trivial, full_completeTree (fun _ => full_completeTree (value := fun _ => .leaf []) (fun _ => trivial) _) _⟩

theorem digest_signatureTree (E : Env) (m : SigMap) : digest E (signatureTree m) = m.rootHash E :=
  digest_completeTree E (fun v => digest_completeTree E (dataHash := unitRootHash E) (fun _ => rfl) v) _

theorem digest_certifiedTree (E : Env) (m : SigMap) :
    digest E (certifiedTree m) = forkHash E (labeledHash E (ascii "http_assets") (emptyHash E))
      (labeledHash E (ascii "sig") (m.rootHash E)) := by
  simp only [certifiedTree, digest, digest_signatureTree]; rfl

theorem reveals_certifiedTree {m : SigMap} {a b : Bytes} {v : Bytes}
    (h : Reveals (certifiedTree m) [ascii "sig", a, b] v) :
    v = [] ∧ ∃ s d : Hash, a = s.bytes ∧ b = d.bytes ∧ Holds m s d := by
  have h' : Reveals (signatureTree m) [a, b] v := by
    cases h with
    | left _ _ _ _ h =>
      have : ∀ q, Reveals (.labeled (ascii "http_assets") .empty) q v → False := by
        intro q h; cases h with
        | label _ _ _ _ h => cases h
      exact (this _ h).elim
    | right _ _ _ _ h =>
      generalize hq : [ascii "sig", a, b] = q at h
      cases h with
      | label _ _ p _ h => cases hq; exact h
  obtain ⟨s, sub, p, h1, h2, h3⟩ := reveals_completeTree _ _ _ h'
  cases h1
  obtain ⟨d, u, p, h4, h5, h6⟩ := reveals_completeTree _ _ _ h3
  cases h4
  cases h6
  exact ⟨rfl, s, d, rfl, rfl, sub, h2, h5⟩

theorem reveals_holds {m : SigMap} {s d : Hash} (h : Holds m s d) :
    Reveals (certifiedTree m) [ascii "sig", s.bytes, d.bytes] [] := by
  obtain ⟨sub, h1, h2⟩ := h
  exact .right _ _ _ _ (.label _ _ _ _ (completeTree_reveals _ _ _ _ _ h1 (completeTree_reveals _ _ _ _ _ h2 (.leaf _))))

/-! ### witnesses -/

section witness
variable {V : Type}

/-- How the three parts are put together. -/
theorem digest_threeWayFork (E : Env) (l m r : HashTree) :
    digest E (threeWayFork l m r) =
      if l = .empty then (if r = .empty then digest E m else forkHash E (digest E m) (digest E r))
      else (if r = .empty then forkHash E (digest E l) (digest E m)
        else forkHash E (digest E l) (forkHash E (digest E m) (digest E r))) := by
  cases l <;> cases r <;> rfl

theorem prunedTree_empty (E : Env) (dataHash : V → Hash) (t : RbTree Hash V) :
    t.prunedTree E dataHash = .empty ↔ t.isEmpty = true := by cases t <;> simp [prunedTree, isEmpty]

theorem digest_prunedTree (E : Env) (dataHash : V → Hash) (t : RbTree Hash V) :
    digest E (t.prunedTree E dataHash) = t.subtreeHash E dataHash := by cases t <;> rfl

theorem subtreeHash_node (E : Env) (dataHash : V → Hash) (c : Color) (l : RbTree Hash V) (k : Hash) (v : V)
    (r : RbTree Hash V) :
    (node c l k v r).subtreeHash E dataHash =
      if l.isEmpty then (if r.isEmpty then labeledHash E k.bytes (dataHash v)
        else forkHash E (labeledHash E k.bytes (dataHash v)) (r.subtreeHash E dataHash))
      else (if r.isEmpty then forkHash E (l.subtreeHash E dataHash) (labeledHash E k.bytes (dataHash v))
        else forkHash E (l.subtreeHash E dataHash)
          (forkHash E (labeledHash E k.bytes (dataHash v)) (r.subtreeHash E dataHash))) := by
  cases l <;> cases r <;> rfl

/-- Only one labelled subtree is visible; the rest is pruned. -/
def OneLabel (k : Bytes) (u t : HashTree) : Prop :=
  ∃ A B, flattenForks t = A ++ .labeled k u :: B ∧ (∀ x ∈ A ++ B, ∃ h, x = .pruned h)

theorem oneLabel_ne_empty {k : Bytes} {u t : HashTree} (h : OneLabel k u t) : t ≠ .empty := by
  rintro rfl
  obtain ⟨A, B, h1, _⟩ := h
  simp [flattenForks] at h1

theorem oneLabel_fork_left {k : Bytes} {u l r : HashTree} (h : OneLabel k u l) (hr : ∃ x, r = .pruned x) :
    OneLabel k u (.fork l r) := by
  obtain ⟨A, B, h1, h2⟩ := h
  obtain ⟨x, rfl⟩ := hr
  refine ⟨A, B ++ [.pruned x], by simp [flattenForks, h1], fun y hy => ?_⟩
  simp only [List.mem_append, List.mem_singleton] at hy h2
  rcases hy with h | h | h
  · exact h2 y (.inl h)
  · exact h2 y (.inr h)
  · exact ⟨x, h⟩

theorem oneLabel_fork_right {k : Bytes} {u l r : HashTree} (h : OneLabel k u r) (hl : ∃ x, l = .pruned x) :
    OneLabel k u (.fork l r) := by
  obtain ⟨A, B, h1, h2⟩ := h
  obtain ⟨x, rfl⟩ := hl
  refine ⟨.pruned x :: A, B, by simp [flattenForks, h1], fun y hy => ?_⟩
  rcases List.mem_cons.mp hy with h | h
  · exact ⟨x, h⟩
  · exact h2 y h

theorem oneLabel_self (k : Bytes) (u : HashTree) : OneLabel k u (.labeled k u) :=
  ⟨[], [], rfl, by simp⟩

theorem prunedTree_cases (E : Env) (dataHash : V → Hash) (t : RbTree Hash V) :
    (t.prunedTree E dataHash = .empty) ∨ ∃ h, t.prunedTree E dataHash = .pruned h := by
  cases t with
  | nil => exact .inl rfl
  | node => exact .inr ⟨_, rfl⟩

theorem lookupAndBuild_spec (E : Env) (dataHash : V → Hash) (t : RbTree Hash V) (key : Hash) {v : V} {u : HashTree}
    {f : V → Option HashTree} (hget : t.get key = some v) (hf : f v = some u) (hu : digest E u = dataHash v) :
    ∃ w, t.lookupAndBuild E dataHash key f = some w ∧ digest E w = t.subtreeHash E dataHash ∧ OneLabel key.bytes u w := by
  induction t with
  | nil => simp [RbTree.get] at hget
  | node c l k x r ih1 ih2 =>
    have pl := prunedTree_empty E dataHash l
    have pr := prunedTree_empty E dataHash r
    have hk : ∀ k x, digest E (.pruned (labeledHash E k (dataHash x))) = labeledHash E k (dataHash x) := fun _ _ => rfl
    rcases hc : compare key k with _ | _ | _ <;> simp only [RbTree.get, hc] at hget <;>
      simp only [lookupAndBuild, hc]
    · obtain ⟨w, h1, h2, h3⟩ := ih1 hget
      have hne := oneLabel_ne_empty h3
      have hln : ¬l.isEmpty = true := by cases l <;> simp [RbTree.get, isEmpty] at hget ⊢
      refine ⟨_, by rw [h1]; rfl, ?_, ?_⟩
      · rw [digest_threeWayFork, subtreeHash_node, if_neg hne, if_neg hln, h2, hk, digest_prunedTree]
        simp only [pr]
      · rcases prunedTree_cases E dataHash r with h | ⟨x', h⟩ <;> rw [h]
        · have : threeWayFork w (.pruned (labeledHash E k.bytes (dataHash x))) .empty =
              .fork w (.pruned (labeledHash E k.bytes (dataHash x))) := by cases w <;> first | rfl | exact absurd rfl hne
          rw [this]
          exact oneLabel_fork_left h3 ⟨_, rfl⟩
        · have : threeWayFork w (.pruned (labeledHash E k.bytes (dataHash x))) (.pruned x') =
              .fork w (.fork (.pruned (labeledHash E k.bytes (dataHash x))) (.pruned x')) := by
            cases w <;> first | rfl | exact absurd rfl hne
          rw [this]
          obtain ⟨A, B, h4, h5⟩ := h3
          refine ⟨A, B ++ [.pruned (labeledHash E k.bytes (dataHash x)), .pruned x'], by simp [flattenForks, h4], fun y hy => ?_⟩
          simp only [List.mem_append, List.mem_cons, List.not_mem_nil, or_false] at hy h5
          rcases hy with h | h | h | h
          · exact h5 y (.inl h)
          · exact h5 y (.inr h)
          · exact ⟨_, h⟩
          · exact ⟨_, h⟩
    · have hkk : key = k := cmp_eq.mp hc
      subst hkk
      simp only [Option.some.injEq] at hget
      subst hget
      have hd : digest E (.labeled key.bytes u) = labeledHash E key.bytes (dataHash x) := by rw [digest, hu]; rfl
      refine ⟨_, by rw [hf]; rfl, ?_, ?_⟩
      · rw [digest_threeWayFork, subtreeHash_node, hd, digest_prunedTree, digest_prunedTree]
        simp only [pl, pr]
      · rcases prunedTree_cases E dataHash l with h | ⟨x', h⟩ <;> rcases prunedTree_cases E dataHash r with h' | ⟨x'', h'⟩ <;>
          rw [h, h']
        · exact oneLabel_self _ _
        · exact oneLabel_fork_left (oneLabel_self _ _) ⟨_, rfl⟩
        · exact oneLabel_fork_right (oneLabel_self _ _) ⟨_, rfl⟩
        · exact oneLabel_fork_right (oneLabel_fork_left (oneLabel_self _ _) ⟨_, rfl⟩) ⟨_, rfl⟩
    · obtain ⟨w, h1, h2, h3⟩ := ih2 hget
      have hne := oneLabel_ne_empty h3
      have hrn : ¬r.isEmpty = true := by cases r <;> simp [RbTree.get, isEmpty] at hget ⊢
      refine ⟨_, by rw [h1]; rfl, ?_, ?_⟩
      · rw [digest_threeWayFork, subtreeHash_node, h2, hk, digest_prunedTree]
        simp only [pl, if_neg hne, if_neg hrn]
      · rcases prunedTree_cases E dataHash l with h | ⟨x', h⟩ <;> rw [h]
        · have : threeWayFork .empty (.pruned (labeledHash E k.bytes (dataHash x))) w =
              .fork (.pruned (labeledHash E k.bytes (dataHash x))) w := by cases w <;> first | rfl | exact absurd rfl hne
          rw [this]
          exact oneLabel_fork_right h3 ⟨_, rfl⟩
        · have : threeWayFork (.pruned x') (.pruned (labeledHash E k.bytes (dataHash x))) w =
              .fork (.pruned x') (.fork (.pruned (labeledHash E k.bytes (dataHash x))) w) := by
            cases w <;> first | rfl | exact absurd rfl hne
          rw [this]
          exact oneLabel_fork_right (oneLabel_fork_right h3 ⟨_, rfl⟩) ⟨_, rfl⟩

theorem findLabel_oneLabel {k : Bytes} {u t : HashTree} (h : OneLabel k u t) :
    findLabel k (flattenForks t) = some u := by
  obtain ⟨A, B, h1, h2⟩ := h
  rw [h1]
  have : ∀ A : List HashTree, (∀ x ∈ A, ∃ h, x = .pruned h) → findLabel k (A ++ .labeled k u :: B) = some u := by
    intro A
    induction A with
    | nil => simp [findLabel]
    | cons a A ih =>
      intro hA
      obtain ⟨h, rfl⟩ := hA a (by simp)
      simp only [List.cons_append, findLabel]
      exact ih fun x hx => hA x (by simp [hx])
  exact this A fun x hx => h2 x (by simp [hx])

theorem labelsOf_pruned {A : List HashTree} (h : ∀ x ∈ A, ∃ h, x = .pruned h) : labelsOf A = [] := by
  induction A with
  | nil => rfl
  | cons a A ih =>
    obtain ⟨x, rfl⟩ := h a (by simp)
    simpa [labelsOf] using ih fun x hx => h x (by simp [hx])

theorem labelsOf_append (A B : List HashTree) : labelsOf (A ++ B) = labelsOf A ++ labelsOf B := by
  simp [labelsOf]

theorem wellFormed_oneLabel {k : Bytes} {u t : HashTree} (h : OneLabel k u t) (hu : WellFormed u) : WellFormed t := by
  obtain ⟨A, B, h1, h2⟩ := h
  have ha : ∀ x ∈ A, ∃ h, x = .pruned h := fun x hx => h2 x (by simp [hx])
  have hb : ∀ x ∈ B, ∃ h, x = .pruned h := fun x hx => h2 x (by simp [hx])
  refine .forest t ?_ ?_ ?_
  · rw [h1, labelsOf_append, labelsOf_pruned ha]
    have : labelsOf (.labeled k u :: B) = k :: labelsOf B := by simp [labelsOf]
    rw [this, labelsOf_pruned hb]
    simp
  · intro l x hx
    rw [h1, List.mem_append, List.mem_cons] at hx
    rcases hx with h | h | h
    · obtain ⟨y, hy⟩ := ha _ h; cases hy
    · cases h; exact hu
    · obtain ⟨y, hy⟩ := hb _ h; cases hy
  · intro v hx
    rw [h1, List.mem_append, List.mem_cons] at hx
    rcases hx with h | h | h
    · obtain ⟨y, hy⟩ := ha _ h; cases hy
    · cases h
    · obtain ⟨y, hy⟩ := hb _ h; cases hy

theorem findLabel_mem {k : Bytes} {u : HashTree} {ts : List HashTree} (h : findLabel k ts = some u) :
    .labeled k u ∈ ts := by
  induction ts with
  | nil => simp [findLabel] at h
  | cons a ts ih =>
    cases a with
    | labeled l t =>
      simp only [findLabel] at h
      split at h
      · next e => cases h; subst e; simp
      · exact List.mem_cons_of_mem _ (ih h)
    | empty => exact List.mem_cons_of_mem _ (ih h)
    | fork _ _ => exact List.mem_cons_of_mem _ (ih h)
    | leaf _ => exact List.mem_cons_of_mem _ (ih h)
    | pruned _ => exact List.mem_cons_of_mem _ (ih h)

theorem reveals_of_flatten {t x : HashTree} {p : List Bytes} {v : Bytes} (hx : x ∈ flattenForks t) (h : Reveals x p v) :
    Reveals t p v := by
  induction t with
  | empty => simp [flattenForks] at hx
  | fork l r ih1 ih2 =>
    rw [flattenForks, List.mem_append] at hx
    rcases hx with hx | hx
    · exact .left _ _ _ _ (ih1 hx)
    · exact .right _ _ _ _ (ih2 hx)
  | labeled l t _ => simp [flattenForks] at hx; subst hx; exact h
  | leaf v => simp [flattenForks] at hx; subst hx; exact h
  | pruned y => simp [flattenForks] at hx; subst hx; exact h

/-- A successful lookup reveals. -/
theorem reveals_of_lookup {p : List Bytes} {t : HashTree} {v : Bytes} (h : lookupPath p t = some v) : Reveals t p v := by
  induction p generalizing t with
  | nil =>
    cases t <;> simp [lookupPath] at h
    subst h; exact .leaf _
  | cons l p ih =>
    simp only [lookupPath, Option.bind_eq_some_iff] at h
    obtain ⟨u, h1, h2⟩ := h
    exact reveals_of_flatten (findLabel_mem h1) (.label _ _ _ _ (ih h2))

end witness

namespace SigMap

/-- The witness of a stored pair. -/
theorem witness_spec (E : Env) {m : SigMap} (h : TreesOk m) {s d : Hash} (hh : Holds m s d) :
    ∃ w, m.witness E s d = some w ∧ digest E w = m.rootHash E ∧
      ∃ w1, OneLabel s.bytes w1 w ∧ OneLabel d.bytes (.leaf []) w1 := by
  obtain ⟨sub, h1, h2⟩ := (holds_iff h s d).mp hh
  obtain ⟨w1, h3, h4, h5⟩ := lookupAndBuild_spec E (unitRootHash E) sub d (u := .leaf []) (f := fun _ => some (.leaf [])) h2
    rfl rfl
  obtain ⟨w, h6, h7, h8⟩ := lookupAndBuild_spec E (subHash E) m.certifiedMap s (u := w1)
    (f := fun nested => nested.lookupAndBuild E (unitRootHash E) d fun _ => some (.leaf [])) h1 h3 h4
  exact ⟨w, by rw [witness, h1]; simp only [Option.bind_eq_bind, Option.bind_some, h2]; exact h6, h7, w1, h8, h5⟩

theorem witness_none (E : Env) {m : SigMap} (h : TreesOk m) {s d : Hash} (hh : ¬Holds m s d) : m.witness E s d = none := by
  rw [holds_iff h] at hh
  rw [witness]
  rcases h1 : m.certifiedMap.get s with _ | sub
  · rfl
  · rcases h2 : sub.get d with _ | u
    · simp [h2]
    · exact absurd ⟨sub, h1, h2⟩ hh

end SigMap
end Siwe
