import Verif.Lemmas.HashM
import Verif.Spec.Delegation
/- The delegation hash: agreement with the IC's definition and injectivity up to explicit collisions. -/
namespace Siwe
open Spec

theorem delegationMap_eq (d : Delegation) : delegationMap d = delegationFields d := by
  unfold delegationMap delegationFields
  cases d.targets <;> rfl

theorem delegationHash_spec (ε : Type) (E : Env) (d : Delegation) (h : Hash) :
    (createDelegationHash E d : Res ε Hash) = .ok h ↔ IsDelegationHash E d h := by
  obtain ⟨mh, hm⟩ := mapHash_exists E (delegationFields d)
  have e := (hashOfMap_spec ε E (delegationMap d) mh).2 (by rwa [delegationMap_eq])
  have hd : ∀ x : Hash, hashWithDomain E (ascii "ic-request-auth-delegation") x.bytes
      = E.sha256 (delegationMessage x) := fun _ => rfl
  simp only [createDelegationHash, e, Res.ok_bind, Res.ok.injEq, hd]
  constructor
  · rintro rfl; exact ⟨mh, hm, rfl⟩
  · rintro ⟨mh', hm', rfl⟩; rw [mapHash_unique hm hm']

theorem delegationHash_ok (ε : Type) (E : Env) (d : Delegation) :
    ∃ h, (createDelegationHash E d : Res ε Hash) = .ok h ∧ IsDelegationHash E d h := by
  obtain ⟨mh, hm⟩ := mapHash_exists E (delegationFields d)
  exact ⟨_, (delegationHash_spec ε E d _).2 ⟨mh, hm, rfl⟩, mh, hm, rfl⟩

theorem delegationHash_unique {E : Env} {d : Delegation} {h h' : Hash} (a : IsDelegationHash E d h)
    (b : IsDelegationHash E d h') : h = h' := by
  have := ((delegationHash_spec Empty E d h).2 a).symm.trans ((delegationHash_spec Empty E d h').2 b)
  simpa using this

theorem arrayInput_blobs (E : Env) : ∀ ts : List Bytes,
    IsArrayInput E (ts.map .bytes) (ts.map fun t => (E.sha256 t).bytes).flatten
  | [] => .nil
  | t :: ts => by
    simpa using IsArrayInput.cons _ _ _ _ (.blob t) (arrayInput_blobs E ts)

/-- Two delegations hash a common string's hash from different strings. -/
def DelegationCollision (E : Env) (d d' : Delegation) : Prop :=
  ∃ x y, DelegationPreimage E d x ∧ DelegationPreimage E d' y ∧ Collision E.sha256 x y

theorem DelegationCollision.symm {E : Env} {d d' : Delegation} (h : DelegationCollision E d d') :
    DelegationCollision E d' d := by
  obtain ⟨x, y, hx, hy, h1, h2⟩ := h
  exact ⟨y, x, hy, hx, fun e => h1 e.symm, h2.symm⟩

theorem eq_or_collision {E : Env} {d d' : Delegation} {x y : Bytes} (hx : DelegationPreimage E d x)
    (hy : DelegationPreimage E d' y) (h : E.sha256 x = E.sha256 y) : x = y ∨ DelegationCollision E d d' := by
  by_cases e : x = y
  · exact .inl e
  · exact .inr ⟨x, y, hx, hy, e, h⟩

theorem pairHash_length {E : Env} {kv : Bytes × Value} {c : Bytes} (h : IsPairHash E kv c) : c.length = 64 := by
  obtain ⟨x, _, rfl⟩ := h
  simp [x.len, (E.sha256 kv.1).len]

theorem forall₂_length {E : Env} {m : List (Bytes × Value)} {cs : List Bytes}
    (h : List.Forall₂ (IsPairHash E) m cs) : ∀ c ∈ cs, c.length = 64 := by
  induction h with
  | nil => simp
  | cons a _ ih =>
    intro c hc
    rcases List.mem_cons.mp hc with rfl | hc
    · exact pairHash_length a
    · exact ih c hc

theorem forall₂_mem_left {E : Env} {m : List (Bytes × Value)} {cs : List Bytes}
    (h : List.Forall₂ (IsPairHash E) m cs) {kv} (hk : kv ∈ m) : ∃ c ∈ cs, IsPairHash E kv c := by
  induction h with
  | nil => simp at hk
  | cons a _ ih =>
    rcases List.mem_cons.mp hk with rfl | hk
    · exact ⟨_, by simp, a⟩
    · obtain ⟨c, h1, h2⟩ := ih hk
      exact ⟨c, by simp [h1], h2⟩

theorem forall₂_mem_right {E : Env} {m : List (Bytes × Value)} {cs : List Bytes}
    (h : List.Forall₂ (IsPairHash E) m cs) {c} (hc : c ∈ cs) : ∃ kv ∈ m, IsPairHash E kv c := by
  induction h with
  | nil => simp at hc
  | cons a _ ih =>
    rcases List.mem_cons.mp hc with rfl | hc
    · exact ⟨_, by simp, a⟩
    · obtain ⟨c, h1, h2⟩ := ih hc
      exact ⟨c, by simp [h1], h2⟩

/-- Every field of `d` is matched by a field of `d'` with the same name and value hash. -/
theorem field_match {E : Env} {d d' : Delegation} {cs cs' : List Bytes}
    (h : List.Forall₂ (IsPairHash E) (delegationFields d) cs)
    (h' : List.Forall₂ (IsPairHash E) (delegationFields d') cs') (hp : cs.Perm cs') {k : Bytes} {v : Value}
    (hk : (k, v) ∈ delegationFields d) :
    (∃ v' x, (k, v') ∈ delegationFields d' ∧ IsValueHash E v x ∧ IsValueHash E v' x) ∨
      DelegationCollision E d d' := by
  obtain ⟨c, hc, x, hx, rfl⟩ := forall₂_mem_left h hk
  obtain ⟨⟨k', v'⟩, hk', x', hx', e⟩ := forall₂_mem_right h' (hp.mem_iff.mp hc)
  obtain ⟨e1, e2⟩ := List.append_inj e (by rw [(E.sha256 _).len, (E.sha256 _).len])
  rcases eq_or_collision (.fieldName k v hk) (.fieldName k' v' hk') (Hash.ext' e1) with rfl | hcol
  · exact .inl ⟨v', x, hk', hx, by rw [Hash.ext' e2]; exact hx'⟩
  · exact .inr hcol

theorem fields_pubkey {d : Delegation} {v : Value} (h : (ascii "pubkey", v) ∈ delegationFields d) :
    v = .bytes d.pubkey := by
  have e1 : ascii "pubkey" ≠ ascii "expiration" := by decide
  have e2 : ascii "pubkey" ≠ ascii "targets" := by decide
  unfold delegationFields at h
  split at h <;> simp [e1, e2] at h <;> exact h

theorem fields_expiration {d : Delegation} {v : Value} (h : (ascii "expiration", v) ∈ delegationFields d) :
    v = .u64 d.expiration := by
  have e1 : ascii "expiration" ≠ ascii "pubkey" := by decide
  have e2 : ascii "expiration" ≠ ascii "targets" := by decide
  unfold delegationFields at h
  split at h <;> simp [e1, e2] at h <;> exact h

theorem fields_targets {d : Delegation} {v : Value} (h : (ascii "targets", v) ∈ delegationFields d) :
    ∃ ts, d.targets = some ts ∧ v = .array (ts.map .bytes) := by
  have e1 : ascii "targets" ≠ ascii "pubkey" := by decide
  have e2 : ascii "targets" ≠ ascii "expiration" := by decide
  unfold delegationFields at h
  split at h
  · simp [e1, e2] at h
  · next ts ht => simp [e1, e2] at h; exact ⟨ts, ht, h⟩

theorem blobs_inj {E : Env} {d d' : Delegation} : ∀ {ts ts' : List Bytes},
    (∀ t ∈ ts, DelegationPreimage E d t) → (∀ t ∈ ts', DelegationPreimage E d' t) →
    ts.map (fun t => (E.sha256 t).bytes) = ts'.map (fun t => (E.sha256 t).bytes) →
    ts = ts' ∨ DelegationCollision E d d'
  | [], [], _, _, _ => .inl rfl
  | [], _ :: _, _, _, e => by simp at e
  | _ :: _, [], _, _, e => by simp at e
  | t :: ts, t' :: ts', h, h', e => by
    simp only [List.map_cons, List.cons.injEq] at e
    rcases eq_or_collision (h t (by simp)) (h' t' (by simp)) (Hash.ext' e.1) with rfl | hc
    · rcases blobs_inj (fun x hx => h x (by simp [hx])) (fun x hx => h' x (by simp [hx])) e.2 with rfl | hc
      · exact .inl rfl
      · exact .inr hc
    · exact .inr hc

theorem targets_match {E : Env} {d d' : Delegation} {cs cs' : List Bytes}
    (h : List.Forall₂ (IsPairHash E) (delegationFields d) cs)
    (h' : List.Forall₂ (IsPairHash E) (delegationFields d') cs') (hp : cs.Perm cs') {ts : List Bytes}
    (ht : d.targets = some ts) : d'.targets = some ts ∨ DelegationCollision E d d' := by
  have hk : (ascii "targets", Value.array (ts.map .bytes)) ∈ delegationFields d := by
    simp [delegationFields, ht]
  rcases field_match h h' hp hk with ⟨v', x, hk', hx, hx'⟩ | hc
  · obtain ⟨ts', ht', rfl⟩ := fields_targets hk'
    have e1 := valueHash_unique _ hx (.array _ _ (arrayInput_blobs E ts))
    have e2 := valueHash_unique _ hx' (.array _ _ (arrayInput_blobs E ts'))
    rcases eq_or_collision (.targets ts ht) (.targets ts' ht') (e1.symm.trans e2) with e | hc
    · have := flatten_inj (n := 32) (by omega) (by simp [Hash.len]) (by simp [Hash.len]) e
      rcases blobs_inj (fun t m => .target ts t ht m) (fun t m => .target ts' t ht' m) this with rfl | hc
      · exact .inl ht'
      · exact .inr hc
    · exact .inr hc
  · exact .inr hc

theorem delegation_inj {E : Env} {d d' : Delegation} {h : Hash} (a : IsDelegationHash E d h)
    (b : IsDelegationHash E d' h) : d = d' ∨ DelegationCollision E d d' := by
  obtain ⟨mh, ⟨cs, s, c1, c2, c3, c4⟩, rfl⟩ := a
  obtain ⟨mh', ⟨cs', s', c1', c2', c3', c4'⟩, e⟩ := b
  rcases eq_or_collision (.message mh ⟨cs, s, c1, c2, c3, c4⟩) (.message mh' ⟨cs', s', c1', c2', c3', c4'⟩) e
    with e | hc
  swap
  · exact .inr hc
  simp only [delegationMessage, List.cons_append, List.cons.injEq, true_and] at e
  have e := Hash.ext' (List.append_cancel_left e)
  rw [c4, c4'] at e
  rcases eq_or_collision (.fields cs s c1 c2 c3) (.fields cs' s' c1' c2' c3') e with e | hc
  swap
  · exact .inr hc
  have hs : s = s' := flatten_inj (n := 64) (by omega)
    (fun x hx => forall₂_length c1 x (c2.mem_iff.mp hx)) (fun x hx => forall₂_length c1' x (c2'.mem_iff.mp hx)) e
  have hp : cs.Perm cs' := c2.symm.trans (hs ▸ c2')
  have hpk : (ascii "pubkey", Value.bytes d.pubkey) ∈ delegationFields d := by
    unfold delegationFields; split <;> simp
  have hex : (ascii "expiration", Value.u64 d.expiration) ∈ delegationFields d := by
    unfold delegationFields; split <;> simp
  rcases field_match c1 c1' hp hpk with ⟨v', x, hk', hx, hx'⟩ | hc
  swap
  · exact .inr hc
  rw [fields_pubkey hk'] at hx'
  rcases eq_or_collision .pubkey .pubkey ((valueHash_unique _ (.blob _) hx).trans
      (valueHash_unique _ hx' (.blob _))) with e1 | hc
  swap
  · exact .inr hc
  rcases field_match c1 c1' hp hex with ⟨v', x, hk', hx, hx'⟩ | hc
  swap
  · exact .inr hc
  rw [fields_expiration hk'] at hx'
  cases hx with | nat _ bs hb hm =>
  obtain ⟨bs', _, hb', _, hm', _⟩ := hashU64_spec Empty E d'.expiration
  have := valueHash_unique _ hx' (.nat _ bs' hb' hm')
  rcases eq_or_collision (.expiration bs hb hm) (.expiration bs' hb' hm') this with e2 | hc
  swap
  · exact .inr hc
  subst e2
  have e2 := UInt64.toNat_inj.mp (leb_value_unique hb hb')
  have e3 : d.targets = d'.targets ∨ DelegationCollision E d d' := by
    cases ht : d.targets with
    | some ts =>
      rcases targets_match c1 c1' hp ht with h | h
      · exact .inl h.symm
      · exact .inr h
    | none =>
      cases ht' : d'.targets with
      | none => exact .inl rfl
      | some ts =>
        rcases targets_match c1' c1 hp.symm ht' with h | h
        · rw [ht] at h; cases h
        · exact .inr h.symm
  rcases e3 with e3 | hc
  · left; cases d; cases d'; simp_all
  · exact .inr hc

/-- The strings hashed for a delegation, listed. -/
def preimages (E : Env) (d : Delegation) : Res Empty (List Bytes) := do
  let leb ← lebGo 10 d.expiration
  let chunks ← hashPairs E (delegationFields d)
  let fields := (sortBy bytesLe chunks).flatten
  let targets := match d.targets with
    | none => []
    | some ts => (ts.map fun t => (E.sha256 t).bytes).flatten :: ts
  .ok ((delegationFields d).map Prod.fst ++ [d.pubkey, leb, fields, delegationMessage (E.sha256 fields)] ++ targets)

theorem preimages_complete (E : Env) (d : Delegation) : ∃ l, preimages E d = .ok l ∧
    l.length ≤ 8 + (match d.targets with | none => 0 | some ts => ts.length) ∧ ∀ x, DelegationPreimage E d x → x ∈ l := by
  obtain ⟨leb, h1, h2, _, h4⟩ := leb_go (ε := Empty) 10 d.expiration (by omega) (by have := d.expiration.toNat_lt; omega)
  obtain ⟨chunks, c1, c2⟩ := hashPairs_ok Empty E (delegationFields d)
  simp only [preimages, h1, c1, Res.ok_bind]
  refine ⟨_, rfl, ?_, fun x hx => ?_⟩
  · unfold delegationFields
    cases d.targets <;> simp <;> omega
  · have hs : ∀ cs s, List.Forall₂ (IsPairHash E) (delegationFields d) cs → s.Perm cs →
        s.Pairwise (fun a b => compare a b ≠ .gt) → s = sortBy bytesLe chunks := fun cs s g1 g2 g3 => by
      rw [pairHashes_unique c2 g1]; exact sortBytes_unique g2 g3
    cases hx with
    | fieldName _ v hv => exact List.mem_append_left _ (List.mem_append_left _ (List.mem_map.2 ⟨_, hv, rfl⟩))
    | pubkey => simp
    | expiration _ g1 g2 => rw [leb_unique x leb _ g1 g2 h2 h4]; simp
    | target ts _ ht hm => rw [ht]; simp [hm]
    | targets ts ht => rw [ht]; simp
    | fields cs s g1 g2 g3 => rw [hs cs s g1 g2 g3]; simp
    | message mh g =>
      obtain ⟨cs, s, g1, g2, g3, rfl⟩ := g
      rw [hs cs s g1 g2 g3]; simp

theorem no_delegationCollision {E : Env} {d d' : Delegation}
    (h : (match preimages E d, preimages E d' with
      | .ok l, .ok l' => l.all fun x => l'.all fun y => x == y || !decide (E.sha256 x = E.sha256 y)
      | _, _ => false) = true) : ¬DelegationCollision E d d' := by
  rintro ⟨x, y, hx, hy, hne, he⟩
  obtain ⟨l, h1, _, h2⟩ := preimages_complete E d
  obtain ⟨l', h1', _, h2'⟩ := preimages_complete E d'
  rw [h1, h1'] at h
  have := List.all_eq_true.1 (List.all_eq_true.1 h x (h2 x hx)) y (h2' y hy)
  simp [hne, he] at this

end Siwe
