import Verif.Props.StableMaps
import Verif.Lemmas.Mappings
import Mathlib.Data.List.Dedup
/- Property C118: stable memory grows with the users, not with the calls. -/
namespace Siwe
open Spec StableBTree

theorem sorted_keys_nodup {l : List Item} (h : Sorted l) : (l.map (·.1)).Nodup := by
  rw [List.Nodup, List.pairwise_map]
  refine List.Pairwise.imp (fun {a b} hl he => ?_) h
  rw [he] at hl
  exact less_irrefl _ hl

theorem find_of_mem {l : List Item} (e : Item) (h : e ∈ l) : ∃ v, find l e.1 = some v := by
  cases hf : l.find? (fun x => x.1 = e.1) with
  | none =>
    have := List.find?_eq_none.1 hf e h
    simp at this
  | some x => exact ⟨x.2, by rw [find, hf]; rfl⟩

theorem length_le_of_names {l : List Item} (hs : Sorted l) (names : List Bytes) (R : Bytes → Bytes → Prop)
    (hR : ∀ e ∈ l, ∃ n ∈ names, R e.1 n) (hu : ∀ k k' n, R k n → R k' n → k = k') : l.length ≤ names.length := by
  classical
  let f : Bytes → Bytes := fun k => if h : ∃ n, n ∈ names ∧ R k n then h.choose else []
  have hf : ∀ k ∈ l.map (·.1), f k ∈ names ∧ R k (f k) := by
    intro k hk
    obtain ⟨e, he, rfl⟩ := List.mem_map.1 hk
    have h : ∃ n, n ∈ names ∧ R e.1 n := hR e he
    simp only [f, dif_pos h]
    exact h.choose_spec
  have hn : ((l.map (·.1)).map f).Nodup :=
    List.Nodup.map_on (fun x hx y hy e => hu x y (f x) (hf x hx).2 (e ▸ (hf y hy).2)) (sorted_keys_nodup hs)
  have hsub : (l.map (·.1)).map f ⊆ names := by
    intro x hx
    obtain ⟨k, hk, rfl⟩ := List.mem_map.1 hx
    exact (hf k hk).1
  have := (List.subperm_of_subset hn hsub).length_le
  simpa using this

theorem Holds.few {t : BTreeMap} {l : List Item} (h : Holds t l) : 5 * t.memory.next ≤ l.length + 4 := by
  obtain ⟨_, _, _, g4⟩ := h
  cases hr : t.root with
  | none =>
    rw [hr] at g4
    rw [g4.2]
    omega
  | some a =>
    rw [hr] at g4
    obtain ⟨h, F, r1, r2, r3, r4, r5⟩ := g4
    have := r1.nodes 1 r4
    omega

theorem MappedBy.signedIn {E : Env} {es : List Event} {p bs : Bytes} (h : MappedBy E es p bs) :
    ∃ a, SignedInAs E es a p ∧ Spells (a.drop 2) bs := by
  obtain ⟨before, e, after, addr, key, nonce, ld, h1, h2, h3, _, _, h6, h7⟩ := h
  exact ⟨addr, ⟨before, e, after, key, nonce, ld, h1, h2, h3, h7⟩, h6⟩

theorem _root_.Siwe.Spec.SignedInAs.mem_signIns {E : Env} {es : List Event} {a p : Bytes} (h : SignedInAs E es a p) : (a, p) ∈ signIns E es := by
  obtain ⟨before, e, after, key, nonce, ld, rfl, _, ⟨⟨sig, h3⟩, h4⟩, rfl⟩ := h
  refine List.mem_filterMap.2 ⟨e, by simp, ?_⟩
  simp only [Event.user, h3, h4]

/-- C118: after any calls, each of the two maps in stable memory has at most as many entries as there are users who signed in since the
installation, and has allocated at most one node for every five of them, rounded up. -/
theorem C118_grows_with_users (E : Env) (h : History) (principals addresses : List Bytes)
    (hall : ∀ a p, SignedInAs E (trace E h) a p → a ∈ addresses ∧ p ∈ principals) :
    let c := (StableBTree.run (Canister.fresh E) h).1
    c.principalAddress.map.length ≤ principals.length ∧ 5 * c.principalAddress.map.memory.next ≤ principals.length + 4 ∧
      c.addressPrincipal.map.length ≤ addresses.length ∧ 5 * c.addressPrincipal.map.memory.next ≤ addresses.length + 4 := by
  intro c
  obtain ⟨_, _, _, _, ⟨l, g1, g2⟩, ⟨l', g1', g2'⟩⟩ := (run_backed h _ _ (fresh_backed E)).2
  have k1 : l.length ≤ principals.length := by
    refine length_le_of_names g1.2.2.1 principals (fun k n => k = n) (fun e he => ?_) (fun k k' n e1 e2 => e1.trans e2.symm)
    obtain ⟨v, hv⟩ := find_of_mem e he
    rw [g2] at hv
    obtain ⟨a, ha, _⟩ := (mapping_origin E h e.1 v (.inl hv)).signedIn
    exact ⟨e.1, (hall a e.1 ha).2, rfl⟩
  have k2 : l'.length ≤ addresses.length := by
    refine length_le_of_names g1'.2.2.1 addresses (fun k n => Spells (n.drop 2) k) (fun e he => ?_) (fun k k' n e1 e2 => spells_unique e1 e2)
    obtain ⟨v, hv⟩ := find_of_mem e he
    rw [g2'] at hv
    obtain ⟨a, ha, hs⟩ := (mapping_origin E h v e.1 (.inr hv)).signedIn
    exact ⟨a, (hall a v ha).1, hs⟩
  have f1 := Holds.few g1
  have f2 := Holds.few g1'
  have n1 := g1.2.1
  have n2 := g1'.2.1
  refine ⟨?_, ?_, ?_, ?_⟩ <;> (simp only [c]; omega)

/-- C118: however often they sign in. -/
theorem C118_counts_users_once (E : Env) (h : History) :
    let c := (StableBTree.run (Canister.fresh E) h).1
    let users := (signIns E (trace E h)).map (·.1)
    c.addressPrincipal.map.length ≤ users.dedup.length ∧ 5 * c.addressPrincipal.map.memory.next ≤ users.dedup.length + 4 ∧
    let keys := (signIns E (trace E h)).map (·.2)
    c.principalAddress.map.length ≤ keys.dedup.length ∧ 5 * c.principalAddress.map.memory.next ≤ keys.dedup.length + 4 := by
  have := C118_grows_with_users E h ((signIns E (trace E h)).map (·.2)).dedup ((signIns E (trace E h)).map (·.1)).dedup (fun a p hs => by
    have := hs.mem_signIns
    exact ⟨List.mem_dedup.2 (List.mem_map.2 ⟨_, this, rfl⟩), List.mem_dedup.2 (List.mem_map.2 ⟨_, this, rfl⟩)⟩)
  exact ⟨this.2.2.1, this.2.2.2, this.1, this.2.1⟩

theorem Backs.reset_map {h : Handle} {m : StableMap} (hb : Backs h m) : h.reset.map = h.map := by
  obtain ⟨l, h1, _⟩ := hb
  cases h with
  | closed m => rfl
  | opened t => exact Holds.reload (t := t) h1

/-- The maps of the canister lie as they lay. -/
def SameMaps {E : Env} (c c' : Canister E) : Prop :=
  c'.principalAddress.map = c.principalAddress.map ∧ c'.addressPrincipal.map = c.addressPrincipal.map

theorem login_sameMaps {E : Env} (c : Canister E) (now : UInt64) (sig a k n : Bytes) (hr : ∀ d, (StableBTree.siweLogin c now sig a k n).2 ≠ .ok d) :
    (StableBTree.siweLogin c now sig a k n).2 = .panic ∨ SameMaps c (StableBTree.siweLogin c now sig a k n).1 := by
  revert hr
  simp only [StableBTree.siweLogin]
  cases EthAddress.new E a with
  | err e => exact fun _ => .inr ⟨rfl, rfl⟩
  | panic => exact fun _ => .inl rfl
  | ok a =>
    cases EthSignature.new sig with
    | err e => exact fun _ => .inr ⟨rfl, rfl⟩
    | panic => exact fun _ => .inl rfl
    | ok s =>
      simp only
      generalize Siwe.login c.lib c.sigMap now s a k E.canisterId n = r
      obtain ⟨l, sm, r⟩ := r
      cases r with
      | err e => exact fun _ => .inr ⟨rfl, rfl⟩
      | panic => exact fun _ => .inl rfl
      | ok d =>
        simp only
        split
        · exact fun _ => .inl rfl
        · split
          · exact fun _ => .inr ⟨rfl, rfl⟩
          · exact fun _ => .inl rfl
          · exact fun h => (h _ rfl).elim

/-- C118: no other call touches the maps: not a login that failed, not an upgrade. -/
theorem C118_only_logins (E : Env) (h : History) (now : UInt64) (op : Op) :
    let c := (StableBTree.run (Canister.fresh E) h).1
    let x := StableBTree.step c now op
    (∀ i, op ≠ .install i) → (∀ d, x.2 ≠ .loggedIn d) →
      x.1.principalAddress.map = c.principalAddress.map ∧ x.1.addressPrincipal.map = c.addressPrincipal.map := by
  intro c x hi hl
  have hc : Same c (Siwe.run (State.fresh E) h).1 := (run_backed h _ _ (fresh_backed E)).2
  obtain ⟨_, _, _, _, b1, b2⟩ := hc
  revert hl
  simp only [x]
  cases op with
  | install i => exact (hi i rfl).elim
  | upgrade i =>
    intro _
    simp only [StableBTree.step, StableBTree.commitInit]
    split
    · exact ⟨b1.reset_map, b2.reset_map⟩
    · rename_i e _; exact nomatch e
    · exact ⟨rfl, rfl⟩
  | rngSeeded s => exact fun _ => ⟨rfl, rfl⟩
  | prepareLogin a =>
    intro _
    simp only [StableBTree.step, StableBTree.commit]
    split <;> exact ⟨rfl, rfl⟩
  | login sig a k n =>
    simp only [StableBTree.step, StableBTree.commit]
    intro hl
    generalize hr : (StableBTree.siweLogin c now sig a k n).2 = r at hl
    cases r with
    | panic => exact ⟨rfl, rfl⟩
    | ok d => exact (hl d rfl).elim
    | err e =>
      rcases login_sameMaps c now sig a k n (fun d => by rw [hr]; exact nofun) with h | h
      · rw [hr] at h; exact nomatch h
      · exact h
  | _ => exact fun _ => ⟨rfl, rfl⟩

/-- Alice signs in, fails with a bad signature, signs in again after an upgrade, and other calls are made. -/
def Ex.oneUser : History := Ex.loggedIn ++ [(150, .upgrade Ex.input), (160, .prepareLogin Ex.alice), (170, .login Ex.bobSig Ex.bob Ex.key (Ex.nonce 4)),
  (180, .rngSeeded [1, 2, 3, 4, 5, 6]), (200, .prepareLogin Ex.alice), (300, .login Ex.aliceSig Ex.alice Ex.key (Ex.nonce 6))]

/-- Non-vacuity: two logins, one user, one entry in one node in each map. -/
example : (signIns Toy.env (trace Toy.env Ex.oneUser)).length = 2 ∧ ((signIns Toy.env (trace Toy.env Ex.oneUser)).map (·.1)).dedup.length = 1 ∧
    let c := (StableBTree.run (Canister.fresh Toy.env) Ex.oneUser).1
    c.addressPrincipal.map.length = 1 ∧ c.addressPrincipal.map.memory.next = 1 ∧ c.principalAddress.map.length = 1 ∧
      c.principalAddress.map.memory.next = 1 := by
  decide +kernel

end Siwe
