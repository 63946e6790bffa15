import Verif.Lemmas.StableCanister
import Verif.Examples.Histories
/- Properties C109 and C110: the mappings in stable memory. -/
namespace Siwe
open Spec StableBTree

/-! ### C109 -/

/-- C109: no insertion or upgrade panics; the value of a key is the one inserted last, over all upgrades; the map counts its keys; a
further insertion tells the value it replaces. -/
theorem C109_map (us : List MapUse) : ∃ t, mapAfter us = some t ∧ (∀ k, get t k = some (latest (inserted us) k)) ∧
    t.length = keysOf (inserted us) ∧ ∀ k v, ∃ t', StableBTree.insert t k v = some (t', latest (inserted us) k) := by
  obtain ⟨t, l, h1, h2, h3, h4⟩ := mapAfter_holds us
  refine ⟨t, h1, fun k => by rw [h2.get, h3], by rw [h2.2.1, h4], fun k v => ?_⟩
  obtain ⟨t', l', old, i1, i2, i3⟩ := h2.insert k v
  exact ⟨t', by rw [i1, i3.old h2.2.2.1, h3]⟩

/-- C109: an upgrade loads exactly the map that was there. -/
theorem C109_upgrade (us : List MapUse) : mapAfter (us ++ [.upgrade]) = mapAfter us := by
  obtain ⟨t, l, h1, h2, _⟩ := mapAfter_holds us
  rw [mapAfter_snoc, h1]
  simp [useMap, h2.reload]

/-- C109: with `n` keys in the map, a look-up reads at most `1 + log₆ ((n + 1) / 2)` nodes, and at most `(n + 4) / 5` nodes were ever
allocated. -/
theorem C109_size (us : List MapUse) : ∃ t, mapAfter us = some t ∧ 5 * t.memory.next ≤ keysOf (inserted us) + 4 ∧
    ∀ a, t.root = some a → ∃ d, 2 * 6 ^ d ≤ keysOf (inserted us) + 1 ∧
      ∀ k, getHelper k (d + 1) t.memory a = some (latest (inserted us) k) := by
  obtain ⟨t, l, h1, h2, h3, h4⟩ := mapAfter_holds us
  obtain ⟨g1, g2, g3, g4⟩ := h2
  refine ⟨t, h1, ?_, fun a ha => ?_⟩
  · cases hr : t.root with
    | none =>
      rw [hr] at g4
      rw [g4.2]
      omega
    | some a =>
      rw [hr] at g4
      obtain ⟨h, F, r1, r2, r3, r4, r5⟩ := g4
      have := r1.nodes 1 r4
      omega
  · rw [ha] at g4
    obtain ⟨h, F, r1, r2, r3, r4, r5⟩ := g4
    exact ⟨h, by have := r1.high 1 r4; omega, fun k => by rw [getHelper_spec k h _ _ _ _ _ r1 g3 (Nat.lt_succ_self h), h3]⟩

/-- Thirty insertions in descending order and again the first ones, with two upgrades in between. -/
def Ex.mapUses : List MapUse :=
  (List.range 30).map (fun i => .insert [UInt8.ofNat (200 - i)] [UInt8.ofNat i]) ++ [.upgrade, .insert [197] [42], .upgrade]

/-- Non-vacuity: full nodes were split, a key was replaced, and all are found. -/
example : ∃ t, mapAfter Ex.mapUses = some t ∧ t.length = 30 ∧ t.memory.next = 6 ∧ get t [197] = some (some [42]) ∧
    get t [171] = some (some [29]) ∧ get t [201] = some none ∧ latest (inserted Ex.mapUses) [197] = some [42] ∧ keysOf (inserted Ex.mapUses) = 30 := by
  refine ⟨(mapAfter Ex.mapUses).get (by decide +kernel), by simp, ?_⟩
  decide +kernel

/-! ### C110 -/

/-- C110: whatever is called, in whatever order and with whatever upgrades, the canister that keeps its mappings as B-trees in stable
memory gives the replies of the one that keeps them as finite maps. -/
theorem C110_replies (E : Env) (h : History) : (StableBTree.run (Canister.fresh E) h).2 = (Siwe.run (State.fresh E) h).2 :=
  (run_backed h _ _ (fresh_backed E)).1

/-- C110: what a query answers after a history. -/
theorem C110_answers (E : Env) (h : History) (now : UInt64) (op : Op) :
    (StableBTree.step (StableBTree.run (Canister.fresh E) h).1 now op).2 = (Siwe.step (stateAfter E h) now op).2 :=
  (step_backed (run_backed h _ _ (fresh_backed E)).2 now op).1

/-- Non-vacuity: Alice logged in, the canister was upgraded, and the trees loaded again from stable memory know Alice's principal. -/
example : (StableBTree.step (StableBTree.run (Canister.fresh Toy.env) (Ex.loggedIn ++ [(150, .upgrade Ex.input)])).1 200 (.getPrincipal Ex.alice)).2 =
    .bytes (principalOf Toy.env Ex.input Ex.alice) := by
  decide +kernel

end Siwe
