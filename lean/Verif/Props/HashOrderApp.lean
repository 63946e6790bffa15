import Verif.Props.HashOrder
import Verif.Props.Embedding
/-
C137 for canisters that embed the library.
-/
namespace Siwe
open Spec

theorem appSame_refl {E : Env} (s : AppState E) : AppSameButOrder s s := ⟨_, .refl _, rfl⟩

theorem appSame_trans {E : Env} {s t u : AppState E} (h : AppSameButOrder s t) (h' : AppSameButOrder t u) : AppSameButOrder s u := by
  obtain ⟨M, h1, rfl⟩ := h
  obtain ⟨N, h2, rfl⟩ := h'
  exact ⟨N, h1.trans h2, rfl⟩

theorem appMap_same {E : Env} {α : Type} {s s' : AppState E} (h : AppSameButOrder s s') (i : Nat) (f : α → LibReply)
    (x : Res Empty (α × SigMap)) : (appMap s' i f x).2 = (appMap s i f x).2 ∧ AppSameButOrder (appMap s i f x).1 (appMap s' i f x).1 := by
  obtain ⟨M, hM, rfl⟩ := h
  cases x with
  | ok a => exact ⟨rfl, M, hM, rfl⟩
  | err e => exact nomatch e
  | panic => exact ⟨rfl, M, hM, rfl⟩

theorem appStep_same {E : Env} {s s' : AppState E} (hu : UniqueKeys s.lib.messages) (h : AppSameButOrder s s') (now : UInt64) (c : LibCall) :
    (appStep s' now c).2 = (appStep s now c).2 ∧ AppSameButOrder (appStep s now c).1 (appStep s' now c).1 := by
  have hs := h
  obtain ⟨M, hM, rfl⟩ := h
  have hl : LibSame s.lib { s.lib with messages := M } := ⟨M, hM, rfl⟩
  cases c with
  | restart => exact ⟨rfl, appSame_refl _⟩
  | init st => exact ⟨rfl, M, hM, rfl⟩
  | rngSeeded seed => exact ⟨rfl, M, hM, rfl⟩
  | newMap i => exact ⟨rfl, M, hM, rfl⟩
  | put i sh dh => exact appMap_same hs ..
  | delete i sh dh => exact appMap_same hs ..
  | prune i k => exact appMap_same hs ..
  | witness i a k e => exact ⟨rfl, hs⟩
  | prepareLogin a =>
    simp only [appStep, appPrepare]
    cases EthAddress.new E a with
    | err e => exact ⟨rfl, hs⟩
    | panic => exact ⟨rfl, hs⟩
    | ok a =>
      rcases prepareLogin_same hl now a with ⟨h1, h2⟩ | ⟨e, h1, h2⟩ | ⟨t, t', m, n, h1, h2, N, hN, rfl⟩
      · simp only [h1, h2]; exact ⟨trivial, hs⟩
      · simp only [h1, h2]; exact ⟨trivial, hs⟩
      · simp only [h1, h2]; exact ⟨trivial, N, hN, rfl⟩
  | login i sig a key cid nonce =>
    simp only [appStep, appLogin]
    cases EthAddress.new E a with
    | err e => exact ⟨rfl, hs⟩
    | panic => exact ⟨rfl, hs⟩
    | ok a =>
      cases EthSignature.new sig with
      | err e => exact ⟨rfl, hs⟩
      | panic => exact ⟨rfl, hs⟩
      | ok sig =>
        obtain ⟨h1, h2⟩ := login_same hu hl (s.maps i) now sig a key cid nonce
        dsimp only
        generalize login s.lib (s.maps i) now sig a key cid nonce = x at h1 h2 ⊢
        generalize login { s.lib with messages := M } (s.maps i) now sig a key cid nonce = x' at h1 h2 ⊢
        obtain ⟨t, sm, r⟩ := x
        obtain ⟨t', sm', r'⟩ := x'
        simp only [Prod.mk.injEq] at h1 h2
        obtain ⟨rfl, rfl⟩ := h1
        obtain ⟨N, hN, rfl⟩ := h2
        cases r' with
        | err e => exact ⟨rfl, N, hN, rfl⟩
        | panic => exact ⟨rfl, hs⟩
        | ok d => exact ⟨rfl, N, hN, rfl⟩

/-- C137: the same for every canister that embeds the library, whatever use it makes of it: the order in which the library keeps the pending
sign-ins shows in no answer of the library and nowhere else in the state, so replicas of that canister agree as well. -/
theorem C137_embedded (E : Env) (es : List LibEvent) (s : AppState E) (h : AppReplica E es s) :
    es = libTrace E (usesAmong es) ∧ AppSameButOrder (appAfter E (usesAmong es)) s := by
  induction h with
  | new => exact ⟨rfl, appSame_refl _⟩
  | rearranged _ hs ih => exact ⟨ih.1, appSame_trans ih.2 hs⟩
  | @used es s now c _ ih =>
    obtain ⟨h1, h2⟩ := appStep_same (appInv_after E (usesAmong es)).keys ih.2 now c
    have hc : usesAmong (es ++ [⟨now, c, (appStep s now c).2⟩]) = usesAmong es ++ [(now, c)] := by simp [usesAmong]
    rw [hc]
    constructor
    · rw [libTrace_snoc, h1]
      exact congrArg (· ++ _) ih.1
    · rw [appAfter_snoc]
      exact h2

/-- C137: two replicas of such a canister that made the same uses got the same answers and have the same signature maps. -/
theorem C137_embedded_agree (E : Env) (es es' : List LibEvent) (s s' : AppState E) (h : AppReplica E es s) (h' : AppReplica E es' s')
    (hc : usesAmong es = usesAmong es') : es = es' ∧ s.maps = s'.maps ∧ s.lib.messages.Perm s'.lib.messages := by
  obtain ⟨h1, M, h2, rfl⟩ := C137_embedded E es s h
  obtain ⟨h1', M', h2', rfl⟩ := C137_embedded E es' s' h'
  rw [hc] at h1 h2 ⊢
  exact ⟨h1.trans h1'.symm, rfl, h2.symm.trans h2'⟩

/-- Every history is one of a replica. -/
theorem appReplica_of_history (E : Env) (h : LibHistory) : AppReplica E (libTrace E h) (appAfter E h) := by
  induction h using libHistory_induction with
  | nil => exact .new
  | snoc h now c ih =>
    rw [libTrace_snoc, appAfter_snoc]
    exact .used now c ih

/-- Non-vacuity: replicas with two pending sign-ins have them in different orders. -/
example : ∃ s s', AppReplica Toy.env (libTrace Toy.env (Ex.libPrepared ++ [(6, .prepareLogin Ex.bob)])) s ∧
    AppReplica Toy.env (libTrace Toy.env (Ex.libPrepared ++ [(6, .prepareLogin Ex.bob)])) s' ∧ s.lib.messages ≠ s'.lib.messages := by
  refine ⟨_, _, appReplica_of_history _ _, .rearranged (appReplica_of_history _ _) ⟨_, (List.reverse_perm _).symm, rfl⟩, ?_⟩
  decide +kernel

end Siwe
