import Verif.Spec.Moments
import Verif.Lemmas.Managers
/- Helper lemmas for the moments of a step. -/
namespace Siwe
open Spec

/-- Two states show the same. -/
structure SameShown (c c' : Client) : Prop where
  identity : c'.ctx.identity = c.ctx.identity
  address : c'.ctx.identityAddress = c.ctx.identityAddress
  chain : c'.ctx.delegationChain = c.ctx.delegationChain
  initializing : c'.ctx.isInitializing = c.ctx.isInitializing

/-- What a moment within a step can be: its end; an update of the status; a write to local storage. -/
def Between (c after : Client) (m : Moment) : Prop :=
  m = after.told ∨
  (∃ c' : Client, m = c'.told ∧ c'.storage = c.storage ∧ after.storage = c.storage ∧ SameShown c c' ∧ (StatusOk c → StatusOk c')) ∨
  (m.told = false ∧ m.ctx = c.ctx ∧ m.storage = after.storage)

theorem resume_between (c : Client) (pc : Pc) (a : Answer) (m : Moment) (hm : m ∈ c.resumeMoments pc a) :
    Between c (c.resume pc a).1 m := by
  unfold Client.resumeMoments at hm
  split at hm
  case h_2 => exact .inl (List.mem_singleton.mp hm)
  case h_9 l =>
    unfold Client.loginWithMoments at hm
    split at hm
    · exact .inl (List.mem_singleton.mp hm)
    · next account rest =>
      split at hm
      · next h0 =>
        rw [List.mem_singleton.mp hm]
        simp [Between, Client.resume, Client.loginWith, h0]
      · next h0 =>
        have hstat : StatusOk c → StatusOk c.loggingIn := fun x => ⟨(fun h => nomatch h), (fun h => nomatch h), x.prepare⟩
        split at hm
        · next p hp =>
          rcases List.mem_cons.mp hm with h | h
          · refine .inr (.inl ⟨_, h, rfl, ?_, ⟨rfl, rfl, rfl, rfl⟩, hstat⟩)
            simp only [Client.resume, Client.loginWith, h0, hp, if_false]; rfl
          · rw [List.mem_singleton.mp h]
            exact .inl (by simp [Client.resume, Client.loginWith, h0, hp])
        · next hp =>
          rw [List.mem_singleton.mp hm]
          refine .inl ?_
          simp [Client.resume, Client.loginWith, h0, hp, Client.told, Client.startPrepareLogin, (setup_ctx _).1, (setup_ctx _).2.1]
  case h_13 p s =>
    unfold Client.signedMoments at hm
    split at hm
    · next h0 =>
      rcases List.mem_cons.mp hm with h | h
      · refine .inr (.inl ⟨_, h, rfl, ?_, ⟨rfl, rfl, rfl, rfl⟩, fun x => ⟨x.success, x.error, x.prepare⟩⟩)
        simp only [Client.resume, Client.signed, h0, if_true]; rfl
      · rw [List.mem_singleton.mp h]
        exact .inl (by simp [Client.resume, Client.signed, h0, Client.signatureFails])
    · next h0 =>
      rw [List.mem_singleton.mp hm]
      exact .inl (by simp [Client.resume, Client.signed, h0])
  case h_14 =>
    rcases List.mem_cons.mp hm with h | h
    · exact .inr (.inl ⟨_, h, rfl, rfl, ⟨rfl, rfl, rfl, rfl⟩, fun x => ⟨x.success, x.error, x.prepare⟩⟩)
    · rw [List.mem_singleton.mp h]
      exact .inl rfl
  case h_17 r =>
    unfold Client.loginReplyMoments at hm
    split at hm
    · exact absurd hm List.not_mem_nil
    all_goals
      rw [List.mem_singleton.mp hm]
      exact .inl (by simp [Client.resume, Client.loginReply])
  case h_20 r =>
    unfold Client.delegationReplyMoments at hm
    split at hm
    · rw [if_neg (by decide)] at hm
      rcases List.mem_cons.mp hm with h | h
      · rw [h]
        exact .inr (.inr ⟨rfl, rfl, by simp [Client.resume, Client.delegationReply]⟩)
      · rw [List.mem_singleton.mp h]
        exact .inl (by simp [Client.resume, Client.delegationReply])
    all_goals
      rw [List.mem_singleton.mp hm]
      exact .inl (by simp [Client.resume, Client.delegationReply])
  case h_21 r =>
    unfold Client.delegationReplyMoments at hm
    split at hm
    · rw [if_pos rfl] at hm
      rw [List.mem_singleton.mp hm]
      exact .inl (by simp [Client.resume, Client.delegationReply])
    all_goals
      rw [List.mem_singleton.mp hm]
      exact .inl (by simp [Client.resume, Client.delegationReply])
  case h_23 => exact absurd hm List.not_mem_nil
  all_goals exact .inl (List.mem_singleton.mp hm)

/-- The calls and requests only grow. -/
theorem step_grows (E : Env) (K : SessionKeys) (w : World) (x : Happening) :
    (∃ h, w.calls ++ h = (w.step E K x).calls) ∧ ∃ l, w.log ++ l = (w.step E K x).log := by
  cases x with
  | resume i a =>
    simp only [World.step]
    split
    · exact ⟨⟨[], by simp⟩, [], by simp⟩
    · exact ⟨⟨[], by simp⟩, _, rfl⟩
  | execute i t c =>
    simp only [World.step]
    split
    · exact ⟨⟨[], by simp⟩, [], by simp⟩
    · split
      · exact ⟨⟨[], by simp⟩, [], by simp⟩
      · exact ⟨⟨_, rfl⟩, [], by simp⟩
  | lagging i t c seen =>
    simp only [World.step]
    split
    · exact ⟨⟨[], by simp⟩, [], by simp⟩
    · split
      · exact ⟨⟨[], by simp⟩, [], by simp⟩
      · exact ⟨⟨[], by simp⟩, [], by simp⟩
  | other t op => exact ⟨⟨_, rfl⟩, [], by simp [World.step]⟩
  | _ => exact ⟨⟨[], by simp [World.step]⟩, [], by simp [World.step]⟩

/-- What the moments of a page can be: within a step; those of `clear()`; and those of a page load before its end. -/
theorem moment_cases (E : Env) (K : SessionKeys) (hs : List Happening) (x : Happening) (m : Moment)
    (hm : m ∈ (worldAfter E K hs).moments x) :
    Between (worldAfter E K hs).client ((worldAfter E K hs).step E K x).client m ∨
    (x = .clear ∧ m.ctx = (worldAfter E K hs).client.clear.ctx ∧ (m.storage = (worldAfter E K hs).client.storage ∨ m.storage = none)) ∨
    (x = .load ∧ (m = ⟨.initial, (worldAfter E K hs).client.storage, true⟩ ∨
      ∃ s, (worldAfter E K hs).client.storage = some s ∧ m = ⟨{ Context.initial with identityAddress := some s.address, identity := some ⟨s.session, s.chain⟩, delegationChain := some s.chain }, some s, true⟩)) := by
  have ok := (worldOk E K hs).ctx
  have st := statusOk E K hs
  generalize worldAfter E K hs = w at hm ok st
  cases x with
  | load =>
    simp only [World.moments, Client.loadMoments, Client.constructMoments] at hm
    cases hc : w.client.storage with
    | none =>
      simp only [hc, List.mem_cons, List.not_mem_nil, or_false] at hm
      rcases hm with rfl | rfl
      · exact .inr (.inr ⟨rfl, .inl rfl⟩)
      · exact .inl (.inl (by simp [World.step, Client.told, Client.load, Client.construct, hc]))
    | some s =>
      simp only [hc, List.mem_cons, List.not_mem_nil, or_false] at hm
      rcases hm with rfl | rfl | rfl
      · exact .inr (.inr ⟨rfl, .inl rfl⟩)
      · exact .inr (.inr ⟨rfl, .inr ⟨s, rfl, rfl⟩⟩)
      · exact .inl (.inl (by simp [World.step, Client.told, Client.load, Client.construct, hc]))
  | create =>
    refine .inl ?_
    simp only [World.moments, Client.constructMoments] at hm
    cases hc : w.client.storage with
    | none =>
      simp only [hc, List.mem_cons, List.not_mem_nil, or_false] at hm
      exact .inl (by simp [hm, World.step, Client.told, Client.create, Client.construct, hc])
    | some s =>
      simp only [hc, List.mem_cons, List.not_mem_nil, or_false] at hm
      rcases hm with rfl | rfl
      · refine .inr (.inl ⟨{ w.client with ctx := { w.client.ctx with identityAddress := some s.address, identity := some ⟨s.session, s.chain⟩, delegationChain := some s.chain } },
          by simp [Client.told, hc], rfl, by simp [World.step, Client.create, Client.construct, hc], ⟨?_, ?_, ?_, rfl⟩, fun y => ⟨fun _ => rfl, y.error, y.prepare⟩⟩)
        · rw [ok.identity, hc]; rfl
        · rw [ok.address, hc]; rfl
        · rw [ok.chain, hc]; rfl
      · exact .inl (by simp [World.step, Client.told, Client.create, Client.construct, hc])
  | login =>
    refine .inl ?_
    simp only [World.moments, Client.startLoginMoments] at hm
    split at hm
    · next h => rw [List.mem_singleton.mp hm]; exact .inl (by simp [World.step, Client.startLogin, h, Client.start, Client.told])
    · next h =>
      split at hm
      · next h' => rw [List.mem_singleton.mp hm]; exact .inl (by simp [World.step, Client.startLogin, h, h', Client.start, Client.told])
      · exact absurd hm List.not_mem_nil
  | clear =>
    simp only [World.moments, Client.clearMoments, List.mem_cons, List.not_mem_nil, or_false] at hm
    rcases hm with rfl | rfl
    · exact .inr (.inl ⟨rfl, rfl, .inl rfl⟩)
    · exact .inr (.inl ⟨rfl, rfl, .inr rfl⟩)
  | resume i a =>
    refine .inl ?_
    cases ht : w.client.tasks[i]? with
    | none => simp only [World.moments, ht] at hm; exact absurd hm List.not_mem_nil
    | some pc =>
      simp only [World.moments, ht] at hm
      simp only [World.step, ht]
      exact resume_between _ _ _ _ hm
  | _ => exact absurd hm List.not_mem_nil

/-- The moments end with the state after the step. -/
def EndsWith (c after : Client) (ms : List Moment) : Prop :=
  (ms = [] ∧ after.ctx = c.ctx ∧ after.storage = c.storage) ∨ ∃ before m, ms = before ++ [m] ∧ after.ctx = m.ctx ∧ after.storage = m.storage

theorem endsWith_one (c after : Client) : EndsWith c after [after.told] := .inr ⟨[], _, rfl, rfl, rfl⟩

theorem endsWith_two (c after : Client) (m : Moment) : EndsWith c after [m, after.told] := .inr ⟨[m], _, rfl, rfl, rfl⟩

theorem resume_last (c : Client) (pc : Pc) (a : Answer) : EndsWith c (c.resume pc a).1 (c.resumeMoments pc a) := by
  cases pc
  case prepWallet f b => cases a <;> cases b <;> first | exact endsWith_one _ _ | exact .inl ⟨rfl, rfl, rfl⟩
  case loginWallet b => cases a <;> cases b <;> first | exact endsWith_one _ _ | exact .inl ⟨rfl, rfl, rfl⟩
  all_goals cases a
  case loginAddresses.addresses l =>
    simp only [Client.resume, Client.resumeMoments, Client.loginWith, Client.loginWithMoments]
    cases l with
    | nil => exact endsWith_one _ _
    | cons account rest =>
      dsimp only
      split
      · exact endsWith_one _ _
      · cases hp : c.loggingIn.ctx.prepareLoginOkResponse with
        | some p => exact endsWith_two _ _ _
        | none => exact .inr ⟨[], c.loggingIn.told, rfl, (setup_ctx c.loggingIn).1, (setup_ctx c.loggingIn).2.1⟩
  case signing.signature p s =>
    simp only [Client.resume, Client.resumeMoments, Client.signed, Client.signedMoments]
    split
    · exact endsWith_two _ _ _
    · exact endsWith_one _ _
  case loginReplied.settled r =>
    cases r <;> first | exact endsWith_one _ _ | exact .inl ⟨rfl, rfl, rfl⟩
  case delegationReplied.settled r =>
    cases r <;> first | exact endsWith_one _ _ | exact endsWith_two _ _ _
  case delegationReplied.settledStorageFull r =>
    cases r <;> first | exact endsWith_one _ _ | exact endsWith_two _ _ _
  all_goals first | exact endsWith_one _ _ | exact endsWith_two _ _ _ | exact .inl ⟨rfl, rfl, rfl⟩

/-- When a step of a call leaves the status of signing at "error" without an error. -/
theorem resume_signature (c : Client) (pc : Pc) (a : Answer) (h1 : (c.resume pc a).1.ctx.signMessageStatus = .error)
    (h2 : (c.resume pc a).1.ctx.signMessageError = none) :
    (c.ctx.signMessageStatus = .error ∧ c.ctx.signMessageError = none) ∨ ∃ l, a = .addresses l ∧ pc = .loginAddresses := by
  cases pc
  case prepWallet f b => cases a <;> cases b <;> exact .inl ⟨h1, h2⟩
  case loginWallet b => cases a <;> cases b <;> exact .inl ⟨h1, h2⟩
  all_goals cases a
  case loginAddresses.addresses l => exact .inr ⟨l, rfl, rfl⟩
  case prepAddresses.addresses f l =>
    refine .inl ?_
    simp only [Client.resume, Client.prepareWith] at h1 h2
    cases l with
    | nil => exact ⟨h1, h2⟩
    | cons x l =>
      dsimp only at h1 h2
      split at h1
      · next h => rw [if_pos h] at h2; exact ⟨h1, h2⟩
      · next h => rw [if_neg h] at h2; exact ⟨h1, h2⟩
  case prepReplied.settled r => cases r <;> exact .inl ⟨h1, h2⟩
  case loginReplied.settled r => cases r <;> exact .inl ⟨h1, h2⟩
  case delegationReplied.settled r => cases r <;> exact .inl ⟨h1, h2⟩
  case delegationReplied.settledStorageFull r => cases r <;> exact .inl ⟨h1, h2⟩
  case signing.signature p s =>
    simp only [Client.resume, Client.signed] at h1 h2
    split at h1
    · next h => rw [if_pos h] at h2; exact nomatch h2
    · exact nomatch h1
  case signing.rejected => exact nomatch h2
  case loginPrepared.settled => exact nomatch h1
  all_goals exact .inl ⟨h1, h2⟩

end Siwe
