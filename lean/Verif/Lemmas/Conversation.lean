import Verif.Spec.Conversation
import Verif.Lemmas.StableCanister
import Verif.Lemmas.History
import Verif.Props.Wire
/- The deployed canister's exchanges and the histories of the canister model. -/
namespace Siwe
open Spec StableBTree Candid Wire

/-- The calls among messages. -/
def callsOf (ms : List (UInt64 × RawMessage)) : History := ms.filterMap fun x => (receiveRaw x.2).map (x.1, ·)

theorem callsOf_append (a b : List (UInt64 × RawMessage)) : callsOf (a ++ b) = callsOf a ++ callsOf b := List.filterMap_append ..

theorem callsOf_one {t : UInt64} {m : RawMessage} {op : Op} (h : Requests m op) : callsOf [(t, m)] = [(t, op)] := by
  simp [callsOf, (C107_requests m op).2 h]

theorem stepBytes_same {E : Env} {c : Canister E} {s : State E} (h : Same c s) (now : UInt64) (m : RawMessage) (op : Op)
    (hm : Requests m op) : (stepBytes c now m).2 = (Siwe.step s now op).2 ∧ Same (stepBytes c now m).1 (Siwe.step s now op).1 := by
  simp only [stepBytes, (C107_requests m op).2 hm]
  exact step_backed h now op

theorem exchanges_same {E : Env} : ∀ (ms : List (UInt64 × RawMessage)) (c : Canister E) (s : State E), Same c s →
    Understood (exchanges c ms) (traceFrom s (callsOf ms)) ∧ Same (runBytes c ms).1 (Siwe.run s (callsOf ms)).1
  | [], _, _, h => ⟨.nil, h⟩
  | (t, m) :: ms, c, s, h => by
    cases hr : receiveRaw m with
    | none =>
      have e : stepBytes c t m = (c, .trap) := by simp only [stepBytes, hr]
      have e2 : callsOf ((t, m) :: ms) = callsOf ms := by simp [callsOf, hr]
      have ih := exchanges_same ms c s h
      rw [e2]
      simp only [exchanges, runBytes, e]
      refine ⟨.refused _ _ _ (fun op hop => ?_) ih.1, ih.2⟩
      rw [(C107_requests m op).2 hop] at hr
      cases hr
    | some op =>
      have hop := (C107_requests m op).1 hr
      have e2 : callsOf ((t, m) :: ms) = (t, op) :: callsOf ms := by simp [callsOf, hr]
      have h1 := stepBytes_same h t m op hop
      have ih := exchanges_same ms _ _ h1.2
      rw [e2]
      simp only [exchanges, runBytes, traceFrom, Siwe.run]
      refine ⟨?_, ih.2⟩
      rw [← h1.1]
      exact .call ⟨t, m, (stepBytes c t m).2⟩ op _ _ hop ih.1

theorem deployed_same (E : Env) (ms : List (UInt64 × RawMessage)) : Same (deployed E ms) (stateAfter E (callsOf ms)) :=
  (exchanges_same ms _ _ (fresh_backed E)).2

theorem conversation_understood (E : Env) (ms : List (UInt64 × RawMessage)) :
    Understood (conversation E ms) (trace E (callsOf ms)) := (exchanges_same ms _ _ (fresh_backed E)).1

theorem deployed_exchanges (E : Env) (ms ms' : List (UInt64 × RawMessage)) :
    Understood (exchanges (deployed E ms) ms') (traceFrom (stateAfter E (callsOf ms)) (callsOf ms')) :=
  (exchanges_same ms' _ _ (deployed_same E ms)).1

theorem runRaw_callsOf {E : Env} : ∀ (ms : List (UInt64 × RawMessage)) (s : State E), (runRaw s ms).1 = (Siwe.run s (callsOf ms)).1
  | [], _ => rfl
  | (t, m) :: ms, s => by
    cases hr : receiveRaw m with
    | none => simp only [runRaw, stepRaw, hr, runRaw_callsOf ms]; simp [callsOf, hr]
    | some op =>
      simp only [runRaw, stepRaw, hr, runRaw_callsOf ms]
      rw [show callsOf ((t, m) :: ms) = (t, op) :: callsOf ms by simp [callsOf, hr]]
      rfl

theorem traceFrom_times_calls {E : Env} (s : State E) (h : History) :
    (traceFrom s h).map (fun e : Event => (e.time, e.call)) = h := by
  induction h generalizing s with
  | nil => rfl
  | cons x h ih => simp only [traceFrom, List.map_cons, ih]

theorem trace_times_calls (E : Env) (h : History) : (trace E h).map (fun e : Event => (e.time, e.call)) = h :=
  traceFrom_times_calls _ h

theorem understood_unique {xs : List Exchange} {es es' : List Event} (h : Understood xs es) (h' : Understood xs es') : es = es' := by
  induction h generalizing es' with
  | nil => cases h'; rfl
  | call x op xs es hop _ ih =>
    cases h' with
    | call _ op' _ es' hop' hu =>
      have := ((C107_requests _ _).2 hop).symm.trans ((C107_requests _ _).2 hop')
      cases this
      rw [ih hu]
    | refused _ _ _ hn _ => exact absurd hop (hn op)
  | refused x xs es hn _ ih =>
    cases h' with
    | call _ op' _ es' hop' hu => exact absurd hop' (hn _)
    | refused _ _ _ _ hu => exact ih hu

theorem understood_split {xs : List Exchange} {es : List Event} (h : Understood xs es) : ∀ a e b, es = a ++ e :: b →
    ∃ xa x xb, xs = xa ++ x :: xb ∧ Understood xa a ∧ Understood xb b ∧ Requests x.message e.call ∧ x.time = e.time ∧ x.reply = e.reply := by
  induction h with
  | nil => intro a e b h; simp at h
  | call x op xs es hop hu ih =>
    intro a e b h
    cases a with
    | nil =>
      obtain ⟨rfl, rfl⟩ := List.cons.inj h
      exact ⟨[], x, xs, rfl, .nil, hu, hop, rfl, rfl⟩
    | cons y a =>
      obtain ⟨rfl, h'⟩ := List.cons.inj h
      obtain ⟨xa, x', xb, h1, h2, h3⟩ := ih a e b h'
      exact ⟨x :: xa, x', xb, by rw [h1]; rfl, .call _ _ _ _ hop h2, h3⟩
  | refused x xs es hn hu ih =>
    intro a e b h
    obtain ⟨xa, x', xb, h1, h2, h3⟩ := ih a e b h
    exact ⟨x :: xa, x', xb, by rw [h1]; rfl, .refused _ _ _ hn h2, h3⟩

end Siwe
