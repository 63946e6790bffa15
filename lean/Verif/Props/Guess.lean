import Mathlib.Data.Fintype.BigOperators
import Mathlib.Data.Finset.Card
import Mathlib.SetTheory.Cardinal.Finite
import Verif.Lemmas.Guess
import Verif.Spec.Config
import Verif.Props.Sessions
/-
C124: a sign-in can be spoiled only by guessing its nonce.
-/
namespace Siwe
open Spec Guess

variable {E : Env} {draws : Bytes → Nat → Draw}

/-- The canister had the draw been made and nothing stored. -/
def Guess.blind (s : State (ideal E draws)) : State (ideal E draws) :=
  { s with lib := { s.lib with rng := s.lib.rng.map fun r n => r (n + 1) } }

theorem Guess.inv_blind {s : State (ideal E draws)} (h : Inv s) : Inv (blind s) := ⟨h.keys, h.sigs, h.configured, h.valid⟩
theorem Guess.inv_withNext {s : State (ideal E draws)} (h : Inv s) (d : Draw) : Inv (withNext s d) :=
  ⟨h.keys, h.sigs, h.configured, h.valid⟩

theorem Guess.asked_prepared {s : State (ideal E draws)} (hi : Inv s) {t : UInt64} {addr text nonce : Bytes} {d : Draw}
    (h : (asked s t addr d).2 = .prepared ⟨text, nonce⟩) :
    IsAddress E.keccak addr ∧ nonce = hexEncode d.val ∧ ∃ bs st, bs.length = 20 ∧ Spells (addr.drop 2) bs ∧
      Alike (storeKey (ideal E draws) bs nonce) (asked s t addr d).1 (blind s) ∧ s.lib.settings = some st ∧
      ((SiweMessage.new st t ⟨addr⟩ nonce).text : Res Empty _) = .ok text ∧
      Pending (asked s t addr d).1 addr nonce (SiweMessage.new st t ⟨addr⟩ nonce) := by
  have hc := step_case (inv_withNext hi d) t (.prepareLogin addr)
  change StepCase _ _ _ (asked s t addr d).1 (asked s t addr d).2 at hc
  generalize (asked s t addr d).1 = s1 at *
  generalize (asked s t addr d).2 = r1 at *
  cases hc with
  | badPrepare => cases h
  | notReady => cases h
  | prepared _ bs g st txt q1 q2 q3 q4 q5 q6 =>
    cases h
    have hg : ∃ r, s.lib.rng = some r ∧ g = fun n => if n = 0 then d else r n := by
      cases hr : s.lib.rng with
      | none => simp only [withNext, hr] at q4; exact absurd q4 (by intro h; cases h)
      | some r => simp only [withNext, hr] at q4; exact ⟨r, rfl, (Option.some.inj q4).symm⟩
    obtain ⟨r, hr, rfl⟩ := hg
    have hn : nonceOf (ideal E draws) (fun n => if n = 0 then d else r n) = hexEncode d.val := rfl
    refine ⟨q1, hn, bs, st, q2, q3, ⟨s.lib.messages, ?_, ?_⟩, q5, q6 Empty, bs, q2, q3, ?_⟩
    · simp only [blind, setMsgs, withNext, preparedLib, hr, Option.map_some]
      rfl
    · have he : ∀ (M : SiweMessageMap) k (m : SiweMessage), SiweMessageMap.erase ((k, m) :: M.erase k) k = M.erase k := by
        intro M k m
        simp [SiweMessageMap.erase, List.filter_filter]
      exact he _ _ _
    · simp [preparedLib, hn]

theorem Guess.calls_from (s : State E) (others : Strategy) (n : Nat) :
    ∀ e ∈ traceFrom s (callsOf others s n), ∃ rs, others rs = (e.time, e.call) := by
  induction n with
  | zero => intro e he; cases he
  | succ n ih =>
    intro e he
    rw [show traceFrom s (callsOf others s (n + 1)) = _ from traceFrom_snoc s _ _ _] at he
    rcases List.mem_append.mp he with he | he
    · exact ih e he
    · rw [List.mem_singleton.mp he]; exact ⟨_, rfl⟩

theorem Guess.calls_length (s : State E) (others : Strategy) (n : Nat) : (traceFrom s (callsOf others s n)).length = n := by
  induction n with
  | zero => rfl
  | succ n ih => rw [show traceFrom s (callsOf others s (n + 1)) = _ from traceFrom_snoc s _ _ _, List.length_append, ih]; rfl

/-- The nonce an event names for an address. -/
def Guess.named (addr : Bytes) (e : Event) : Option Bytes :=
  match e.call, e.reply with
  | .login _ a _ n, _ => if a = addr then some n else none
  | .prepareLogin a, .prepared r => if a = addr then some r.nonce else none
  | _, _ => none

theorem Guess.named_of {addr nonce : Bytes} {e : Event} (h : e.Concerns addr nonce) : named addr e = some nonce := by
  rcases h with ⟨text, h1, h2⟩ | ⟨sig, key, h⟩
  · simp [named, h1, h2]
  · simp [named, h]

theorem Guess.card_le {addr : Bytes} (es : List Event) (S : Finset Draw)
    (h : ∀ d ∈ S, ∃ e ∈ es, e.Concerns addr (hexEncode d.val)) : S.card ≤ es.length := by
  have h1 : S.card ≤ (es.filterMap (named addr)).toFinset.card := by
    apply Finset.card_le_card_of_injOn (fun d : Draw => hexEncode d.val)
    · intro d hd
      obtain ⟨e, he, hc⟩ := h d hd
      simp only [Finset.mem_coe, List.mem_toFinset, List.mem_filterMap]
      exact ⟨e, he, named_of hc⟩
    · intro d _ d' _ hdd
      exact Subtype.ext (hexEncode_inj hdd)
  exact h1.trans ((List.toFinset_card_le _).trans (List.length_filterMap_le _ _))

/-- C124: there are 2^80 draws. -/
theorem C124_draws : Nat.card Draw = 2 ^ 80 := by
  have e : UInt8 ≃ Fin 256 := ⟨UInt8.toFin, UInt8.ofFin, fun _ => rfl, fun _ => rfl⟩
  letI : Fintype UInt8 := Fintype.ofEquiv _ e.symm
  have hc : Fintype.card UInt8 = 256 := (Fintype.card_congr e).trans (Fintype.card_fin 256)
  have : Nat.card (List.Vector UInt8 10) = 256 ^ 10 := by rw [Nat.card_eq_fintype_card, card_vector, hc]
  exact this.trans (by decide)

/-- C124: what others see does not depend on the draw, unless they name the nonce in what they would have seen anyway. -/
theorem C124_blind (E : Env) (draws : Bytes → Nat → Draw) (h : History) (t : UInt64) (addr : Bytes) (others : Strategy) (n : Nat) :
    ∃ es : List Event, es.length = n ∧ ∀ d text nonce, (asked (stateAfter (ideal E draws) h) t addr d).2 = .prepared ⟨text, nonce⟩ →
      seen (stateAfter (ideal E draws) h) t addr others n d = es ∨ (∃ e ∈ es, e.Concerns addr nonce) ∨
        Collides (stateAfter (ideal E draws) h) t addr others n d := by
  have hi := inv_stateAfter (ideal E draws) h
  generalize stateAfter (ideal E draws) h = s at *
  refine ⟨traceFrom (blind s) (callsOf others (blind s) n), calls_length _ _ _, fun d text nonce hp => ?_⟩
  obtain ⟨ha, -, bs, st, g1, g2, g3, -⟩ := asked_prepared hi hp
  rcases calls_alike (inv_step (inv_withNext hi d) t _) (inv_blind hi) g3 others n with ⟨-, -, q, -⟩ |
    ⟨e, he, e', he', a, n', bs', f1, f2, f3, f4, f5, f6⟩
  · exact .inl q
  · rcases storeKey_inj (E := ideal E draws) ha f1 g2 f3 g1 f2 f6.symm with ⟨rfl, rfl⟩ | hc
    · exact .inr (.inl ⟨e', he', f5⟩)
    · exact .inr (.inr ⟨text, nonce, hp, e, he, a, n', f4, hc⟩)

/-- C124: with `n` calls others name the nonce for at most `n` of the 2^80 draws, or keys collide. -/
theorem C124_guesses (E : Env) (draws : Bytes → Nat → Draw) (h : History) (t : UInt64) (addr : Bytes) (others : Strategy) (n : Nat)
    (S : Finset Draw) (hS : ∀ d ∈ S, ∃ text nonce, (asked (stateAfter (ideal E draws) h) t addr d).2 = .prepared ⟨text, nonce⟩ ∧
      ∃ e ∈ seen (stateAfter (ideal E draws) h) t addr others n d, e.Concerns addr nonce) :
    S.card ≤ n ∨ ∃ d ∈ S, Collides (stateAfter (ideal E draws) h) t addr others n d := by
  obtain ⟨es, hl, hes⟩ := C124_blind E draws h t addr others n
  by_cases hc : ∃ d ∈ S, Collides (stateAfter (ideal E draws) h) t addr others n d
  · exact .inr hc
  refine .inl (hl ▸ card_le (addr := addr) es S fun d hd => ?_)
  obtain ⟨text, nonce, h1, e, he, h2⟩ := hS d hd
  obtain ⟨_, hn, _⟩ := asked_prepared (inv_stateAfter _ h) h1
  rw [← hn]
  rcases hes d text nonce h1 with hs | hs | hs
  · exact ⟨e, hs ▸ he, h2⟩
  · exact hs
  · exact absurd ⟨d, hd, hs⟩ hc

/-- C124: a user asks for a message, signs it and logs in before it expires.  Whatever `n` calls others make in between, the login fails
for at most `n` of the 2^80 draws the nonce is made from, or keys collide. -/
theorem C124_sign_in (E : Env) (draws : Bytes → Nat → Draw) (h : History) (s : Settings) (p : ProviderSettings)
    (hs : InForce (ideal E draws) (trace (ideal E draws) h) s p) (t : UInt64) (addr : Bytes)
    (hfit : t.toNat + s.signInExpiresIn.toNat < 2 ^ 64) (others : Strategy)
    (ho : others.OnlyCalls (t.toNat + s.signInExpiresIn.toNat)) (n : Nat) (S : Finset Draw)
    (hS : ∀ d ∈ S, SignInFails (stateAfter (ideal E draws) h) t addr others n (t.toNat + s.signInExpiresIn.toNat) d) :
    S.card ≤ n ∨ ∃ d ∈ S, Collides (stateAfter (ideal E draws) h) t addr others n d := by
  by_cases hc : ∃ d ∈ S, Collides (stateAfter (ideal E draws) h) t addr others n d
  · exact .inr hc
  refine C124_guesses E draws h t addr others n S fun d hd => ?_
  obtain ⟨text, nonce, now, sig, key, h1, h2, h3, h4, h5, h6, h7⟩ := hS d hd
  refine ⟨text, nonce, h1, ?_⟩
  have hi := inv_stateAfter (ideal E draws) h
  obtain ⟨ha, -, bs, st, g1, g2, g3, g4, g5, g6⟩ := asked_prepared hi h1
  have hst := (inForce_state hs).1
  rw [g4] at hst
  obtain rfl : st = s := Option.some.inj hst
  have hexp : (SiweMessage.new st t ⟨addr⟩ nonce).expirationTime.toNat = t.toNat + st.signInExpiresIn.toNat := by
    show (satAdd _ _).toNat = _
    rw [satAdd_toNat]; omega
  have hi' := inv_step (inv_withNext hi d) t (.prepareLogin addr)
  by_contra hno
  rcases pending_survives hi' (callsOf others (asked (stateAfter (ideal E draws) h) t addr d).1 n) addr nonce _ ha g6
      (fun e he => by
        rintro ⟨i, hr, -⟩
        obtain ⟨rs, hrs⟩ := calls_from _ _ _ e he
        have := (ho rs).2 i
        rw [hrs] at this
        exact hr.elim this.1 this.2)
      (fun e he hce => hno ⟨e, he, hce⟩)
      (fun e he => by
        obtain ⟨rs, hrs⟩ := calls_from _ _ _ e he
        have := (ho rs).1
        rw [hrs] at this
        rw [hexp]; exact this) with hp | ⟨e, he, a', n', f1, f2⟩
  · exact h7 ((login_success_iff (inv_run hi' _) now sig addr key nonce).mpr
      ⟨ha, h3, ⟨_, text, ⟨hp, by rw [hexp]; exact h2, g5⟩, h4⟩, h5, h6⟩)
  · exact hc ⟨d, hd, text, nonce, h1, e, he, a', n', f1, f2⟩

/-- A random source of different draws. -/
def Ex.oneByOne (_ : Bytes) (n : Nat) : Draw := ⟨List.replicate 9 0 ++ [UInt8.ofNat n], by simp⟩
/-- Somebody who tries the nonces one after the other. -/
def Ex.guesser : Strategy := fun rs => (10, .login Ex.bobSig Ex.alice Ex.key (Ex.nonce (UInt8.ofNat rs.length)))

/-- Non-vacuity of C124, and the bound is attained: two calls spoil the sign-in for two draws, and not for a third. -/
example : let s := stateAfter (ideal Toy.env Ex.oneByOne) (Ex.prepared.take 2)
    (∃ st p, InForce (ideal Toy.env Ex.oneByOne) (trace (ideal Toy.env Ex.oneByOne) (Ex.prepared.take 2)) st p ∧
      st.signInExpiresIn = 300000000000) ∧
    Ex.guesser.OnlyCalls 300000000005 ∧
    (∀ d ∈ [Ex.oneByOne [] 0, Ex.oneByOne [] 1], SignInFails s 5 Ex.alice Ex.guesser 2 300000000005 d) ∧
    ∃ ld, (step (run (asked s 5 Ex.alice (Ex.oneByOne [] 2)).1 (callsOf Ex.guesser (asked s 5 Ex.alice (Ex.oneByOne [] 2)).1 2)).1 20
      (.login Ex.aliceSig Ex.alice Ex.key (Ex.nonce 2))).2 = .loggedIn ld := by
  intro s
  have hA : IsAddress (ideal Toy.env Ex.oneByOne).keccak Ex.alice := by
    have h : (match EthAddress.new (ideal Toy.env Ex.oneByOne) Ex.alice with | .ok a => decide (a.str = Ex.alice) | _ => false) = true := by
      decide +kernel
    split at h
    · next a h' => exact ((ethAddress_new_ok_iff _ _ _).mp h').1
    · cases h
  have hS : HexString 130 Ex.aliceSig := by
    have h : (match EthSignature.new Ex.aliceSig with | .ok a => true | _ => false) = true := by decide +kernel
    split at h
    · next a h' => exact ((ethSignature_new_ok_iff _ _).mp h').1
    · cases h
  have fails : ∀ d nonce, (match (asked s 5 Ex.alice d).2 with
      | .prepared p => decide (p.nonce = nonce) &&
        match checkSignature (ideal Toy.env Ex.oneByOne) p.siweMessage ⟨Ex.aliceSig⟩ ⟨Ex.alice⟩ with | .ok () => true | _ => false
      | _ => false) = true →
      (step (run (asked s 5 Ex.alice d).1 (callsOf Ex.guesser (asked s 5 Ex.alice d).1 2)).1 20
        (.login Ex.aliceSig Ex.alice Ex.key nonce)).2 = .err (.login .messageNotFound) →
      SignInFails s 5 Ex.alice Ex.guesser 2 300000000005 d := by
    intro d nonce h1 h2
    split at h1
    swap
    · cases h1
    · next p hp =>
      obtain ⟨text, n'⟩ := p
      simp only [Bool.and_eq_true, decide_eq_true_eq] at h1
      obtain ⟨rfl, h1⟩ := h1
      split at h1
      swap
      · cases h1
      · next hc =>
        exact ⟨text, n', 20, Ex.aliceSig, Ex.key, hp, by decide, hS, (check_ok (E := ideal Toy.env Ex.oneByOne) hS hA).mp hc, by decide, by decide,
          by rintro ⟨ld, h⟩; rw [h2] at h; cases h⟩
  refine ⟨?_, ?_, ?_, ?_⟩
  · have hs : ∃ st, s.lib.settings = some st ∧ st.signInExpiresIn = 300000000000 := by
      have h : (match s.lib.settings with | some st => decide (st.signInExpiresIn = 300000000000) | none => false) = true := by decide +kernel
      split at h
      · next st h' => exact ⟨st, h', by simpa using h⟩
      · cases h
    obtain ⟨st, h1, h2⟩ := hs
    exact ⟨st, _, settings_inForce h1, h2⟩
  · intro rs
    refine ⟨by show (10 : UInt64).toNat < _; decide, fun i => ⟨?_, ?_⟩⟩ <;> intro h <;> cases h
  · intro d hd
    simp only [List.mem_cons, List.not_mem_nil, or_false] at hd
    rcases hd with rfl | rfl
    · exact fails _ (Ex.nonce 0) (by decide +kernel) (by decide +kernel)
    · exact fails _ (Ex.nonce 1) (by decide +kernel) (by decide +kernel)
  · have h : (match (step (run (asked s 5 Ex.alice (Ex.oneByOne [] 2)).1
        (callsOf Ex.guesser (asked s 5 Ex.alice (Ex.oneByOne [] 2)).1 2)).1 20
        (.login Ex.aliceSig Ex.alice Ex.key (Ex.nonce 2))).2 with | .loggedIn _ => true | _ => false) = true := by decide +kernel
    split at h
    · next ld h' => exact ⟨ld, h'⟩
    · cases h

end Siwe
