import Verif.Spec.Guess
import Verif.Lemmas.History
import Verif.Lemmas.Provenance
import Verif.Props.Message
/- Helper lemmas for C124: what a canister does without one of its pending messages. -/
namespace Siwe.Guess
open Spec

/-- The same canister with other pending messages. -/
def setMsgs {E : Env} (s : State E) (M : SiweMessageMap) : State E := { s with lib := { s.lib with messages := M } }

/-- The same but for the message with a storage key. -/
def Alike {E : Env} (K : Hash) (s s' : State E) : Prop :=
  ∃ M, s' = setMsgs s M ∧ s.lib.messages.erase K = SiweMessageMap.erase M K

/-- Both events use or issue the message with the storage key. -/
def Touches (E : Env) (K : Hash) (e e' : Event) : Prop :=
  ∃ a n bs, IsAddress E.keccak a ∧ bs.length = 20 ∧ Spells (a.drop 2) bs ∧ e.Concerns a n ∧ e'.Concerns a n ∧ storeKey E bs n = K

variable {E : Env}

theorem erase_erase (M : SiweMessageMap) (K k : Hash) : (M.erase k).erase K = SiweMessageMap.erase (M.erase K) k := by
  simp only [SiweMessageMap.erase, List.filter_filter]
  congr 1; funext e; exact Bool.and_comm _ _

theorem erase_prune (M : SiweMessageMap) (K : Hash) (now : UInt64) :
    (M.pruneExpired now).erase K = SiweMessageMap.pruneExpired (M.erase K) now := by
  simp only [SiweMessageMap.erase, SiweMessageMap.pruneExpired, List.filter_filter]
  congr 1; funext e; exact Bool.and_comm _ _

theorem lookup_alike {M M' : SiweMessageMap} {K k : Hash} (h : M.erase K = SiweMessageMap.erase M' K) (hk : k ≠ K) (now : UInt64) :
    (M.pruneExpired now).lookup k = (SiweMessageMap.pruneExpired M' now).lookup k := by
  rw [← lookup_erase_ne (M.pruneExpired now) hk, ← lookup_erase_ne (SiweMessageMap.pruneExpired M' now) hk, erase_prune, erase_prune, h]

theorem used_alike {M M' : SiweMessageMap} {K : Hash} (h : M.erase K = SiweMessageMap.erase M' K) (k : Hash) (now : UInt64) :
    ((M.pruneExpired now).erase k).erase K = ((SiweMessageMap.pruneExpired M' now).erase k).erase K := by
  rw [erase_erase _ K k, erase_erase _ K k, erase_prune M K, erase_prune M' K, h]

theorem found_alike {st : State E} {M : SiweMessageMap} {K : Hash} (hM : st.lib.messages.erase K = SiweMessageMap.erase M K)
    {now : UInt64} {addr key bs nonce : Bytes} {m : SiweMessage} {c : Res LoginError Unit} {s1 s2 : State E}
    {r1 r2 : Res ProviderError LoginDetails} (h1 : LoginFound st now addr key bs nonce m c s1 r1)
    (h2 : LoginFound (setMsgs st M) now addr key bs nonce m c s2 r2) : r1 = r2 ∧ Alike K s1 s2 := by
  have hU := used_alike hM (storeKey E bs nonce) now
  cases h1 with
  | badSignature e g1 =>
    cases h2 with
    | badSignature e' q1 => rw [g1] at q1; cases q1; exact ⟨rfl, _, rfl, hU⟩
    | badKey s n sm e' q1 => rw [g1] at q1; cases q1
    | success s n sm sm' d dh q1 => rw [g1] at q1; cases q1
  | badKey s n sm e g1 g2 g3 g4 =>
    cases h2 with
    | badSignature e' q1 => rw [g1] at q1; cases q1
    | badKey s' n' sm2 e' q1 q2 q3 q4 =>
      cases Option.some.inj (g2.symm.trans q2)
      cases Prod.mk.inj (Res.ok.inj (g3.symm.trans q3)) |>.2
      rw [g4] at q4
      cases q4
      exact ⟨rfl, _, rfl, hU⟩
    | success s' n' sm2 sm' d dh q1 q2 q3 q4 =>
      cases Option.some.inj (g2.symm.trans q2)
      rw [g4] at q4; cases q4
  | success s n sm sm' d dh g1 g2 g3 g4 g5 g6 =>
    cases h2 with
    | badSignature e' q1 => rw [g1] at q1; cases q1
    | badKey s' n' sm2 e' q1 q2 q3 q4 =>
      cases Option.some.inj (g2.symm.trans q2)
      rw [g4] at q4; cases q4
    | success s' n' sm2 sm3 d' dh' q1 q2 q3 q4 q5 q6 =>
      cases Option.some.inj (g2.symm.trans q2)
      cases Prod.mk.inj (Res.ok.inj (g3.symm.trans q3)) |>.2
      cases Res.ok.inj (g4.symm.trans q4)
      cases delegationHash_unique g5 q5
      cases Res.ok.inj (g6.symm.trans q6)
      refine ⟨rfl, (usedLib (setMsgs st M).lib now (storeKey E bs nonce)).messages, ?_, ?_⟩
      · simp only [mappedState, setMsgs, usedLib]
        rfl
      · simpa only [mappedState, setMsgs, usedLib] using hU

/-- One call: the same effect on both canisters, or it touches the message. -/
theorem step_alike {K : Hash} {s s' : State E} (hi : Inv s) (hi' : Inv s') (h : Alike K s s') (now : UInt64) (op : Op) :
    (step s now op).2 = (step s' now op).2 ∧ Alike K (step s now op).1 (step s' now op).1 ∨
      Touches E K ⟨now, op, (step s now op).2⟩ ⟨now, op, (step s' now op).2⟩ := by
  obtain ⟨M, rfl, hM⟩ := h
  cases op with
  | install i =>
    refine .inl ?_
    simp only [step, commitInit]
    split
    · exact ⟨rfl, _, rfl, rfl⟩
    · contradiction
    · exact ⟨rfl, M, rfl, hM⟩
  | upgrade i =>
    refine .inl ?_
    simp only [step, show (setMsgs s M).afterUpgrade = s.afterUpgrade from rfl, commitInit]
    split
    · exact ⟨rfl, _, rfl, rfl⟩
    · contradiction
    · exact ⟨rfl, M, rfl, hM⟩
  | rngSeeded seed => exact .inl ⟨rfl, M, rfl, hM⟩
  | getDelegation c a k e => exact .inl ⟨rfl, M, rfl, hM⟩
  | getAddress p => exact .inl ⟨rfl, M, rfl, hM⟩
  | getCallerAddress p => exact .inl ⟨rfl, M, rfl, hM⟩
  | getPrincipal p => exact .inl ⟨rfl, M, rfl, hM⟩
  | prepareLogin addr =>
    cases hn : EthAddress.new E addr with
    | panic => exact absurd hn (ethAddress_new_no_panic E addr)
    | err e =>
      refine .inl ?_
      have hx : ∀ st : State E, step st now (.prepareLogin addr) = (st, .err (.eth e)) := fun st => by
        simp only [step, siwePrepareLogin, hn, commit, reply]
      rw [hx, hx]
      exact ⟨rfl, M, rfl, hM⟩
    | ok a =>
      obtain ⟨hA, ha⟩ := (ethAddress_new_ok_iff E addr a).mp hn
      obtain ⟨ds, bs, e1, _, e2, e3, e4, _⟩ := isAddress_bytes hA
      have hsp : Spells (addr.drop 2) bs := by rw [e1]; exact e2
      have c1 := step_case hi now (.prepareLogin addr)
      have c2 := step_case hi' now (.prepareLogin addr)
      generalize (step s now (.prepareLogin addr)).1 = t1 at *
      generalize (step s now (.prepareLogin addr)).2 = r1 at *
      generalize (step (setMsgs s M) now (.prepareLogin addr)).1 = t2 at *
      generalize (step (setMsgs s M) now (.prepareLogin addr)).2 = r2 at *
      cases c1 with
      | badPrepare _ e g => exact absurd hA g
      | notReady _ _ g =>
        cases c2 with
        | badPrepare _ e g' => exact absurd hA g'
        | notReady _ _ g' => exact .inl ⟨rfl, M, rfl, hM⟩
        | prepared _ _ r st txt _ _ _ q4 q5 =>
          change s.lib.rng = _ at q4
          change s.lib.settings = _ at q5
          rcases g with g | g
          · rw [g] at q4; cases q4
          · rw [g] at q5; cases q5
      | prepared _ bs1 r st txt _ g2 g3 g4 g5 g6 =>
        cases c2 with
        | badPrepare _ e g' => exact absurd hA g'
        | notReady _ _ g' =>
          change s.lib.rng = none ∨ s.lib.settings = none at g'
          rcases g' with g' | g'
          · rw [g'] at g4; cases g4
          · rw [g'] at g5; cases g5
        | prepared _ bs2 r' st' txt' _ q2 q3 q4 q5 q6 =>
          cases Option.some.inj (g4.symm.trans q4)
          cases Option.some.inj (g5.symm.trans q5)
          cases Res.ok.inj ((g6 Empty).symm.trans (q6 Empty))
          cases spells_unique g3 q3
          by_cases hk : storeKey E bs1 (nonceOf E r) = K
          · exact .inr ⟨addr, _, bs1, hA, g2, g3, .inl ⟨txt, rfl, rfl⟩, .inl ⟨txt, rfl, rfl⟩, hk⟩
          · refine .inl ⟨rfl, _, rfl, ?_⟩
            show SiweMessageMap.erase (_ :: _) K = SiweMessageMap.erase (_ :: _) K
            have he := erase_erase s.lib.messages K (storeKey E bs1 (nonceOf E r))
            have he' := erase_erase M K (storeKey E bs1 (nonceOf E r))
            rw [hM, ← he'] at he
            unfold SiweMessageMap.erase at he ⊢
            rw [List.filter_cons, List.filter_cons]
            split
            · exact congrArg _ he
            · exact he
  | login sig addr key nonce =>
    have c1 := step_case hi now (.login sig addr key nonce)
    have c2 := step_case hi' now (.login sig addr key nonce)
    generalize (step s now (.login sig addr key nonce)).1 = t1 at *
    generalize (step s now (.login sig addr key nonce)).2 = r1 at *
    generalize (step (setMsgs s M) now (.login sig addr key nonce)).1 = t2 at *
    generalize (step (setMsgs s M) now (.login sig addr key nonce)).2 = r2 at *
    by_cases hA : IsAddress E.keccak addr
    swap
    · cases c1 with
      | badAddress _ _ _ _ e g1 g2 =>
        cases c2 with
        | badAddress _ _ _ _ e' q1 q2 => rw [g2] at q2; cases q2; exact .inl ⟨rfl, M, rfl, hM⟩
        | badSignature _ _ _ _ _ q => exact absurd q hA
        | notFound _ _ _ _ _ q => exact absurd q hA
        | found _ _ _ _ _ _ _ _ _ q => exact absurd q hA
      | badSignature _ _ _ _ _ q => exact absurd q hA
      | notFound _ _ _ _ _ q => exact absurd q hA
      | found _ _ _ _ _ _ _ _ _ q => exact absurd q hA
    obtain ⟨ds, bs, e1, _, e2, e3, e4, _⟩ := isAddress_bytes hA
    have hsp : Spells (addr.drop 2) bs := by rw [e1]; exact e2
    by_cases hk : storeKey E bs nonce = K
    · exact .inr ⟨addr, nonce, bs, hA, e3, hsp, .inr ⟨sig, key, rfl⟩, .inr ⟨sig, key, rfl⟩, hk⟩
    have hlk := lookup_alike hM hk now
    refine .inl ?_
    cases c1 with
    | badAddress _ _ _ _ e g1 => exact absurd hA g1
    | badSignature _ _ _ _ e g1 g2 g3 =>
      cases c2 with
      | badAddress _ _ _ _ e g1 => exact absurd hA g1
      | badSignature _ _ _ _ e' q1 q2 q3 => rw [g3] at q3; cases q3; exact ⟨rfl, M, rfl, hM⟩
      | notFound _ _ _ _ _ _ q => exact absurd q g2
      | found _ _ _ _ _ _ _ _ _ _ q => exact absurd q g2
    | notFound _ _ _ _ bs1 g1 g2 g3 g4 g5 =>
      cases spells_unique g4 hsp
      cases c2 with
      | badAddress _ _ _ _ e g1 => exact absurd hA g1
      | badSignature _ _ _ _ e' q1 q2 q3 => exact absurd g2 q2
      | notFound _ _ _ _ bs2 q1 q2 q3 q4 q5 =>
        exact ⟨rfl, _, rfl, by show SiweMessageMap.erase (SiweMessageMap.pruneExpired _ _) K = _; rw [erase_prune, hM, ← erase_prune]; rfl⟩
      | found _ _ _ _ bs2 m txt st' r q1 q2 q3 q4 q5 =>
        cases spells_unique q4 hsp
        change (SiweMessageMap.pruneExpired M now).lookup _ = _ at q5
        rw [← hlk, g5] at q5; cases q5
    | found _ _ _ _ bs1 m txt st' r g1 g2 g3 g4 g5 g6 g7 g8 =>
      cases spells_unique g4 hsp
      cases c2 with
      | badAddress _ _ _ _ e g1 => exact absurd hA g1
      | badSignature _ _ _ _ e' q1 q2 q3 => exact absurd g2 q2
      | notFound _ _ _ _ bs2 q1 q2 q3 q4 q5 =>
        cases spells_unique q4 hsp
        change (SiweMessageMap.pruneExpired M now).lookup _ = _ at q5
        rw [← hlk, g5] at q5; cases q5
      | found _ _ _ _ bs2 m' txt' st'' r' q1 q2 q3 q4 q5 q6 q7 q8 =>
        cases spells_unique q4 hsp
        change (SiweMessageMap.pruneExpired M now).lookup _ = _ at q5
        rw [← hlk, g5] at q5
        cases Option.some.inj q5
        cases Res.ok.inj ((g6 Empty).symm.trans (q6 Empty))
        obtain ⟨f1, f2⟩ := found_alike hM g8 q8
        exact ⟨by rw [f1], f2⟩

theorem run_replies_snoc (s : State E) (h : History) (now : UInt64) (op : Op) :
    (run s (h ++ [(now, op)])).2 = (run s h).2 ++ [(step (run s h).1 now op).2] := by
  induction h generalizing s with
  | nil => rfl
  | cons p h ih => simp only [List.cons_append, run, ih]

/-- All their calls: the same calls and replies on both canisters, or one of them touches the message. -/
theorem calls_alike {K : Hash} {s s' : State E} (hi : Inv s) (hi' : Inv s') (h : Alike K s s') (others : Strategy) (n : Nat) :
    (callsOf others s n = callsOf others s' n ∧ (run s (callsOf others s n)).2 = (run s' (callsOf others s' n)).2 ∧
      traceFrom s (callsOf others s n) = traceFrom s' (callsOf others s' n) ∧
      Alike K (run s (callsOf others s n)).1 (run s' (callsOf others s' n)).1) ∨
    ∃ e ∈ traceFrom s (callsOf others s n), ∃ e' ∈ traceFrom s' (callsOf others s' n), Touches E K e e' := by
  induction n with
  | zero => exact .inl ⟨rfl, rfl, rfl, h⟩
  | succ n ih =>
    have hs1 : traceFrom s (callsOf others s (n + 1)) = traceFrom s (callsOf others s n) ++ _ := traceFrom_snoc s _ _ _
    have hs2 : traceFrom s' (callsOf others s' (n + 1)) = traceFrom s' (callsOf others s' n) ++ _ := traceFrom_snoc s' _ _ _
    rcases ih with ⟨h1, h2, h3, h4⟩ | ⟨e, he, e', he', h1⟩
    · have hcall : others (run s (callsOf others s n)).2 = others (run s' (callsOf others s' n)).2 := by rw [h2]
      rcases step_alike (inv_run hi _) (inv_run hi' _) h4 (others (run s (callsOf others s n)).2).1
        (others (run s (callsOf others s n)).2).2 with ⟨g1, g2⟩ | g1
      · refine .inl ⟨?_, ?_, ?_, ?_⟩
        · show callsOf others s n ++ [_] = callsOf others s' n ++ [_]
          rw [hcall, h1]
        · simp only [callsOf]
          have e1 := run_replies_snoc s (callsOf others s n) (others (run s (callsOf others s n)).2).1 (others (run s (callsOf others s n)).2).2
          have e2 := run_replies_snoc s' (callsOf others s' n) (others (run s' (callsOf others s' n)).2).1 (others (run s' (callsOf others s' n)).2).2
          rw [g1, h2] at e1
          rw [← hcall] at e1
          rw [← hcall] at e2
          rw [← hcall]
          exact e1.trans e2.symm
        · rw [hs1, hs2, h3, g1, hcall]
        · simp only [callsOf]
          rw [run_snoc, run_snoc, ← hcall]
          exact g2
      · refine .inr ⟨_, by rw [hs1]; exact List.mem_append_right _ (List.mem_singleton.mpr rfl), _,
          by rw [hs2]; exact List.mem_append_right _ (List.mem_singleton.mpr rfl), by rw [← hcall]; exact g1⟩
    · exact .inr ⟨e, by rw [hs1]; exact List.mem_append_left _ he, e', by rw [hs2]; exact List.mem_append_left _ he', h1⟩

end Siwe.Guess
