import Verif.Lemmas.Login
import Verif.Props.Settings
/- Case analysis of one call, and invariants of all histories. -/
namespace Siwe
open Spec

/-- Everything one call can do. -/
inductive StepCase {E : Env} (st : State E) (now : UInt64) : Op → State E → Reply → Prop
  | installed (i : SettingsInput) (s : Settings) (p : ProviderSettings) : Configures E i s p → ValidSettings E s →
      StepCase st now (.install i) ⟨⟨none, some s, []⟩, .empty, p, [], [], []⟩ .done
  | upgraded (i : SettingsInput) (s : Settings) (p : ProviderSettings) : Configures E i s p → ValidSettings E s →
      StepCase st now (.upgrade i)
        ⟨⟨none, some s, []⟩, .empty, p, st.principalAddress, st.addressPrincipal, st.certifiedData⟩ .done
  | notInstalled (i : SettingsInput) : StepCase st now (.install i) st .trap
  | notUpgraded (i : SettingsInput) : StepCase st now (.upgrade i) st .trap
  | seeded (seed : Bytes) : StepCase st now (.rngSeeded seed) { st with lib := seedRng st.lib seed } .done
  | badPrepare (addr : Bytes) (e : EthError) : ¬IsAddress E.keccak addr →
      StepCase st now (.prepareLogin addr) st (.err (.eth e))
  | notReady (addr : Bytes) : IsAddress E.keccak addr → (st.lib.rng = none ∨ st.lib.settings = none) →
      StepCase st now (.prepareLogin addr) st .trap
  | prepared (addr bs : Bytes) (g : E.Rng) (s : Settings) (txt : Bytes) : IsAddress E.keccak addr →
      bs.length = 20 → Spells (addr.drop 2) bs → st.lib.rng = some g → st.lib.settings = some s →
      (∀ ε, (SiweMessage.new s now ⟨addr⟩ (nonceOf E g)).text (ε := ε) = .ok txt) →
      IsSiweText (shown (SiweMessage.new s now ⟨addr⟩ (nonceOf E g))) txt →
      StepCase st now (.prepareLogin addr) { st with lib := preparedLib st.lib g s now ⟨addr⟩ bs }
        (.prepared ⟨txt, nonceOf E g⟩)
  | badAddress (sig addr key nonce : Bytes) (e : EthError) : ¬IsAddress E.keccak addr →
      EthAddress.new E addr = .err e → StepCase st now (.login sig addr key nonce) st (.err (.eth e))
  | badSignature (sig addr key nonce : Bytes) (e : EthError) : IsAddress E.keccak addr → ¬HexString 130 sig →
      EthSignature.new sig = .err e → StepCase st now (.login sig addr key nonce) st (.err (.eth e))
  | notFound (sig addr key nonce bs : Bytes) : IsAddress E.keccak addr → HexString 130 sig →
      bs.length = 20 → Spells (addr.drop 2) bs →
      (st.lib.messages.pruneExpired now).lookup (storeKey E bs nonce) = none →
      StepCase st now (.login sig addr key nonce) { st with lib := prunedLib st.lib now }
        (.err (.login .messageNotFound))
  | found (sig addr key nonce bs : Bytes) (m : SiweMessage) (txt : Bytes) (st' : State E)
      (r : Res ProviderError LoginDetails) : IsAddress E.keccak addr → HexString 130 sig →
      bs.length = 20 → Spells (addr.drop 2) bs →
      (st.lib.messages.pruneExpired now).lookup (storeKey E bs nonce) = some m →
      (∀ ε, m.text (ε := ε) = .ok txt) → IsSiweText (shown m) txt →
      LoginFound st now addr key bs nonce m (checkSignature E txt ⟨sig⟩ ⟨addr⟩) st' r →
      StepCase st now (.login sig addr key nonce) st' (reply .loggedIn r)
  | getDelegation (c : Option Bytes) (a k : Bytes) (e : UInt64) : StepCase st now (.getDelegation c a k e) st
      (reply .delegation (siweGetDelegation st now c a k e))
  | getAddress (p : Bytes) : StepCase st now (.getAddress p) st (reply .bytes (Siwe.getAddress st p))
  | getCallerAddress (p : Bytes) : StepCase st now (.getCallerAddress p) st (reply .bytes (Siwe.getCallerAddress st p))
  | getPrincipal (p : Bytes) : StepCase st now (.getPrincipal p) st (reply .bytes (Siwe.getPrincipal st p))

/-- Invariant of every reachable state. -/
structure Inv {E : Env} (st : State E) : Prop where
  keys : UniqueKeys st.lib.messages
  sigs : st.sigMap.Ok
  configured : st.lib.messages ≠ [] → st.lib.settings ≠ none
  valid : ∀ s, st.lib.settings = some s → ValidSettings E s

theorem LoginFound.no_panic {E : Env} {st : State E} {now : UInt64} {addr key bs nonce : Bytes} {m : SiweMessage}
    {c : Res LoginError Unit} {st' : State E} {r : Res ProviderError LoginDetails}
    (h : LoginFound st now addr key bs nonce m c st' r) : r ≠ .panic := by
  cases h <;> simp

theorem step_case {E : Env} {st : State E} (hi : Inv st) (now : UInt64) (op : Op) :
    StepCase st now op (step st now op).1 (step st now op).2 := by
  cases op with
  | install i =>
    by_cases h : (step st now (.install i)).2 = .done
    · obtain ⟨s, p, h1, h2, h3⟩ := (C42_install st (step st now (.install i)).1 now i).mp (Prod.ext rfl h)
      rw [h, h3]; exact .installed i s p h1 h2
    · rw [C42_otherwise_trap st now i _ (.inl rfl) h]; exact .notInstalled i
  | upgrade i =>
    by_cases h : (step st now (.upgrade i)).2 = .done
    · obtain ⟨s, p, h1, h2, h3⟩ := (C42_upgrade st (step st now (.upgrade i)).1 now i).mp (Prod.ext rfl h)
      rw [h, h3]; exact .upgraded i s p h1 h2
    · rw [C42_otherwise_trap st now i _ (.inr rfl) h]; exact .notUpgraded i
  | rngSeeded seed => exact .seeded seed
  | prepareLogin addr =>
    simp only [step]
    rcases siwePrepareLogin_cases st now addr with ⟨e, h1, h2⟩ | ⟨h1, h2, h3⟩ |
      ⟨bs, g, s, txt, h1, h2, h3, h4, h5, h6, h7, h8⟩
    · rw [h2]; exact .badPrepare addr e h1
    · rw [h3]; exact .notReady addr h1 h2
    · rw [h8]
      refine .prepared addr bs g s txt h1 h3 ?_ h4 h5 (fun ε => text_poly ε h6) h7
      obtain ⟨ds, bs', e0, _, sp, _, hb, _⟩ := isAddress_bytes h1
      rw [h2] at hb; cases hb
      rw [e0]; simpa using sp
  | login sig addr key nonce =>
    simp only [step]
    rcases siweLogin_cases st hi.sigs hi.configured now sig addr key nonce with ⟨e, h1, h2, h3⟩ | ⟨e, h1, h2, h3, h4⟩ |
      ⟨h1, h2, bs, h3, h4, ⟨h5, h6⟩ | ⟨m, txt, st', r, h5, h6, h7, h8, h9⟩⟩
    · rw [h3]; exact .badAddress _ _ _ _ e h1 h2
    · rw [h4]; exact .badSignature _ _ _ _ e h1 h2 h3
    · rw [h6]; exact .notFound _ _ _ _ bs h1 h2 h3 h4 h5
    · rw [h9]
      have := StepCase.found sig addr key nonce bs m txt st' r h1 h2 h3 h4 h5 h6 h7 h8
      have hp := h8.no_panic
      cases r with
      | panic => exact absurd rfl hp
      | ok x => exact this
      | err x => exact this
  | getDelegation c a k e => exact .getDelegation c a k e
  | getAddress p => exact .getAddress p
  | getCallerAddress p => exact .getCallerAddress p
  | getPrincipal p => exact .getPrincipal p

theorem inv_fresh (E : Env) : Inv (State.fresh E) :=
  ⟨uniqueKeys_nil, SigMap.ok_empty, fun h => absurd rfl h, fun s h => by cases h⟩

theorem filter_ne_nil {α : Type} {p : α → Bool} {l : List α} (h : l.filter p ≠ []) : l ≠ [] := by
  rintro rfl; simp at h

theorem inv_step {E : Env} {st : State E} (hi : Inv st) (now : UInt64) (op : Op) : Inv (step st now op).1 := by
  have h := step_case hi now op
  generalize (step st now op).1 = st' at h ⊢
  generalize (step st now op).2 = r at h
  cases h with
  | installed i s p _ hv => exact ⟨uniqueKeys_nil, SigMap.ok_empty, fun h => absurd rfl h, fun s' h => by cases h; exact hv⟩
  | upgraded i s p _ hv => exact ⟨uniqueKeys_nil, SigMap.ok_empty, fun h => absurd rfl h, fun s' h => by cases h; exact hv⟩
  | seeded seed => exact ⟨hi.keys, hi.sigs, hi.configured, hi.valid⟩
  | prepared addr bs g s txt _ _ _ hg hs _ _ =>
    exact ⟨uniqueKeys_insert hi.keys _ _, hi.sigs, fun _ => by simp [preparedLib, hs], hi.valid⟩
  | notFound sig addr key nonce bs _ _ _ _ _ =>
    exact ⟨uniqueKeys_filter hi.keys _, hi.sigs, fun h => hi.configured (filter_ne_nil h), hi.valid⟩
  | found sig addr key nonce bs m txt st'' r' _ _ _ _ _ _ _ hf =>
    have hk := uniqueKeys_filter (uniqueKeys_filter hi.keys (fun e => decide (e.2.expirationTime > now)))
      (fun e => decide (e.1 ≠ storeKey E bs nonce))
    have hc : (SiweMessageMap.erase (SiweMessageMap.pruneExpired st.lib.messages now) (storeKey E bs nonce)) ≠ [] →
        st.lib.settings ≠ none := fun h => hi.configured (filter_ne_nil (filter_ne_nil h))
    cases hf with
    | badSignature e _ => exact ⟨hk, hi.sigs, hc, hi.valid⟩
    | badKey s n sm e _ _ hp _ =>
      obtain ⟨_, sm1, h1, h2, _⟩ := SigMap.ok_prune LoginError hi.sigs now maxSigsToPrune
      rw [hp] at h1; cases h1
      exact ⟨hk, h2, hc, hi.valid⟩
    | success s n sm sm' d dh _ _ hp _ _ hput =>
      obtain ⟨_, sm1, h1, h2, _⟩ := SigMap.ok_prune LoginError hi.sigs now maxSigsToPrune
      rw [hp] at h1; cases h1
      obtain ⟨sm2, h3, h4, _⟩ := SigMap.ok_put LoginError h2 now (seedKey E s ⟨addr⟩) dh
      rw [hput] at h3; cases h3
      exact ⟨hk, h4, hc, hi.valid⟩
  | _ => exact hi

/-! ### histories -/

theorem run_append {E : Env} (s : State E) (h h' : History) : (run s (h ++ h')).1 = (run (run s h).1 h').1 := by
  induction h generalizing s with
  | nil => rfl
  | cons x h ih => obtain ⟨now, op⟩ := x; simp only [List.cons_append, run, ih]

theorem traceFrom_append {E : Env} (s : State E) (h h' : History) :
    traceFrom s (h ++ h') = traceFrom s h ++ traceFrom (run s h).1 h' := by
  induction h generalizing s with
  | nil => rfl
  | cons x h ih => obtain ⟨now, op⟩ := x; simp only [List.cons_append, traceFrom, run, ih]

theorem run_snoc {E : Env} (s : State E) (h : History) (now : UInt64) (op : Op) :
    (run s (h ++ [(now, op)])).1 = (step (run s h).1 now op).1 := by rw [run_append]; rfl

theorem traceFrom_snoc {E : Env} (s : State E) (h : History) (now : UInt64) (op : Op) :
    traceFrom s (h ++ [(now, op)]) = traceFrom s h ++ [⟨now, op, (step (run s h).1 now op).2⟩] := by
  rw [traceFrom_append]; rfl

/-- Induction on a history, last call last. -/
theorem history_induction {P : History → Prop} (nil : P []) (snoc : ∀ h now op, P h → P (h ++ [(now, op)])) (h : History) :
    P h := by
  have : ∀ r : History, P r.reverse := by
    intro r
    induction r with
    | nil => exact nil
    | cons x r ih => rw [List.reverse_cons]; exact snoc _ x.1 x.2 ih
  simpa using this h.reverse

theorem inv_run {E : Env} {s : State E} (hs : Inv s) (h : History) : Inv (run s h).1 := by
  induction h using history_induction with
  | nil => exact hs
  | snoc h now op ih => rw [run_snoc]; exact inv_step ih now op

theorem inv_stateAfter (E : Env) (h : History) : Inv (stateAfter E h) := inv_run (inv_fresh E) h

/-- Splitting a trace splits the history. -/
theorem traceFrom_split {E : Env} {s : State E} {h : History} {before : List Event} {e : Event} {after : List Event}
    (ht : traceFrom s h = before ++ e :: after) :
    ∃ h1 h2, h = h1 ++ (e.time, e.call) :: h2 ∧ before = traceFrom s h1 ∧
      e.reply = (step (run s h1).1 e.time e.call).2 ∧ after = traceFrom (step (run s h1).1 e.time e.call).1 h2 := by
  induction h generalizing s before with
  | nil => simp [traceFrom] at ht
  | cons x h ih =>
    obtain ⟨now, op⟩ := x
    simp only [traceFrom] at ht
    cases before with
    | nil =>
      simp only [List.nil_append, List.cons.injEq] at ht
      obtain ⟨h1, h2⟩ := ht
      subst h1
      exact ⟨[], h, rfl, rfl, rfl, h2.symm⟩
    | cons b before =>
      simp only [List.cons_append, List.cons.injEq] at ht
      obtain ⟨h1, h2⟩ := ht
      obtain ⟨g1, g2, e1, e2, e3, e4⟩ := ih h2
      exact ⟨(now, op) :: g1, g2, by rw [e1]; rfl, by rw [← h1, e2]; rfl, e3, e4⟩

end Siwe
