import Verif.Lemmas.Misprints
import Verif.Spec.Targets
import Verif.Props.Sessions
import Verif.Props.Identity
import Verif.Examples.Histories
/- C101, C102: the texts of the targets. -/
namespace Siwe
open Spec

theorem forall₂_left {α β : Type} {R : α → β → Prop} {l : List α} {l' : List β} (h : List.Forall₂ R l l') :
    ∀ a ∈ l, ∃ b ∈ l', R a b := by
  induction h with
  | nil => simp
  | cons h _ ih =>
    intro x hx
    rcases List.mem_cons.mp hx with rfl | hx
    · exact ⟨_, by simp, h⟩
    · obtain ⟨b, hb, hr⟩ := ih x hx
      exact ⟨b, by simp [hb], hr⟩

/-! ### C101 -/

/-- C101: `Principal::from_text` reads a text as a principal exactly when the text is the principal's, as the interface
specification defines it, with letters of either case. -/
theorem C101_read (t p : Bytes) : PrincipalText.fromText t = some p ↔ Names t p := PrincipalText.fromText_names t p

/-- C101: a principal has one text, and a text names one principal. -/
theorem C101_one_text (p q t u : Bytes) (hp : IsPrincipalText p t) :
    (IsPrincipalText p u → u = t) ∧ (IsPrincipalText q t → q = p) ∧ (Names u p → Names u q → q = p) := by
  refine ⟨fun hu => ?_, fun hq => ?_, fun h1 h2 => ?_⟩
  · rw [PrincipalText.isPrincipalText_iff] at hp hu
    rw [hp.2, hu.2]
  · have h : ∀ x, IsPrincipalText x t → Names t x := fun x hx => ⟨t, hx, by
      rw [PrincipalText.isPrincipalText_iff] at hx
      rw [PrincipalText.inAnyCase_iff _ _ (hx.2 ▸ PrincipalText.toText_lower x)]
      exact (List.map_congr_left (fun c hc => PrincipalText.toText_lower x c (hx.2 ▸ hc))).trans (List.map_id t)⟩
    have h1 := (C101_read t p).2 (h p hp)
    have h2 := (C101_read t q).2 (h q hq)
    rw [h1] at h2
    exact (Option.some.inj h2).symm
  · have h1 := (C101_read u p).2 h1
    have h2 := (C101_read u q).2 h2
    rw [h1] at h2
    exact (Option.some.inj h2).symm

/-- C101: every principal has a text, and the text `Principal::to_text` prints is it. -/
theorem C101_print (p : Bytes) (hp : p.length ≤ 29) : IsPrincipalText p (PrincipalText.toText p) :=
  (PrincipalText.isPrincipalText_iff _ _).2 ⟨hp, rfl⟩

/-- Non-vacuity: the ids of the first canisters of the IC (the toy canister has the second one's), in either case. -/
def Ex.otherCanister : Bytes := [0, 0, 0, 0, 0, 0, 0, 2, 1, 1]
def Ex.canisterText : Bytes := ascii "rrkah-fqaaa-aaaaa-aaaaq-cai"
def Ex.otherText : Bytes := ascii "RYJL3-TYAAA-aaaaa-AAAba-cai"

theorem Ex.canisterText_names : IsPrincipalText Toy.env.canisterId Ex.canisterText ∧ Names Ex.canisterText Toy.env.canisterId ∧
    Names Ex.otherText Ex.otherCanister := by
  refine ⟨(PrincipalText.isPrincipalText_iff _ _).2 (by decide +kernel), (C101_read _ _).1 (by decide +kernel),
    (C101_read _ _).1 (by decide +kernel)⟩

example : Toy.env.canisterId.length ≤ 29 := by decide

theorem targets_named {E : Env} (hE : UsesPrincipalTexts E) (ts ps : List Bytes) :
    ts.map E.principalFromText = ps.map some ↔ List.Forall₂ Names ts ps := by
  rw [hE]
  induction ts generalizing ps with
  | nil => cases ps <;> simp
  | cons t ts ih =>
    cases ps with
    | nil => simp
    | cons p ps => rw [List.map_cons, List.map_cons, List.cons.injEq, ih, C101_read, List.forall₂_cons]

/-- C101: an installation or upgrade whose targets are not all texts of principals, or do not name the canister itself, traps and
changes nothing. -/
theorem C101_refused {E : Env} (hE : UsesPrincipalTexts E) (st : State E) (now : UInt64) (i : SettingsInput) (ts : List Bytes) (op : Op)
    (hop : op = .install i ∨ op = .upgrade i) (hts : i.targets = some ts)
    (hbad : (∃ t ∈ ts, ∀ p, ¬Names t p) ∨ ∀ t ∈ ts, ¬Names t E.canisterId) : step st now op = (st, .trap) := by
  refine C42_otherwise_trap st now i op hop fun hd => ?_
  have key : ∃ s p, Configures E i s p := by
    rcases hop with rfl | rfl
    · obtain ⟨s, p, h, _⟩ := (C42_install st (step st now (.install i)).1 now i).1 (Prod.ext rfl hd)
      exact ⟨s, p, h⟩
    · obtain ⟨s, p, h, _⟩ := (C42_upgrade st (step st now (.upgrade i)).1 now i).1 (Prod.ext rfl hd)
      exact ⟨s, p, h⟩
  obtain ⟨s, p, hc⟩ := key
  obtain ⟨ps, _, h2, h3⟩ := hc.targets ts hts
  rw [targets_named hE] at h2
  have flip := h2.flip
  rcases hbad with ⟨t, ht, hbad⟩ | hbad
  · obtain ⟨q, _, hq⟩ := forall₂_left h2 t ht
    exact hbad q hq
  · obtain ⟨t, ht, hn⟩ := forall₂_left flip _ h3
    exact hbad t ht hn

/-- C101: the delegations of a canister are restricted to exactly the canisters named, in this order, by the targets of its last
successful installation or upgrade, one of them the canister itself; and are unrestricted if there were no targets. -/
theorem C101_delegations {E : Env} (hE : UsesPrincipalTexts E) (h : History) (now : UInt64) (cert : Option Bytes) (addr key : Bytes)
    (expiration : UInt64) (d : SignedDelegation)
    (hd : (step (stateAfter E h) now (.getDelegation cert addr key expiration)).2 = .delegation d) :
    ∃ before e after i, trace E h = before ++ e :: after ∧ SameModule after ∧ (e.call = .install i ∨ e.call = .upgrade i) ∧
      e.reply = .done ∧ (i.targets = none → d.delegation.targets = none) ∧
      ∀ ts, i.targets = some ts → ∃ ps, d.delegation.targets = some ps ∧ List.Forall₂ Names ts ps ∧ E.canisterId ∈ ps := by
  obtain ⟨s, h1, h2, _⟩ := C26_get_delegation _ _ _ _ _ _ _ hd
  obtain ⟨before, e, after, i, g1, g2, g3, g4, g5⟩ := (C42_settings_in_force E h s _).2 ⟨h1, rfl⟩
  refine ⟨before, e, after, i, g1, g2, g3, g4, fun hn => ?_, fun ts hts => ?_⟩
  · rw [h2]; exact g5.noTargets hn
  · obtain ⟨ps, k1, k2, k3⟩ := g5.targets ts hts
    exact ⟨ps, by rw [h2]; exact k1, (targets_named hE ts ps).1 k2, k3⟩

/-- Non-vacuity: targets that are refused, as one has a dash too few, or as the canister itself is missing. -/
def Ex.textEnv : Env := { Toy.env with principalFromText := PrincipalText.fromText }

theorem Ex.textEnv_texts : UsesPrincipalTexts Ex.textEnv := rfl

example : (∀ p, ¬Names (ascii "rrkahfqaaa-aaaaa-aaaaq-cai") p) ∧
    ∀ t ∈ [Ex.otherText], ¬Names t Ex.textEnv.canisterId := by
  constructor
  · intro p h
    have := (C101_read _ _).2 h
    rw [show PrincipalText.fromText (ascii "rrkahfqaaa-aaaaa-aaaaq-cai") = none by decide +kernel] at this
    cases this
  · intro t ht h
    obtain rfl : t = Ex.otherText := by simpa using ht
    have := (C101_read _ _).2 h
    revert this
    decide +kernel

/-- Non-vacuity: a canister with two targets hands out a delegation for these two. -/
def Ex.targeted : History :=
  [(1, .install { Ex.input with targets := some [Ex.otherText, Ex.canisterText] }), (2, .rngSeeded [1, 2, 3]), (5, .prepareLogin Ex.alice),
    (100, .login Ex.aliceSig Ex.alice Ex.key (Ex.nonce 3))]

example : ∃ sig, (step (stateAfter Ex.textEnv Ex.targeted) 101 (.getDelegation (some [1]) Ex.alice Ex.key 1800000000005)).2 =
    .delegation ⟨⟨Ex.key, 1800000000005, some [Ex.otherCanister, Toy.env.canisterId]⟩, sig⟩ :=
  ⟨match (step (stateAfter Ex.textEnv Ex.targeted) 101 (.getDelegation (some [1]) Ex.alice Ex.key 1800000000005)).2 with
    | .delegation d => d.signature
    | _ => [], by decide +kernel⟩

/-! ### C102 -/

/-- C102: a text that differs from a principal's text in one or two characters, whatever their case, is no principal's text. -/
theorem C102_misprint (p u t : Bytes) (hu : IsPrincipalText p u) (hl : t.length = u.length) (h1 : 1 ≤ misprints t u)
    (h2 : misprints t u ≤ 2) : ∀ q, ¬Names t q := by
  rintro q ⟨v, hv, hc⟩
  obtain ⟨hp, rfl⟩ := (PrincipalText.isPrincipalText_iff _ _).1 hu
  obtain ⟨hq, rfl⟩ := (PrincipalText.isPrincipalText_iff _ _).1 hv
  rw [PrincipalText.misprints_eq _ _ (PrincipalText.toText_lower p)] at h1 h2
  rw [PrincipalText.inAnyCase_iff _ _ (PrincipalText.toText_lower q)] at hc
  rw [hc] at h1 h2
  have := PrincipalText.differences_detected q p hq (by rw [← hl, ← hc, List.length_map]) h2
  subst this
  rw [PrincipalText.differences_self] at h1
  omega

/-- C102: an installation or upgrade with a target that is a canister id with one or two characters mistyped, or with two
characters swapped, traps and changes nothing. -/
theorem C102_refused {E : Env} (hE : UsesPrincipalTexts E) (st : State E) (now : UInt64) (i : SettingsInput) (ts : List Bytes) (op : Op)
    (hop : op = .install i ∨ op = .upgrade i) (hts : i.targets = some ts) (p u t : Bytes) (ht : t ∈ ts)
    (hu : IsPrincipalText p u) (hl : t.length = u.length) (h1 : 1 ≤ misprints t u) (h2 : misprints t u ≤ 2) :
    step st now op = (st, .trap) :=
  C101_refused hE st now i ts op hop hts (.inl ⟨t, ht, C102_misprint p u t hu hl h1 h2⟩)

/-- Non-vacuity: one character mistyped, two swapped, and a capital letter that does not count. -/
example : Ex.canisterText.length = (ascii "rrkah-fqaaa-aaaaa-aabaq-cai").length ∧
    misprints (ascii "rrkah-fqaaa-aaaaa-aabaq-cai") Ex.canisterText = 1 ∧
    misprints (ascii "rrkah-qfaaa-aaaaa-aaaaq-cai") Ex.canisterText = 2 ∧
    misprints (ascii "RRKAH-fqaaa-aaaaa-aaaaq-caj") Ex.canisterText = 1 := by decide +kernel

end Siwe
