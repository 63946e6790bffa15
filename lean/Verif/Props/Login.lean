import Verif.Spec.Login
import Verif.Lemmas.History
import Verif.Examples.Histories
import Verif.Props.Eth
import Verif.Props.Identity
/- Properties C14 and C17-C21: what one login does. -/
namespace Siwe
open Spec

theorem addressError_iff (E : Env) (s : Bytes) (e : EthError) : EthAddress.new E s = .err e ↔ AddressError E.keccak s e := by
  have mp : ∀ e, EthAddress.new E s = .err e → AddressError E.keccak s e := by
    intro e h
    rcases C01_errors E s e h with ⟨rfl, hsh⟩ | ⟨ds, i, c, h1, h2, rfl, h3, h4, h5⟩ | ⟨ds, h1, h2, h3, rfl, h4⟩
    · exact .shape hsh
    · exact .digit ds i c h1 h2 h3 h4 h5
    · exact .letterCase ds h1 h2 h3 h4
  have uniq : ∀ e e', AddressError E.keccak s e → AddressError E.keccak s e' → e = e' := by
    intro e e' h h'
    cases h with
    | shape h1 => cases h' with
      | shape _ => rfl
      | digit ds i c g1 g2 => exact absurd ⟨ds, g1, g2⟩ h1
      | letterCase ds g1 g2 => exact absurd ⟨ds, g1, g2⟩ h1
    | digit ds i c h1 h2 h3 h4 h5 => cases h' with
      | shape g => exact absurd ⟨ds, h1, h2⟩ g
      | digit ds' i' c' g1 g2 g3 g4 g5 =>
        rw [h1, List.append_cancel_left_eq] at g1
        subst g1
        have : i = i' := by
          rcases Nat.lt_trichotomy i i' with h | h | h
          · have := g5 i c h h3; simp_all
          · exact h
          · have := h5 i' c' h g3; simp_all
        subst this
        rw [h3] at g3; cases g3; rfl
      | letterCase ds' g1 g2 g3 =>
        rw [h1, List.append_cancel_left_eq] at g1
        subst g1
        have := g3 c (List.mem_of_getElem? h3); simp_all
    | letterCase ds h1 h2 h3 h4 => cases h' with
      | shape g => exact absurd ⟨ds, h1, h2⟩ g
      | digit ds' i' c' g1 g2 g3 g4 g5 =>
        rw [h1, List.append_cancel_left_eq] at g1
        subst g1
        have := h3 c' (List.mem_of_getElem? g3); simp_all
      | letterCase => rfl
  constructor
  · exact mp e
  · intro h
    cases hn : EthAddress.new E s with
    | panic => exact absurd hn (ethAddress_new_no_panic E s)
    | err e' => rw [uniq e e' h (mp e' hn)]
    | ok a =>
      obtain ⟨⟨ds, h1, h2, h3, h4⟩, _⟩ := (ethAddress_new_ok_iff E s a).mp hn
      cases h with
      | shape g => exact absurd ⟨ds, h1, h2⟩ g
      | digit ds' i' c' g1 g2 g3 g4 g5 =>
        rw [h1, List.append_cancel_left_eq] at g1
        subst g1
        have := h3 c' (List.mem_of_getElem? g3); simp_all
      | letterCase ds' g1 g2 g3 g4 =>
        rw [h1, List.append_cancel_left_eq] at g1
        subst g1
        exact absurd h4 g4

theorem signatureError_iff (s : Bytes) (e : EthError) : EthSignature.new s = .err e ↔ SignatureError s e := by
  have mp : ∀ e, EthSignature.new s = .err e → SignatureError s e := by
    intro e h
    rcases C05_errors s e h with ⟨rfl, hsh⟩ | ⟨ds, i, c, h1, h2, rfl, h3, h4, h5⟩
    · exact .shape hsh
    · exact .digit ds i c h1 h2 h3 h4 h5
  have uniq : ∀ e e', SignatureError s e → SignatureError s e' → e = e' := by
    intro e e' h h'
    cases h with
    | shape h1 => cases h' with
      | shape _ => rfl
      | digit ds i c g1 g2 => exact absurd ⟨ds, g1, g2⟩ h1
    | digit ds i c h1 h2 h3 h4 h5 => cases h' with
      | shape g => exact absurd ⟨ds, h1, h2⟩ g
      | digit ds' i' c' g1 g2 g3 g4 g5 =>
        rw [h1, List.append_cancel_left_eq] at g1
        subst g1
        have : i = i' := by
          rcases Nat.lt_trichotomy i i' with h | h | h
          · have := g5 i c h h3; simp_all
          · exact h
          · have := h5 i' c' h g3; simp_all
        subst this
        rw [h3] at g3; cases g3; rfl
  constructor
  · exact mp e
  · intro h
    cases hn : EthSignature.new s with
    | panic => exact absurd hn (ethSignature_new_no_panic s)
    | err e' => rw [uniq e e' h (mp e' hn)]
    | ok a =>
      obtain ⟨⟨ds, h1, h2, h3⟩, _⟩ := (ethSignature_new_ok_iff s a).mp hn
      cases h with
      | shape g => exact absurd ⟨ds, h1, h2⟩ g
      | digit ds' i' c' g1 g2 g3 g4 g5 =>
        rw [h1, List.append_cancel_left_eq] at g1
        subst g1
        have := h3 c' (List.mem_of_getElem? g3); simp_all

theorem isSeed_generate (E : Env) (s : Settings) (addr : Bytes) : IsSeed E s addr (generateSeed E s ⟨addr⟩) := by
  by_cases h : UsesUri s
  · exact .inl ⟨h, by rw [generateSeed, seedInput_uses h]; rfl⟩
  · exact .inr ⟨h, by rw [generateSeed, seedInput_without h]; rfl⟩

theorem isSeed_unique {E : Env} {s : Settings} {addr : Bytes} {x y : Hash} (h : IsSeed E s addr x) (h' : IsSeed E s addr y) :
    x = y := by
  rcases h with ⟨h, rfl⟩ | ⟨h, rfl⟩ <;> rcases h' with ⟨h', rfl⟩ | ⟨h', rfl⟩ <;> first | rfl | exact absurd h h' | exact absurd h' h

/-- Bytes of an address are unique. -/
theorem pending_iff {E : Env} {st : State E} {addr nonce bs : Bytes} {m : SiweMessage} (hl : bs.length = 20)
    (hs : Spells (addr.drop 2) bs) :
    Pending st addr nonce m ↔ st.lib.messages.lookup (storeKey E bs nonce) = some m := by
  constructor
  · rintro ⟨bs', _, h2, h3⟩
    rw [spells_unique h2 hs] at h3
    exact h3
  · intro h; exact ⟨bs, hl, hs, h⟩

theorem session_ne_zero {E : Env} {s : Settings} (h : ValidSettings E s) : s.sessionExpiresIn ≠ 0 :=
  h (s.sessionExpiresIn ≠ 0, .sessionZero) (by simp [requirements])

theorem satAdd_ne_zero {a b : UInt64} (h : b ≠ 0) : satAdd a b ≠ 0 := by
  intro h0
  have := satAdd_toNat a b
  rw [h0] at this
  apply h
  apply UInt64.toNat_inj.mp
  simp only [UInt64.toNat_zero] at this ⊢
  omega

/-! ### C14 -/

theorem login_decision {E : Env} {st : State E} (hi : Inv st) (now : UInt64) (sig addr key nonce : Bytes) :
    LoginReply st now sig addr key nonce (step st now (.login sig addr key nonce)).2 := by
  have hc := step_case hi now (.login sig addr key nonce)
  generalize (step st now (.login sig addr key nonce)).1 = st' at hc
  generalize (step st now (.login sig addr key nonce)).2 = r at hc
  cases hc with
  | badAddress _ _ _ _ e h1 h2 => exact .badAddress e ((addressError_iff E addr e).mp h2)
  | badSignature _ _ _ _ e h1 h2 h3 => exact .badSignature e h1 ((signatureError_iff sig e).mp h3)
  | notFound _ _ _ _ bs h1 h2 h3 h4 h5 =>
    refine .notFound h1 h2 ?_
    rintro ⟨m, txt, hp, hlt, _⟩
    rw [(lookup_prune hi.keys now _ m).mpr ⟨(pending_iff h3 h4).mp hp, hlt⟩] at h5
    cases h5
  | found _ _ _ _ bs m txt st'' r' h1 h2 h3 h4 h5 h6 h7 hf =>
    obtain ⟨hlk, hlt⟩ := (lookup_prune hi.keys now _ m).mp h5
    have hu : Usable st now addr nonce m txt := ⟨(pending_iff h3 h4).mpr hlk, hlt, h6 Empty⟩
    cases hf with
    | badSignature e hc =>
      rcases (check_err h2 h1).mp hc with ⟨er, hr, rfl⟩ | ⟨⟨pub, hr⟩, hns, rfl⟩
      · exact .unrecoverable m txt er h1 h2 hu hr
      · exact .otherSigner m txt pub h1 h2 hu hr hns
    | badKey s n sm e hc hs _ hd =>
      refine .badKey m txt e h1 h2 hu ((check_ok h2 h1).mp hc) ?_
      rcases (C26_errors E s key _ e).mp hd with ⟨g1, rfl⟩ | ⟨g1, g2, rfl⟩ | ⟨g1, g2, g3, rfl⟩
      · exact .empty g1
      · exact .notDer g1 g2
      · exact absurd g3 (satAdd_ne_zero (session_ne_zero (hi.valid s hs)))
    | success s n sm sm' d dh hc hs _ hd _ _ =>
      obtain ⟨g1, g2, _, _⟩ := (C26_create E s key _ d).mp hd
      exact .success m txt s (generateSeed E s ⟨addr⟩) _ h1 h2 hu ((check_ok h2 h1).mp hc) g1 g2 hs
        (isSeed_generate E s addr) (satAdd_toNat _ _) rfl

/-- C14: in every state some history leads to, `siwe_login` gives the specified answer (and so never traps). -/
theorem C14_decision (E : Env) (h : History) (now : UInt64) (sig addr key nonce : Bytes) :
    LoginReply (stateAfter E h) now sig addr key nonce (step (stateAfter E h) now (.login sig addr key nonce)).2 :=
  login_decision (inv_stateAfter E h) now sig addr key nonce

theorem usable_unique {E : Env} {st : State E} {now : UInt64} {addr nonce : Bytes} {m m' : SiweMessage}
    {txt txt' : Bytes} (h : Usable st now addr nonce m txt) (h' : Usable st now addr nonce m' txt') :
    m = m' ∧ txt = txt' := by
  obtain ⟨⟨bs, _, h2, h3⟩, _, h5⟩ := h
  obtain ⟨⟨bs', _, h2', h3'⟩, _, h5'⟩ := h'
  rw [spells_unique h2 h2', h3'] at h3
  have := Option.some.inj h3
  subst this
  exact ⟨rfl, Res.ok.inj (h5.symm.trans h5')⟩

theorem isAddress_not_error {E : Env} {s : Bytes} {e : EthError} (h : AddressError E.keccak s e) :
    ¬IsAddress E.keccak s := by
  intro hA
  have := (ethAddress_new_ok_iff E s ⟨s⟩).mpr ⟨hA, rfl⟩
  rw [(addressError_iff E s e).mpr h] at this
  cases this

theorem hexString_not_error {s : Bytes} {e : EthError} (h : SignatureError s e) : ¬HexString 130 s := by
  intro hA
  have := (ethSignature_new_ok_iff s ⟨s⟩).mpr ⟨hA, rfl⟩
  rw [(signatureError_iff s e).mpr h] at this
  cases this

/-- C14: the specification admits only one answer. -/
theorem C14_one_answer {E : Env} (st : State E) (now : UInt64) (sig addr key nonce : Bytes) (r r' : Reply)
    (h : LoginReply st now sig addr key nonce r) (h' : LoginReply st now sig addr key nonce r') : r = r' := by
  have hfail : ∀ {txt e}, HexString 130 sig → RecoveryFails E sig txt e → ∀ pub, ¬RecoversKey E sig txt pub := by
    intro txt e hs hr pub hp
    have h1 := (recover_err (E := E) hs).mpr hr
    have h2 := (recover_ok (E := E) hs).mpr ⟨pub, hp, rfl⟩
    rw [h1] at h2; cases h2
  have hkey : ∀ {e}, KeyError E key e → ¬(key ≠ [] ∧ E.derOk key = true) := by
    rintro e (⟨h⟩ | ⟨h, h'⟩) ⟨g, g'⟩
    · exact g h
    · simp_all
  cases h with
  | badAddress e h1 => cases h' with
    | badAddress e' g1 =>
      have := (addressError_iff E addr e).mpr h1
      rw [(addressError_iff E addr e').mpr g1] at this; cases this; rfl
    | badSignature _ g1 => exact absurd g1 (isAddress_not_error h1)
    | notFound g1 => exact absurd g1 (isAddress_not_error h1)
    | unrecoverable _ _ _ g1 => exact absurd g1 (isAddress_not_error h1)
    | otherSigner _ _ _ g1 => exact absurd g1 (isAddress_not_error h1)
    | badKey _ _ _ g1 => exact absurd g1 (isAddress_not_error h1)
    | success _ _ _ _ _ g1 => exact absurd g1 (isAddress_not_error h1)
  | badSignature e h1 h2 => cases h' with
    | badAddress e' g1 => exact absurd h1 (isAddress_not_error g1)
    | badSignature e' _ g2 =>
      have := (signatureError_iff sig e).mpr h2
      rw [(signatureError_iff sig e').mpr g2] at this; cases this; rfl
    | notFound _ g2 => exact absurd g2 (hexString_not_error h2)
    | unrecoverable _ _ _ _ g2 => exact absurd g2 (hexString_not_error h2)
    | otherSigner _ _ _ _ g2 => exact absurd g2 (hexString_not_error h2)
    | badKey _ _ _ _ g2 => exact absurd g2 (hexString_not_error h2)
    | success _ _ _ _ _ _ g2 => exact absurd g2 (hexString_not_error h2)
  | notFound h1 h2 h3 => cases h' with
    | badAddress e' g1 => exact absurd h1 (isAddress_not_error g1)
    | badSignature _ _ g2 => exact absurd h2 (hexString_not_error g2)
    | notFound => rfl
    | unrecoverable m txt _ _ _ g3 => exact absurd ⟨m, txt, g3⟩ h3
    | otherSigner m txt _ _ _ g3 => exact absurd ⟨m, txt, g3⟩ h3
    | badKey m txt _ _ _ g3 => exact absurd ⟨m, txt, g3⟩ h3
    | success m txt _ _ _ _ _ g3 => exact absurd ⟨m, txt, g3⟩ h3
  | unrecoverable m txt e h1 h2 h3 h4 => cases h' with
    | badAddress e' g1 => exact absurd h1 (isAddress_not_error g1)
    | badSignature _ _ g2 => exact absurd h2 (hexString_not_error g2)
    | notFound _ _ g => exact absurd ⟨m, txt, h3⟩ g
    | unrecoverable m' txt' e' _ _ g3 g4 =>
      obtain ⟨rfl, rfl⟩ := usable_unique h3 g3
      have := (recover_err (E := E) h2).mpr h4
      rw [(recover_err (E := E) h2).mpr g4] at this; cases this; rfl
    | otherSigner m' txt' pub _ _ g3 g4 =>
      obtain ⟨rfl, rfl⟩ := usable_unique h3 g3
      exact absurd g4 (hfail h2 h4 pub)
    | badKey m' txt' _ _ _ g3 g4 =>
      obtain ⟨rfl, rfl⟩ := usable_unique h3 g3
      obtain ⟨pub, g4, _⟩ := g4
      exact absurd g4 (hfail h2 h4 pub)
    | success m' txt' _ _ _ _ _ g3 g4 =>
      obtain ⟨rfl, rfl⟩ := usable_unique h3 g3
      obtain ⟨pub, g4, _⟩ := g4
      exact absurd g4 (hfail h2 h4 pub)
  | otherSigner m txt pub h1 h2 h3 h4 h5 => cases h' with
    | badAddress e' g1 => exact absurd h1 (isAddress_not_error g1)
    | badSignature _ _ g2 => exact absurd h2 (hexString_not_error g2)
    | notFound _ _ g => exact absurd ⟨m, txt, h3⟩ g
    | unrecoverable m' txt' e' _ _ g3 g4 =>
      obtain ⟨rfl, rfl⟩ := usable_unique h3 g3
      exact absurd h4 (hfail h2 g4 pub)
    | otherSigner => rfl
    | badKey m' txt' _ _ _ g3 g4 =>
      obtain ⟨rfl, rfl⟩ := usable_unique h3 g3
      exact absurd g4 h5
    | success m' txt' _ _ _ _ _ g3 g4 =>
      obtain ⟨rfl, rfl⟩ := usable_unique h3 g3
      exact absurd g4 h5
  | badKey m txt e h1 h2 h3 h4 h5 => cases h' with
    | badAddress e' g1 => exact absurd h1 (isAddress_not_error g1)
    | badSignature _ _ g2 => exact absurd h2 (hexString_not_error g2)
    | notFound _ _ g => exact absurd ⟨m, txt, h3⟩ g
    | unrecoverable m' txt' e' _ _ g3 g4 =>
      obtain ⟨rfl, rfl⟩ := usable_unique h3 g3
      obtain ⟨pub, h4, _⟩ := h4
      exact absurd h4 (hfail h2 g4 pub)
    | otherSigner m' txt' pub _ _ g3 _ g5 =>
      obtain ⟨rfl, rfl⟩ := usable_unique h3 g3
      exact absurd h4 g5
    | badKey m' txt' e' _ _ _ _ g5 =>
      cases h5 <;> cases g5 <;> simp_all
    | success m' txt' _ _ _ _ _ g3 g4 g5 g6 => exact absurd ⟨g5, g6⟩ (hkey h5)
  | success m txt s seed d h1 h2 h3 h4 h5 h6 h7 h8 h9 h10 => cases h' with
    | badAddress e' g1 => exact absurd h1 (isAddress_not_error g1)
    | badSignature _ _ g2 => exact absurd h2 (hexString_not_error g2)
    | notFound _ _ g => exact absurd ⟨m, txt, h3⟩ g
    | unrecoverable m' txt' e' _ _ g3 g4 =>
      obtain ⟨rfl, rfl⟩ := usable_unique h3 g3
      obtain ⟨pub, h4, _⟩ := h4
      exact absurd h4 (hfail h2 g4 pub)
    | otherSigner m' txt' pub _ _ g3 _ g5 =>
      obtain ⟨rfl, rfl⟩ := usable_unique h3 g3
      exact absurd h4 g5
    | badKey m' txt' e' _ _ _ _ g5 => exact absurd ⟨h5, h6⟩ (hkey g5)
    | success m' txt' s' seed' d' _ _ g3 _ _ _ g7 g8 g9 g10 =>
      obtain ⟨rfl, rfl⟩ := usable_unique h3 g3
      rw [h7] at g7; cases g7
      have := isSeed_unique h8 g8
      subst this
      have : d.expiration = d'.expiration := UInt64.toNat_inj.mp (h9.trans g9.symm)
      cases d; cases d'; simp_all

theorem login_success_iff {E : Env} {st : State E} (hi : Inv st) (now : UInt64) (sig addr key nonce : Bytes) :
    (∃ d, (step st now (.login sig addr key nonce)).2 = .loggedIn d) ↔
      IsAddress E.keccak addr ∧ HexString 130 sig ∧
      (∃ m txt, Usable st now addr nonce m txt ∧ Signs E sig txt addr) ∧ key ≠ [] ∧ E.derOk key = true := by
  have hd := login_decision hi now sig addr key nonce
  constructor
  · rintro ⟨d, hr⟩
    rw [hr] at hd
    cases hd with
    | success m txt s seed _ h1 h2 h3 h4 h5 h6 => exact ⟨h1, h2, ⟨m, txt, h3, h4⟩, h5, h6⟩
  · rintro ⟨h1, h2, ⟨m, txt, h3, h4⟩, h5, h6⟩
    have hne : st.lib.messages ≠ [] := by
      obtain ⟨bs, _, _, hl⟩ := h3.1
      intro h0; rw [h0] at hl; cases hl
    obtain ⟨s, hs⟩ := Option.ne_none_iff_exists'.mp (hi.configured hne)
    exact ⟨⟨satAdd m.issuedAt s.sessionExpiresIn, _⟩, C14_one_answer _ _ _ _ _ _ _ _ hd
      (.success m txt s _ _ h1 h2 h3 h4 h5 h6 hs (isSeed_generate E s addr) (satAdd_toNat _ _) rfl)⟩

/-- C14: when a login succeeds. -/
theorem C14_success_iff (E : Env) (h : History) (now : UInt64) (sig addr key nonce : Bytes) :
    (∃ d, (step (stateAfter E h) now (.login sig addr key nonce)).2 = .loggedIn d) ↔
      IsAddress E.keccak addr ∧ HexString 130 sig ∧
      (∃ m txt, Usable (stateAfter E h) now addr nonce m txt ∧ Signs E sig txt addr) ∧ key ≠ [] ∧ E.derOk key = true :=
  login_success_iff (inv_stateAfter E h) now sig addr key nonce

/-- Non-vacuity of C14: every answer occurs. -/
example :
    let ask := fun now sig addr key nonce => (step (stateAfter Toy.env Ex.prepared) now (.login sig addr key nonce)).2
    ask 100 Ex.aliceSig (ascii "0x11") Ex.key (Ex.nonce 3) = .err (.eth .addressFormatError) ∧
    ask 100 (ascii "0x11") Ex.alice Ex.key (Ex.nonce 3) = .err (.eth .signatureFormatError) ∧
    ask 100 Ex.aliceSig Ex.alice Ex.key (Ex.nonce 4) = .err (.login .messageNotFound) ∧
    ask 300000000005 Ex.aliceSig Ex.alice Ex.key (Ex.nonce 3) = .err (.login .messageNotFound) ∧
    ask 100 Ex.brokenSig Ex.alice Ex.key (Ex.nonce 3) = .err (.login (.eth .invalidRecoveryId)) ∧
    ask 100 Ex.bobSig Ex.alice Ex.key (Ex.nonce 3) = .err (.login .addressMismatch) ∧
    ask 100 Ex.aliceSig Ex.alice [] (Ex.nonce 3) = .err (.login (.delegation .sessionKeyEmpty)) ∧
    ask 100 Ex.aliceSig Ex.alice [1] (Ex.nonce 3) = .err (.login (.delegation .sessionKeyNotDer)) ∧
    ask 300000000004 Ex.aliceSig Ex.alice Ex.key (Ex.nonce 3) = .loggedIn ⟨1800000000005,
      createUserCanisterPubkey Toy.env.canisterId (Toy.env.sha256 (identityString (ascii "s") Ex.alice none)).bytes⟩ := by
  decide +kernel

end Siwe
