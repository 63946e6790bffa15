import Verif.Lemmas.ErrorText
import Verif.Props.Delegations
import Verif.Props.Mappings
/- Property C67: the texts of the errors. -/
namespace Siwe
open Spec

/-- C67: two refusals with the same text have the same reason, including its details (the offending character and its position),
whatever methods were called and whatever the DER parser said about the session key. -/
theorem C67_text_gives_reason (derText derText' : Bytes) (e e' : ProviderError) (h : e.text derText = e'.text derText') :
    reason e = reason e' := by
  rw [text_eq, text_eq] at h
  have hh := heads_differ h
  rw [hh] at h
  exact tail_inj hh (List.append_cancel_left h)

/-- Non-vacuity: refusals of different methods with the same text; and texts that differ only in a detail. -/
example : (ProviderError.eth .notEip55).text [] = (ProviderError.login (.eth .notEip55)).text [1] ∧
    (ProviderError.eth .notEip55) ≠ .login (.eth .notEip55) ∧
    (ProviderError.eth (.decodingError (.invalidHexCharacter 0 12))).text [] = ascii "Decoding error: Invalid character '\\0' at position 12" ∧
    (ProviderError.eth (.decodingError (.invalidHexCharacter 103 2))).text [] = ascii "Decoding error: Invalid character 'g' at position 2" := by
  decide

theorem commitInit_no_err {E : Env} (s : State E) (x : Res Empty (State E)) (e : ProviderError) : (commitInit s x).2 ≠ .err e := by
  cases x with
  | ok s => exact nofun
  | err x => cases x
  | panic => exact nofun

/-- C67: each method refuses only for the reasons listed for it. -/
theorem C67_possible_reasons (E : Env) (h : History) (now : UInt64) (op : Op) (e : ProviderError)
    (hr : (step (stateAfter E h) now op).2 = .err e) : MayRefuse op (reason e) := by
  have haddr : ∀ {a : Bytes} {x : EthError}, EthAddress.new E a = .err x → AddressReason (.eth x) := by
    intro a x hx
    cases (addressError_iff E a x).mp hx with
    | shape => exact .inl rfl
    | digit ds i c h1 h2 h3 =>
      exact .inr (.inl ⟨c, i, h2 ▸ (List.getElem?_eq_some_iff.mp h3).1, rfl⟩)
    | letterCase => exact .inr (.inr rfl)
  have hget : ∀ p, (step (stateAfter E h) now (.getAddress p)).2 = .err e →
      reason e = .principalToEthDisabled ∨ reason e = .principalTooLong ∨ reason e = .noAddress := by
    intro p hr
    simp only [step, getAddress] at hr
    split at hr
    · cases hr; exact .inl rfl
    · split at hr
      · cases hr; exact .inr (.inl rfl)
      · split at hr
        · cases hr; exact .inr (.inr rfl)
        · next a ha =>
          have hl := mapped_length ha
          rw [(convert_bytes E (show a.length ≤ 32 by omega)).1] at hr
          cases hr
  cases op with
  | install i => exact absurd hr (commitInit_no_err _ _ _)
  | upgrade i => exact absurd hr (commitInit_no_err _ _ _)
  | rngSeeded seed => cases hr
  | prepareLogin a =>
    simp only [step, commit] at hr
    rcases siwePrepareLogin_cases (stateAfter E h) now a with ⟨x, hA, hc⟩ | ⟨_, _, hc⟩ | ⟨_, _, _, _, _, _, _, _, _, _, _, hc⟩
    · rw [hc] at hr
      cases hr
      have := hc
      simp only [siwePrepareLogin] at this
      split at this
      · next y hy => cases this; exact haddr hy
      · cases this
      · next y hy => exact absurd (((ethAddress_new_ok_iff E a y).mp hy).1) hA
    · rw [hc] at hr; cases hr
    · rw [hc] at hr; cases hr
  | login sig a k n =>
    have hd := C14_decision E h now sig a k n
    rw [hr] at hd
    cases hd with
    | badAddress x hx => exact .inl (haddr ((addressError_iff E a x).mpr hx))
    | badSignature x hA hx =>
      cases hx with
      | shape => exact .inr (.inl rfl)
      | digit ds i c h1 h2 h3 =>
        exact .inr (.inr (.inl ⟨c, i, h2 ▸ (List.getElem?_eq_some_iff.mp h3).1, rfl⟩))
    | notFound => exact .inr (.inr (.inr (.inl rfl)))
    | unrecoverable m txt x h1 h2 h3 h4 =>
      obtain ⟨_, _, _, _, _, _, h5⟩ := h4
      rcases h5 with ⟨_, rfl⟩ | ⟨_, _, rfl⟩ | ⟨_, _, _, rfl⟩
      · exact .inr (.inr (.inr (.inr (.inl rfl))))
      · exact .inr (.inr (.inr (.inr (.inr (.inl rfl)))))
      · exact .inr (.inr (.inr (.inr (.inr (.inr (.inl rfl))))))
    | otherSigner => exact .inr (.inr (.inr (.inr (.inr (.inr (.inr (.inl rfl)))))))
    | badKey m txt x h1 h2 h3 h4 h5 =>
      refine .inr (.inr (.inr (.inr (.inr (.inr (.inr (.inr ?_)))))))
      cases h5
      · exact .inl rfl
      · exact .inr rfl
  | getDelegation c a k x =>
    have hd := C52_decision E h now c a k x
    rw [hr] at hd
    cases hd with
    | badAddress _ y hy => exact .inl (haddr ((addressError_iff E a y).mpr hy))
    | badKey _ _ y _ _ h5 =>
      refine .inr (.inl ?_)
      cases h5
      · exact .inl rfl
      · exact .inr rfl
    | zero => exact .inr (.inr (.inl rfl))
    | expired => exact .inr (.inr (.inr (.inl rfl)))
    | notFound => exact .inr (.inr (.inr (.inr rfl)))
  | getAddress p => exact hget p hr
  | getCallerAddress p => exact hget p (by rwa [getCallerAddress_eq] at hr)
  | getPrincipal a =>
    simp only [step, getPrincipal] at hr
    split at hr
    · cases hr; exact .inl rfl
    · cases hn : EthAddress.new E a with
      | panic => exact absurd hn (ethAddress_new_no_panic E a)
      | err x =>
        rw [hn] at hr
        cases hr
        exact .inr (.inl (haddr hn))
      | ok y =>
        rw [hn] at hr
        simp only [Res.mapErr_ok, Res.ok_bind] at hr
        cases hb : y.asByteArray with
        | panic => rw [hb] at hr; cases hr
        | err x => rw [hb] at hr; cases hr
        | ok b =>
          rw [hb] at hr
          simp only [Res.unwrap, Res.ok_bind] at hr
          split at hr
          · cases hr; exact .inr (.inr rfl)
          · cases hr

/-- The reply of the example canister after a login. -/
def Ex.refusal (op : Op) : Option Reason :=
  match (step (stateAfter Toy.env Ex.loggedIn) 200 op).2 with
  | .err e => some (reason e)
  | _ => none

/-- Non-vacuity: refusals by each method. -/
example : Ex.refusal (.prepareLogin (ascii "0x12")) = some (.eth .addressFormatError) ∧
    Ex.refusal (.login [] Ex.alice Ex.key []) = some (.eth .signatureFormatError) ∧
    Ex.refusal (.getDelegation (some [7]) Ex.alice Ex.key 0) = some (.delegation .invalidExpiration) ∧
    Ex.refusal (.getAddress (List.replicate 30 0)) = some .principalTooLong ∧
    Ex.refusal (.getCallerAddress [4]) = some .noAddress ∧
    Ex.refusal (.getPrincipal (ascii "0x")) = some (.eth .addressFormatError) := by decide +kernel

theorem printable_append {a b : Bytes} (ha : Printable a) (hb : Printable b) : Printable (a ++ b) := by
  induction ha with
  | nil => exact hb
  | ascii c l h1 h2 _ ih => exact .ascii c _ h1 h2 ih
  | twoBytes2 c l h1 h2 h3 _ ih => exact .twoBytes2 c _ h1 h2 h3 ih
  | twoBytes3 c l h1 h2 _ ih => exact .twoBytes3 c _ h1 h2 ih

theorem printable_of_all {a : Bytes} (h : a.all (fun c => 32 ≤ c && c ≤ 126) = true) : Printable a := by
  induction a with
  | nil => exact .nil
  | cons c l ih =>
    simp only [List.all_cons, Bool.and_eq_true, decide_eq_true_eq] at h
    exact .ascii c l h.1.1 h.1.2 (ih (by simpa using h.2))

theorem charDebug_shape : ∀ c : UInt8, (charDebug c).all (fun c => 32 ≤ c && c ≤ 126) = true ∨
    (charDebug c = [0xc2, c] ∧ 0xa1 ≤ c ∧ c ≤ 0xbf ∧ c ≠ 0xad) ∨
    (charDebug c = [0xc3, c - 0x40] ∧ 0x80 ≤ c - 0x40 ∧ c - 0x40 ≤ 0xbf) := by
  apply u8_all; decide +kernel

theorem charDebug_printable (c : UInt8) : Printable (charDebug c) := by
  rcases charDebug_shape c with h | ⟨h, h1, h2, h3⟩ | ⟨h, h1, h2⟩
  · exact printable_of_all h
  · rw [h]; exact .twoBytes2 c _ h1 h2 h3 .nil
  · rw [h]; exact .twoBytes3 _ _ h1 h2 .nil

theorem decimal_printable (n : Nat) : Printable (decimal n) := by
  refine printable_of_all (List.all_eq_true.mpr fun c hc => ?_)
  obtain ⟨h1, h2⟩ := (decimalGo_spec (n + 1) n (by omega)).2.1 c hc
  have h3 : (32 : UInt8) ≤ c := UInt8.le_trans (by decide) h1
  have h4 : c ≤ 126 := UInt8.le_trans h2 (by decide)
  simp [h3, h4]

theorem hexDigits_printable : ∀ b : UInt8,
    [hexDigit (b >>> 4), hexDigit (b &&& 15)].all (fun c => 32 ≤ c && c ≤ 126) = true := by
  apply u8_all; decide +kernel

theorem hexEncode_printable (b : Bytes) : Printable (hexEncode b) := by
  refine printable_of_all (List.all_eq_true.mpr fun c hc => ?_)
  obtain ⟨x, _, hx⟩ := List.mem_flatMap.mp hc
  exact List.all_eq_true.mp (hexDigits_printable x) c hx

theorem eth_text_printable (e : EthError) (h : ∀ c i, e ≠ .unrecognizedHexCharacter c i) : Printable e.text := by
  cases e with
  | unrecognizedHexCharacter c i => exact absurd rfl (h c i)
  | decodingError e =>
    cases e with
    | invalidHexCharacter c i =>
      simp only [EthError.text, FromHexError.text]
      refine printable_append ?_ (printable_append (printable_append (printable_append ?_ (charDebug_printable c)) ?_)
        (decimal_printable i))
      all_goals exact printable_of_all (by decide +kernel)
    | oddLength => exact printable_of_all (by decide +kernel)
  | _ => exact printable_of_all (by decide +kernel)

theorem delegation_text_printable {d : Bytes} (hd : Printable d) (e : DelegationError) : Printable (e.text d) := by
  cases e with
  | witnessHashMismatch w r =>
    simp only [DelegationError.text]
    refine printable_append (printable_append (printable_append ?_ (hexEncode_printable _)) ?_) (hexEncode_printable _)
    all_goals exact printable_of_all (by decide +kernel)
  | sessionKeyNotDer =>
    simp only [DelegationError.text]
    exact printable_append (printable_of_all (by decide +kernel)) hd
  | _ => exact printable_of_all (by simp only [DelegationError.text]; decide +kernel)

/-- C67: the text of a refusal is UTF-8 and has only printable characters, whatever bytes the caller sent (as long as the DER parser's
own texts are printable): an error text cannot carry control characters into a log or a terminal. -/
theorem C67_text_is_printable (E : Env) (h : History) (now : UInt64) (op : Op) (e : ProviderError) (derText : Bytes)
    (hd : Printable derText) (hr : (step (stateAfter E h) now op).2 = .err e) : Printable (e.text derText) := by
  have hm := C67_possible_reasons E h now op e hr
  have hne : ∀ c i, reason e ≠ .eth (.unrecognizedHexCharacter c i) := by
    intro c i he
    rw [he] at hm
    cases op <;> simp [MayRefuse, AddressReason, SessionKeyReason] at hm
  cases e with
  | eth x => exact eth_text_printable x (fun c i hx => hne c i (by rw [hx]; rfl))
  | login x =>
    cases x with
    | eth x => exact eth_text_printable x (fun c i hx => hne c i (by rw [hx]; rfl))
    | delegation x => exact delegation_text_printable hd x
    | _ => exact printable_of_all (by simp only [ProviderError.text, LoginError.text]; decide +kernel)
  | delegation x => exact delegation_text_printable hd x
  | _ => exact printable_of_all (by simp only [ProviderError.text]; decide +kernel)

/-- Non-vacuity: what the texts show of a line feed and of a soft hyphen (by its first byte) in an address. -/
example :
    (match (step (stateAfter Toy.env Ex.loggedIn) 200 (.prepareLogin (ascii "0x" ++ List.replicate 39 49 ++ [10]))).2 with
      | .err e => e.text [] | _ => []) = ascii "Decoding error: Invalid character '\\n' at position 39" ∧
    (match (step (stateAfter Toy.env Ex.loggedIn) 200 (.prepareLogin (ascii "0x" ++ List.replicate 38 49 ++ [0xc2, 0xad]))).2 with
      | .err e => e.text [] | _ => []) = ascii "Decoding error: Invalid character '" ++ 0xc3 :: 0x82 :: ascii "' at position 38" ∧
    charDebug 0xad = ascii "\\u{ad}" := by
  decide +kernel

end Siwe
