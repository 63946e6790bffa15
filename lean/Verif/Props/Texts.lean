import Verif.Props.Wire
import Verif.Props.ErrorText
import Verif.Props.MappingAnswers
/- C108: only texts come in, only texts go out. -/
namespace Siwe
open Spec Candid Wire

/-! ### UTF-8 -/

theorem utf8_printable {b : Bytes} (h : Printable b) : IsUtf8 b := by
  induction h with
  | nil => exact .nil
  | ascii c l h1 h2 _ ih =>
    refine utf8_append (a := [c]) (utf8_ascii _ ?_) ih
    intro x hx
    rw [List.mem_singleton] at hx
    subst hx
    have := UInt8.le_iff_toNat_le.1 h2
    simp at this
    omega
  | twoBytes2 c l h1 h2 _ _ ih =>
    refine utf8_append (a := [0xc2, c]) ((isUtf8_iff _).1 ?_) ih
    revert h1 h2
    clear * -
    revert c
    apply u8_all
    decide +kernel
  | twoBytes3 c l h1 h2 _ ih =>
    refine utf8_append (a := [0xc3, c]) ((isUtf8_iff _).1 ?_) ih
    revert h1 h2
    clear * -
    revert c
    apply u8_all
    decide +kernel

theorem utf8_string {s : Bytes} (h : s.all (fun c => decide (c.toNat < 128)) = true) : IsUtf8 s :=
  utf8_ascii _ fun c hc => by simpa using List.all_eq_true.1 h c hc

theorem hexDigit_ascii (c : UInt8) (h : isHexDigit c = true) : c.toNat < 128 := by
  revert h
  revert c
  apply u8_all
  decide +kernel

theorem digit_ascii (c : UInt8) (h : 48 ≤ c ∧ c ≤ 57) : c.toNat < 128 := by
  have := UInt8.le_iff_toNat_le.1 h.2
  simp at this
  omega

theorem utf8_address {keccak : Bytes → Hash} {a : Bytes} (h : IsAddress keccak a) : IsUtf8 a := by
  obtain ⟨ds, rfl, _, h, _⟩ := h
  exact utf8_append (utf8_string (by decide)) (utf8_ascii _ fun c hc => hexDigit_ascii c (h c hc))

theorem utf8_instant {t : Nat} {b : Bytes} (h : IsInstant t b) : IsUtf8 b := by
  obtain ⟨c, ⟨y, mo, d, hh, mi, s, frac, rfl, h1, h2, h3, h4, h5, h6, h7⟩, _⟩ := h
  have dg : ∀ {w n b}, Digits w n b → IsUtf8 b := fun h => utf8_ascii _ fun c hc => digit_ascii c (h.2.1 c hc)
  have hf : IsUtf8 frac := by
    rcases h7 with ⟨rfl, _⟩ | ⟨w, n, ds, rfl, _, _, h, _⟩
    · exact .nil
    · exact utf8_append (utf8_string (by decide +kernel)) (dg h)
  refine utf8_append (utf8_append (utf8_append (utf8_append (utf8_append (utf8_append (utf8_append (utf8_append (utf8_append (utf8_append
    (utf8_append (utf8_append (dg h1) ?_) (dg h2)) ?_) (dg h3)) ?_) (dg h4)) ?_) (dg h5)) ?_) (dg h6)) hf) ?_
  all_goals exact utf8_string (by decide +kernel)

theorem utf8_siwe {f : Shown} {b : Bytes} (h : IsSiweText f b) (h1 : IsUtf8 f.domain) (h2 : IsUtf8 f.address) (h3 : IsUtf8 f.statement)
    (h4 : IsUtf8 f.uri) (h5 : IsUtf8 f.nonce) : IsUtf8 b := by
  obtain ⟨ver, chain, issued, expires, g1, g2, g3, g4, e⟩ := h
  rw [e]
  clear e
  have dg : ∀ {n b}, IsDecimal n b → IsUtf8 b := fun h => utf8_ascii _ fun c hc => digit_ascii c (h.2.1 c hc)
  have k1 := dg g1
  have k2 := dg g2
  have k3 := utf8_instant g3
  have k4 := utf8_instant g4
  refine utf8_append (utf8_append (utf8_append (utf8_append (utf8_append (utf8_append (utf8_append (utf8_append (utf8_append (utf8_append (utf8_append (utf8_append (utf8_append (utf8_append (utf8_append (utf8_append (utf8_append (utf8_append (utf8_append (utf8_append (utf8_append (utf8_append h1 ?_) h2) ?_) h3) ?_) ?_) h4) ?_) ?_) k1) ?_) ?_) k2) ?_) ?_) h5) ?_) ?_) k3) ?_) ?_) k4
  all_goals exact utf8_string (by decide +kernel)

/-! ### what comes in -/

theorem fits_text {b : Bytes} (h : Fits (.text b)) : IsUtf8 b := by
  cases h
  assumption

theorem fits_lookup {vs : List (UInt32 × Val)} (h : Fits (.record vs)) {l : UInt32} {v : Val} (hl : vs.lookup l = some v) : Fits v := by
  cases h with
  | record _ h =>
    obtain ⟨a, b, e, _⟩ := List.lookup_eq_some_iff.1 hl
    exact h (l, v) (by rw [e]; simp)

theorem fits_given {ws : Fields} {vs : List (UInt32 × Val)} (h : Fits (.record vs)) {name : String} {t : Ty} {v : Val}
    (hg : Given ws vs name t v) : Fits v := by
  rcases hg with hg | hg
  · exact fits_lookup h hg.2
  · have := fits_lookup h hg.2
    cases this
    assumption

theorem settings_utf8 {bs : Bytes} {args : Args} {i : SettingsInput} (h1 : IsMessage bs args) (h2 : receiveSettings args = some i) :
    SettingsUtf8 i := by
  obtain ⟨ws, vs, rest, rfl, g1, g2, g3, _, g5, g6, _, _, g9, _⟩ := C79_settings args i h2
  have hf := (message_typed h1 _ (List.mem_cons_self ..)).2.2
  refine ⟨fits_text (fits_lookup hf g1.2), fits_text (fits_lookup hf g2.2), fits_text (fits_lookup hf g3.2),
    fun b hb => fits_text (fits_given hf ((g5 b).1 hb)), fun b hb => fits_text (fits_given hf ((g6 b).1 hb)), fun ts hts t ht => ?_⟩
  have := fits_given hf ((g9 ts).1 hts)
  cases this with
  | vec _ _ h => exact fits_text (h _ (List.mem_map_of_mem ht))

/-- C108: whatever bytes are sent, every text of the call the canister takes them for is UTF-8. -/
theorem C108_received (m : RawMessage) (op : Op) (h : Requests m op) : CallUtf8 op := by
  cases h with
  | seeded => trivial
  | install bs args i h1 h2 => exact settings_utf8 h1 h2
  | upgrade bs args i h1 h2 => exact settings_utf8 h1 h2
  | call f caller cert bs vs rest op h1 h2 =>
    have key := message_typed h1
    cases h2 with
    | prepareLogin a => exact fits_text (key (text, .text a) (by simp [Function.method])).2.2
    | login s a k n =>
      exact ⟨fits_text (key (text, .text s) (by simp [Function.method])).2.2,
        fits_text (key (text, .text a) (by simp [Function.method])).2.2,
        fits_text (key (text, .text n) (by simp [Function.method])).2.2⟩
    | getDelegation a => exact fits_text (key (text, .text a) (by simp [Function.method])).2.2
    | getAddress => trivial
    | getCallerAddress => trivial
    | getPrincipal a => exact fits_text (key (text, .text a) (by simp [Function.method])).2.2

/-! ### what goes out -/

theorem eth_text_utf8 {e : EthError} (h : ∀ c i, e ≠ .unrecognizedHexCharacter c i) : IsUtf8 e.text := utf8_printable (eth_text_printable e h)

theorem delegation_text_utf8 {d : Bytes} (hd : IsUtf8 d) (e : DelegationError) : IsUtf8 (e.text d) := by
  cases e with
  | sessionKeyNotDer => exact utf8_append (utf8_string (by decide +kernel)) hd
  | witnessHashMismatch w r => exact utf8_printable (delegation_text_printable (d := []) .nil (.witnessHashMismatch w r))
  | _ => exact utf8_string (by simp only [DelegationError.text]; decide +kernel)

/-- C108: the text of a refusal is UTF-8, whatever the call. -/
theorem C108_refusals (E : Env) (h : History) (now : UInt64) (op : Op) (e : ProviderError) (derText : Bytes) (hd : IsUtf8 derText)
    (hr : (step (stateAfter E h) now op).2 = .err e) : IsUtf8 (e.text derText) := by
  have hm := C67_possible_reasons E h now op e hr
  have hne : ∀ c i, reason e ≠ .eth (.unrecognizedHexCharacter c i) := by
    intro c i he
    rw [he] at hm
    cases op <;> simp [MayRefuse, AddressReason, SessionKeyReason] at hm
  cases e with
  | eth x => exact eth_text_utf8 (fun c i hx => hne c i (by rw [hx]; rfl))
  | login x =>
    cases x with
    | eth x => exact eth_text_utf8 (fun c i hx => hne c i (by rw [hx]; rfl))
    | delegation x => exact delegation_text_utf8 hd x
    | _ => exact utf8_string (by simp only [ProviderError.text, LoginError.text]; decide +kernel)
  | delegation x => exact delegation_text_utf8 hd x
  | _ => exact utf8_string (by simp only [ProviderError.text]; decide +kernel)

theorem settings_in_force_utf8 {E : Env} {h : History} (hh : ∀ x ∈ h, CallUtf8 x.2) {s : Settings}
    (hs : (stateAfter E h).lib.settings = some s) : IsUtf8 s.domain ∧ IsUtf8 s.statement ∧ IsUtf8 s.uri := by
  obtain ⟨before, e, after, i, h1, _, h2, _, h3⟩ := settings_inForce hs
  have hmem : e.call ∈ h.map (·.2) := by
    rw [← trace_calls E h, h1]
    simp
  obtain ⟨x, hx, hx'⟩ := List.mem_map.1 hmem
  have hi : SettingsUtf8 i := by
    have := hh x hx
    rw [show x.2 = e.call from hx'] at this
    rcases h2 with h2 | h2 <;> rw [h2] at this <;> exact this
  refine ⟨h3.domain ▸ hi.1, ?_, h3.uri ▸ hi.2.1⟩
  rw [h3.statement]
  cases hst : i.statement with
  | none => exact utf8_string (by decide +kernel)
  | some b => exact hi.2.2.2.2.1 b hst

/-- C108: after any calls whose texts are UTF-8, every text of an answer is: the message to be signed, its nonce, an address and the text
of a refusal. -/
theorem C108_replies (E : Env) (h : History) (hh : ∀ x ∈ h, CallUtf8 x.2) (now : UInt64) (f : Function) (vs : List Val) (caller : Bytes)
    (cert : Option Bytes) (op : Op) (ha : Asks f vs caller cert op) (derText : Bytes) (hd : IsUtf8 derText) :
    ReplyUtf8 derText f (step (stateAfter E h) now op).2 := by
  rcases reply_shape (stateAfter E h) now ha with h1 | ⟨e, h1⟩ | h1
  · rw [h1]; trivial
  · rw [h1]; exact C108_refusals E h now op e derText hd h1
  · have address : ∀ p r, AddressAnswer E (trace E h) p r → ∀ b, r = .bytes b → IsUtf8 b := by
      intro p r hr b hb
      cases hr with
      | found a _ q =>
        cases hb
        obtain ⟨_, _, q, _⟩ := (recordedAddress_iff E h p b).1 q
        exact utf8_address q
      | _ => exact nomatch hb
    cases ha with
    | prepareLogin a =>
      obtain ⟨r, h1⟩ := h1
      obtain ⟨s, g1, g2, _, g3⟩ := C11_reply_text _ now a r h1
      have hn : IsUtf8 r.nonce := utf8_ascii _ fun c hc => hexDigit_ascii c (g3 c hc).1
      obtain ⟨k1, k2, k3⟩ := settings_in_force_utf8 hh g1
      rw [h1]
      exact ⟨utf8_siwe g2 k1 (utf8_address ((C11_reply _ now a).1.1 ⟨r, h1⟩).1) k2 k3 hn, hn⟩
    | login => obtain ⟨d, h1⟩ := h1; rw [h1]; trivial
    | getDelegation => obtain ⟨d, h1⟩ := h1; rw [h1]; trivial
    | getAddress p =>
      obtain ⟨b, h1⟩ := h1
      have := address p _ (C72_get_address E h now p) b h1
      rw [h1]
      exact fun _ => this
    | getCallerAddress =>
      obtain ⟨b, h1⟩ := h1
      have := address caller _ (C72_get_caller_address E h now caller) b h1
      rw [h1]
      exact fun _ => this
    | getPrincipal => obtain ⟨b, h1⟩ := h1; rw [h1]; exact fun q => absurd rfl q

theorem heard_utf8 {ms : List (UInt64 × RawMessage)} {h : History} {rs qs : List Reply} (hh : Heard ms h rs qs) : ∀ x ∈ h, CallUtf8 x.2 := by
  induction hh with
  | nil => intro x hx; simp at hx
  | call t m op ms h r rs qs h1 _ ih =>
    intro x hx
    rcases List.mem_cons.1 hx with rfl | hx
    · exact C108_received m op h1
    · exact ih x hx
  | refused _ _ _ _ _ _ _ _ ih => exact ih

/-- C108: whatever bytes were sent to the canister since it was created, when it answers the next call the answer, if it fits, can be
written as bytes, and whichever bytes it is written as, the reader of the published interface, the client too, reads what the canister
answered.  Bytes that are not UTF-8 are never in the way. -/
theorem C108_conversation (E : Env) (ms : List (UInt64 × RawMessage)) (now : UInt64) (m : RawMessage) (f : Function) (vs : List Val)
    (caller : Bytes) (cert : Option Bytes) (op : Op) (ha : Asks f vs caller cert op) (hm : Requests m op)
    (hr : (stepRaw (runRaw (State.fresh E) ms).1 now m).2 ≠ .trap) (derText : Bytes) (hd : IsUtf8 derText) :
    ∃ v, replyVal derText f (stepRaw (runRaw (State.fresh E) ms).1 now m).2 = some v ∧
      (ReplySmall derText (stepRaw (runRaw (State.fresh E) ms).1 now m).2 → ∃ bs, IsMessage bs [(f.method.result, v)]) ∧
      ∀ bs, IsMessage bs [(f.method.result, v)] →
        ∀ p : Method, p ∈ Did.methods ∨ p ∈ Js.methods → p.name = f.method.name →
          ∃ w, readReply p.result bs = some w ∧ Says f derText (stepRaw (runRaw (State.fresh E) ms).1 now m).2 w := by
  obtain ⟨h, h1, h2⟩ := C107_history (State.fresh E) ms
  have e : stepRaw (runRaw (State.fresh E) ms).1 now m = step (stateAfter E h) now op := by
    rw [h1]
    simp only [stepRaw, (C107_requests m op).2 hm]
    rfl
  rw [e] at hr ⊢
  obtain ⟨v, g1, g2, g3⟩ := C107_replies (stateAfter E h) now f vs caller cert op ha hr derText
  exact ⟨v, g1, g2 (C108_replies E h (heard_utf8 h2) now f vs caller cert op ha derText hd), g3⟩

/-- Non-vacuity: a canister installed with the example's configuration, in bytes, and seeded, answers the request for a message to be
signed (in bytes too) with a message; the same request with an address that is not UTF-8 is refused. -/
example : (∃ bs, IsMessage bs Ex.config.sent) ∧ ∀ bs, IsMessage bs Ex.config.sent →
    let st := (runRaw (State.fresh Toy.env) [(1, .install bs), (2, .rngSeeded [1, 2, 3])]).1
    let m := RawMessage.call "siwe_prepare_login" [4] none ([0x44, 0x49, 0x44, 0x4c, 0, 1, 0x71, 42] ++ Ex.alice)
    Requests m (.prepareLogin Ex.alice) ∧ (∃ r, (stepRaw st 5 m).2 = .prepared r) ∧
      ∀ op, ¬Requests (.call "siwe_prepare_login" [4] none ([0x44, 0x49, 0x44, 0x4c, 0, 1, 0x71, 42] ++ Ex.alice.dropLast ++ [0xe2])) op := by
  refine ⟨?_, fun bs hbs => ?_⟩
  · refine (C107_configuration Ex.config).1 ⟨text_of (by decide +kernel), text_of (by decide +kernel), text_of (by decide +kernel), ?_, ?_, ?_, ?_⟩ <;>
      intro x hx <;> cases hx
    · exact text_of (by decide +kernel)
    · decide
  · have h1 := ((C107_configuration Ex.config).2 bs hbs _ rfl).1
    refine ⟨(C107_requests _ _).1 (by decide +kernel), ?_, ?_⟩
    · have hm : receiveRaw (RawMessage.call "siwe_prepare_login" [4] none ([0x44, 0x49, 0x44, 0x4c, 0, 1, 0x71, 42] ++ Ex.alice)) =
          some (.prepareLogin Ex.alice) := by decide +kernel
      simp only [runRaw, stepRaw, h1, hm, show receiveRaw (.rngSeeded [1, 2, 3]) = some (.rngSeeded [1, 2, 3]) from rfl]
      rw [(C11_reply _ _ _).1]
      exact ⟨((ethAddress_new_ok_iff Toy.env Ex.alice ⟨Ex.alice⟩).mp (by decide +kernel)).1, by decide +kernel⟩
    · intro op hop
      have := (C107_requests _ _).2 hop
      have hn : (receiveRaw (.call "siwe_prepare_login" [4] none
        ([0x44, 0x49, 0x44, 0x4c, 0, 1, 0x71, 42] ++ Ex.alice.dropLast ++ [0xe2]))).isNone = true := by decide +kernel
      rw [this] at hn
      exact nomatch hn

end Siwe
