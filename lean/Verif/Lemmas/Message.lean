import Verif.Lemmas.Time
import Verif.Lemmas.Address
import Verif.Model.Message
import Verif.Spec.Message
/- Helper lemmas about the sign-in message text. -/
namespace Siwe
open Spec

theorem message_text_ok (ε : Type) (m : SiweMessage) :
    ∃ txt, (m.text : Res ε Bytes) = .ok txt ∧ IsSiweText (shown m) txt := by
  obtain ⟨t1, c1, h1, a1, b1, e1⟩ := rfc3339_spec ε m.issuedAt
  obtain ⟨t2, c2, h2, a2, b2, e2⟩ := rfc3339_spec ε m.expirationTime
  refine ⟨_, by rw [SiweMessage.text, h1, h2]; rfl, decimal m.version.toNat, decimal m.chainId.toNat, t1, t2,
    decimal_spec _, decimal_spec _, ⟨c1, a1, b1, e1⟩, ⟨c2, a2, b2, e2⟩, ?_⟩
  have e1 : ascii "\n\nURI: " = ascii "\n\n" ++ ascii "URI: " := by decide
  have e2 : ascii "\nVersion: " = ascii "\n" ++ ascii "Version: " := by decide
  have e3 : ascii "\nChain ID: " = ascii "\n" ++ ascii "Chain ID: " := by decide
  have e4 : ascii "\nNonce: " = ascii "\n" ++ ascii "Nonce: " := by decide
  have e5 : ascii "\nIssued At: " = ascii "\n" ++ ascii "Issued At: " := by decide
  have e6 : ascii "\nExpiration Time: " = ascii "\n" ++ ascii "Expiration Time: " := by decide
  rw [e1, e2, e3, e4, e5, e6]
  simp only [shown, List.append_assoc]

theorem digits_unique {w n n' : Nat} {ds : Bytes} (h : Digits w n ds) (h' : Digits w n' ds) : n = n' :=
  h.2.2.symm.trans h'.2.2

theorem append_len_inj {a b c d : Bytes} (h : a ++ b = c ++ d) (hl : a.length = c.length) : a = c ∧ b = d :=
  List.append_inj h hl

/-- A timestamp text determines the instant. -/
theorem timestamp_unique {txt : Bytes} {c c' : Civil} (h : IsTimestamp txt c) (h' : IsTimestamp txt c') :
    c.toNanos = c'.toNanos := by
  obtain ⟨y, mo, d, hh, mi, s, frac, e, hy, hmo, hd, hhh, hmi, hs, hf⟩ := h
  obtain ⟨y', mo', d', hh', mi', s', frac', e', hy', hmo', hd', hhh', hmi', hs', hf'⟩ := h'
  rw [e] at e'
  simp only [List.append_assoc] at e'
  obtain ⟨ey, e'⟩ := append_len_inj e' (hy.1.trans hy'.1.symm)
  replace e' := List.append_cancel_left e'
  obtain ⟨emo, e'⟩ := append_len_inj e' (hmo.1.trans hmo'.1.symm)
  replace e' := List.append_cancel_left e'
  obtain ⟨ed, e'⟩ := append_len_inj e' (hd.1.trans hd'.1.symm)
  replace e' := List.append_cancel_left e'
  obtain ⟨ehh, e'⟩ := append_len_inj e' (hhh.1.trans hhh'.1.symm)
  replace e' := List.append_cancel_left e'
  obtain ⟨emi, e'⟩ := append_len_inj e' (hmi.1.trans hmi'.1.symm)
  replace e' := List.append_cancel_left e'
  obtain ⟨es, e'⟩ := append_len_inj e' (hs.1.trans hs'.1.symm)
  have ef := List.append_cancel_right e'
  clear e'
  subst ef; subst ey; subst emo; subst ed; subst ehh; subst emi; subst es
  have n1 := digits_unique hy hy'
  have n2 := digits_unique hmo hmo'
  have n3 := digits_unique hd hd'
  have n4 := digits_unique hhh hhh'
  have n5 := digits_unique hmi hmi'
  have n6 := digits_unique hs hs'
  have n7 : c.nanos = c'.nanos := by
    have hdot : ∀ ds : Bytes, ascii "." ++ ds ≠ [] := by
      intro ds h
      have := congrArg List.length h
      have hl : (ascii ".").length = 1 := by decide
      simp [hl] at this
    rcases hf with ⟨f1, f2⟩ | ⟨w, n, ds, f1, _, _, f2, f3⟩ <;>
      rcases hf' with ⟨g1, g2⟩ | ⟨w', n', ds', g1, _, _, g2, g3⟩
    · omega
    · exact absurd (g1.symm.trans f1) (hdot _)
    · exact absurd (f1.symm.trans g1) (hdot _)
    · rw [f1] at g1
      have := List.append_cancel_left g1
      subst this
      have hw : w = w' := f2.1.symm.trans g2.1
      subst hw
      rw [f3, g3, digits_unique f2 g2]
  simp only [Civil.toNanos, n1, n2, n3, n4, n5, n6, n7]

theorem instant_unique {t t' : Nat} {txt : Bytes} (h : IsInstant t txt) (h' : IsInstant t' txt) : t = t' := by
  obtain ⟨c, h1, _, h3⟩ := h
  obtain ⟨c', h1', _, h3'⟩ := h'
  rw [← h3, ← h3', timestamp_unique h1 h1']

theorem oneLine_append {a b : Bytes} : OneLine (a ++ b) ↔ OneLine a ∧ OneLine b := by
  simp [OneLine, not_or]

theorem digits_oneLine {ds : Bytes} (h : ∀ c ∈ ds, 48 ≤ c ∧ c ≤ 57) : OneLine ds := by
  intro hc
  have := (h 10 hc).1
  exact absurd this (by decide)

theorem instant_oneLine {t : Nat} {txt : Bytes} (h : IsInstant t txt) : OneLine txt := by
  obtain ⟨c, ⟨y, mo, d, hh, mi, s, frac, rfl, hy, hmo, hd, hhh, hmi, hs, hf⟩, _⟩ := h
  have hdash : OneLine (ascii "-") := by unfold OneLine; decide
  have hT : OneLine (ascii "T") := by unfold OneLine; decide
  have hcol : OneLine (ascii ":") := by unfold OneLine; decide
  have hZ : OneLine (ascii "Z") := by unfold OneLine; decide
  have hdot : OneLine (ascii ".") := by unfold OneLine; decide
  have hfr : OneLine frac := by
    rcases hf with ⟨rfl, _⟩ | ⟨w, n, ds, rfl, _, _, f2, _⟩
    · simp [OneLine]
    · exact oneLine_append.mpr ⟨hdot, digits_oneLine f2.2.1⟩
  simp only [oneLine_append]
  exact ⟨⟨⟨⟨⟨⟨⟨⟨⟨⟨⟨⟨digits_oneLine hy.2.1, hdash⟩, digits_oneLine hmo.2.1⟩, hdash⟩, digits_oneLine hd.2.1⟩, hT⟩,
    digits_oneLine hhh.2.1⟩, hcol⟩, digits_oneLine hmi.2.1⟩, hcol⟩, digits_oneLine hs.2.1⟩, hfr⟩, hZ⟩

theorem split_line {a b x y : Bytes} (ha : OneLine a) (hb : OneLine b)
    (h : a ++ ascii "\n" ++ x = b ++ ascii "\n" ++ y) : a = b ∧ x = y := by
  have e : ascii "\n" = [10] := by decide
  rw [e] at h
  induction a generalizing b with
  | nil =>
    cases b with
    | nil => simpa using h
    | cons c cs =>
      simp at h
      exact absurd (by simp [h.1]) hb
  | cons d ds ih =>
    cases b with
    | nil =>
      simp at h
      exact absurd (by simp [h.1]) ha
    | cons c cs =>
      simp only [List.cons_append, List.cons.injEq] at h
      obtain ⟨h1, h2⟩ := h
      have := ih (b := cs) (fun hc => ha (by simp [hc])) (fun hc => hb (by simp [hc])) h2
      exact ⟨by rw [h1, this.1], this.2⟩

/-- With one-line fields the text determines everything shown. -/
theorem siweText_unique {f f' : Shown} {txt : Bytes} (h : IsSiweText f txt) (h' : IsSiweText f' txt)
    (hd : OneLine f.domain) (ha : OneLine f.address) (hs : OneLine f.statement) (hu : OneLine f.uri)
    (hn : OneLine f.nonce)
    (hd' : OneLine f'.domain) (ha' : OneLine f'.address) (hs' : OneLine f'.statement)
    (hu' : OneLine f'.uri) (hn' : OneLine f'.nonce) : f = f' := by
  obtain ⟨v, c, i, e, hv, hc, hi, he, ht⟩ := h
  obtain ⟨v', c', i', e', hv', hc', hi', he', ht'⟩ := h'
  rw [ht] at ht'
  clear ht
  have w1 : ascii " wants you to sign in with your Ethereum account:\n" =
    ascii " wants you to sign in with your Ethereum account:" ++ ascii "\n" := by decide
  have w2 : ascii "\n\n" = ascii "\n" ++ ascii "\n" := by decide
  have o1 : OneLine (ascii " wants you to sign in with your Ethereum account:") := by unfold OneLine; decide
  rw [w1, w2] at ht'
  simp only [List.append_assoc] at ht'
  rw [← List.append_assoc f.domain, ← List.append_assoc f'.domain, ← List.append_assoc,
    ← List.append_assoc (f'.domain ++ _)] at ht'
  obtain ⟨d1, ht'⟩ := split_line (oneLine_append.mpr ⟨hd, o1⟩) (oneLine_append.mpr ⟨hd', o1⟩) ht'
  rw [← List.append_assoc f.address, ← List.append_assoc f'.address] at ht'
  obtain ⟨d2, ht'⟩ := split_line ha ha' ht'
  replace ht' := List.append_cancel_left ht'
  rw [← List.append_assoc f.statement, ← List.append_assoc f'.statement] at ht'
  obtain ⟨d3, ht'⟩ := split_line hs hs' ht'
  replace ht' := List.append_cancel_left (List.append_cancel_left ht')
  rw [← List.append_assoc f.uri, ← List.append_assoc f'.uri] at ht'
  obtain ⟨d4, ht'⟩ := split_line hu hu' ht'
  replace ht' := List.append_cancel_left ht'
  rw [← List.append_assoc v, ← List.append_assoc v'] at ht'
  obtain ⟨d5, ht'⟩ := split_line (digits_oneLine hv.2.1) (digits_oneLine hv'.2.1) ht'
  replace ht' := List.append_cancel_left ht'
  rw [← List.append_assoc c, ← List.append_assoc c'] at ht'
  obtain ⟨d6, ht'⟩ := split_line (digits_oneLine hc.2.1) (digits_oneLine hc'.2.1) ht'
  replace ht' := List.append_cancel_left ht'
  rw [← List.append_assoc f.nonce, ← List.append_assoc f'.nonce] at ht'
  obtain ⟨d7, ht'⟩ := split_line hn hn' ht'
  replace ht' := List.append_cancel_left ht'
  rw [← List.append_assoc i, ← List.append_assoc i'] at ht'
  obtain ⟨d8, ht'⟩ := split_line (instant_oneLine hi) (instant_oneLine hi') ht'
  have e9 := List.append_cancel_left ht'
  clear ht'
  subst e9; subst d8; subst d6; subst d5
  have r1 := List.append_cancel_right d1
  have r2 := instant_unique hi hi'
  have r3 := instant_unique he he'
  have r4 : f.version = f'.version := hv.2.2.2.symm.trans hv'.2.2.2
  have r5 : f.chainId = f'.chainId := hc.2.2.2.symm.trans hc'.2.2.2
  cases f; cases f'
  simp_all

/-- Same domain, statement, uri, version and chain id; addresses of equal length; one-line nonces. -/
theorem siweText_unique_config {f f' : Shown} {txt : Bytes} (h : IsSiweText f txt) (h' : IsSiweText f' txt)
    (hd : f.domain = f'.domain) (ha : f.address.length = f'.address.length)
    (hs : f.statement = f'.statement) (hu : f.uri = f'.uri) (hv0 : f.version = f'.version)
    (hc0 : f.chainId = f'.chainId) (hn : OneLine f.nonce) (hn' : OneLine f'.nonce) : f = f' := by
  obtain ⟨v, c, i, e, hv, hc, hi, he, ht⟩ := h
  obtain ⟨v', c', i', e', hv', hc', hi', he', ht'⟩ := h'
  rw [ht] at ht'
  clear ht
  have ev : v = v' := isDecimal_unique hv (hv0 ▸ hv')
  have ec : c = c' := isDecimal_unique hc (hc0 ▸ hc')
  subst ev ec
  rw [hd] at ht'
  simp only [List.append_assoc] at ht'
  replace ht' := List.append_cancel_left (List.append_cancel_left ht')
  obtain ⟨d2, ht'⟩ := append_len_inj ht' ha
  rw [hs, hu] at ht'
  replace ht' := List.append_cancel_left (List.append_cancel_left (List.append_cancel_left
    (List.append_cancel_left (List.append_cancel_left (List.append_cancel_left (List.append_cancel_left
    (List.append_cancel_left (List.append_cancel_left (List.append_cancel_left (List.append_cancel_left
    (List.append_cancel_left ht')))))))))))
  replace ht' := List.append_cancel_left ht'
  rw [← List.append_assoc f.nonce, ← List.append_assoc f'.nonce] at ht'
  obtain ⟨d7, ht'⟩ := split_line hn hn' ht'
  replace ht' := List.append_cancel_left ht'
  rw [← List.append_assoc i, ← List.append_assoc i'] at ht'
  obtain ⟨d8, ht'⟩ := split_line (instant_oneLine hi) (instant_oneLine hi') ht'
  have e9 := List.append_cancel_left ht'
  clear ht'
  subst e9; subst d8
  have r2 := instant_unique hi hi'
  have r3 := instant_unique he he'
  cases f; cases f'
  simp_all

theorem hexDigits_oneLine {ds : Bytes} (h : ∀ c ∈ ds, isHexDigit c = true) : OneLine ds := by
  intro hc
  exact absurd (h 10 hc) (by decide)

theorem address_oneLine {k : Bytes → Hash} {s : Bytes} (h : IsAddress k s) : OneLine s := by
  obtain ⟨ds, rfl, _, hh, _⟩ := h
  exact oneLine_append.mpr ⟨by unfold OneLine; decide, hexDigits_oneLine hh⟩

theorem address_length {k : Bytes → Hash} {s : Bytes} (h : IsAddress k s) : s.length = 42 := by
  obtain ⟨ds, rfl, hl, _⟩ := h
  simp [hl]

theorem mapKeyInput_inj {a a' n n' : Bytes} (ha : a.length = 20) (ha' : a'.length = 20)
    (h : mapKeyInput a n = mapKeyInput a' n') : a = a' ∧ n = n' := by
  unfold mapKeyInput at h
  simp only [List.cons_append, List.cons.injEq] at h
  obtain ⟨h1, h2⟩ := append_len_inj h.2 (ha.trans ha'.symm)
  simp only [List.cons.injEq] at h2
  exact ⟨h1, h2.2⟩

theorem address_asBytes_inj {k : Bytes → Hash} {s s' bs : Bytes} (h : IsAddress k s) (h' : IsAddress k s')
    (hb : EthAddress.asBytes ⟨s⟩ = .ok bs) (hb' : EthAddress.asBytes ⟨s'⟩ = .ok bs) : s = s' := by
  obtain ⟨ds, b1, e1, _, s1, l1, a1, _⟩ := isAddress_bytes h
  obtain ⟨ds', b2, e2, _, s2, l2, a2, _⟩ := isAddress_bytes h'
  rw [hb] at a1; rw [hb'] at a2
  cases a1; cases a2
  rw [← addressOf_of_address h e1 s1 l1, ← addressOf_of_address h' e2 s2 l2]

/-- The key of a valid address never panics and is the hash of the encoded pair. -/
theorem mapHash_ok (ε : Type) {E : Env} {a : EthAddress} (h : IsAddress E.keccak a.str) (nonce : Bytes) :
    ∃ bs, EthAddress.asBytes a = .ok bs ∧ bs.length = 20 ∧
      (siweMessageMapHash E a nonce : Res ε Hash) = .ok (E.sha256 (mapKeyInput bs nonce)) := by
  obtain ⟨ds, bs, _, _, _, l1, a1, _⟩ := isAddress_bytes h
  refine ⟨bs, a1, l1, ?_⟩
  have : EthAddress.asBytes a = .ok bs := a1
  simp [siweMessageMapHash, this, hashBytes]

end Siwe
