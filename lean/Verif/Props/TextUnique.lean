import Verif.Props.Message
import Verif.Props.Nonces
/-
C10 with line breaks: the text determines the fields unless one configuration has them in the domain and one in the uri.
-/
namespace Siwe
open Spec

theorem split_last {a b x y : Bytes} (ha : OneLine a) (hb : OneLine b) (h : x ++ ascii "\n" ++ a = y ++ ascii "\n" ++ b) :
    x = y ∧ a = b := by
  have e : (ascii "\n").reverse = ascii "\n" := by decide
  have hr := congrArg List.reverse h
  simp only [List.reverse_append, e, ← List.append_assoc] at hr
  have r : ∀ {c : Bytes}, OneLine c → OneLine c.reverse := fun hc h10 => hc (List.mem_reverse.mp h10)
  obtain ⟨h1, h2⟩ := split_line (r ha) (r hb) hr
  exact ⟨List.reverse_injective h2, List.reverse_injective h1⟩

theorem split_field {a b x y : Bytes} (name : Bytes) (hn : OneLine name) (ha : OneLine a) (hb : OneLine b)
    (h : x ++ ascii "\n" ++ name ++ a = y ++ ascii "\n" ++ name ++ b) : x = y ∧ a = b := by
  rw [List.append_assoc, List.append_assoc _ name b] at h
  obtain ⟨h1, h2⟩ := split_last (oneLine_append.mpr ⟨hn, ha⟩) (oneLine_append.mpr ⟨hn, hb⟩) h
  exact ⟨h1, List.append_cancel_left h2⟩

/-- The part of the text before the version. -/
def textHead (f : Shown) : Bytes :=
  f.domain ++ ascii " wants you to sign in with your Ethereum account:\n" ++ f.address ++ ascii "\n\n" ++ f.statement ++ ascii "\n\n"
    ++ ascii "URI: " ++ f.uri

/-- The lines from the version on can be read off the end of any text. -/
theorem siweText_tail {f f' : Shown} {txt : Bytes} (h : IsSiweText f txt) (h' : IsSiweText f' txt) (hn : OneLine f.nonce)
    (hn' : OneLine f'.nonce) : textHead f = textHead f' ∧ f.version = f'.version ∧ f.chainId = f'.chainId ∧ f.nonce = f'.nonce ∧
      f.issuedAt = f'.issuedAt ∧ f.expirationTime = f'.expirationTime := by
  obtain ⟨v, c, i, e, hv, hc, hi, he, ht⟩ := h
  obtain ⟨v', c', i', e', hv', hc', hi', he', ht'⟩ := h'
  rw [ht] at ht'
  clear ht
  have o : OneLine (ascii "Expiration Time: ") ∧ OneLine (ascii "Issued At: ") ∧ OneLine (ascii "Nonce: ") ∧ OneLine (ascii "Chain ID: ") ∧
      OneLine (ascii "Version: ") := by unfold OneLine; decide +kernel
  have g9 := split_field (ascii "Expiration Time: ") o.1 (instant_oneLine he) (instant_oneLine he') ht'
  have g8 := split_field (ascii "Issued At: ") o.2.1 (instant_oneLine hi) (instant_oneLine hi') g9.1
  have g7 := split_field (ascii "Nonce: ") o.2.2.1 hn hn' g8.1
  have g6 := split_field (ascii "Chain ID: ") o.2.2.2.1 (digits_oneLine hc.2.1) (digits_oneLine hc'.2.1) g7.1
  have g5 := split_field (ascii "Version: ") o.2.2.2.2 (digits_oneLine hv.2.1) (digits_oneLine hv'.2.1) g6.1
  refine ⟨g5.1, ?_, ?_, g7.2, ?_, ?_⟩
  · rw [← hv.2.2.2, ← hv'.2.2.2, g5.2]
  · rw [← hc.2.2.2, ← hc'.2.2.2, g6.2]
  · exact instant_unique (g8.2 ▸ hi) hi'
  · exact instant_unique (g9.2 ▸ he) he'

theorem nn_split : ascii "\n\n" = ascii "\n" ++ ascii "\n" := by decide

theorem textHead_uris {f f' : Shown} (h : textHead f = textHead f') (ha : f.address.length = 42) (ha' : f'.address.length = 42)
    (hs : OneLine f.statement) (hs' : OneLine f'.statement) (hu : OneLine f.uri) (hu' : OneLine f'.uri) :
    f.domain = f'.domain ∧ f.address = f'.address ∧ f.statement = f'.statement ∧ f.uri = f'.uri := by
  unfold textHead at h
  rw [nn_split] at h
  simp only [← List.append_assoc] at h
  obtain ⟨h, d4⟩ := split_field _ (by unfold OneLine; decide +kernel) hu hu' h
  replace h := List.append_cancel_right h
  obtain ⟨h, d3⟩ := split_last hs hs' h
  replace h := List.append_cancel_right h
  obtain ⟨h, d2⟩ := List.append_inj' h (ha.trans ha'.symm)
  exact ⟨List.append_cancel_right h, d2, d3, d4⟩

theorem textHead_domains {f f' : Shown} (h : textHead f = textHead f') (ha : f.address.length = 42) (ha' : f'.address.length = 42)
    (hs : OneLine f.statement) (hs' : OneLine f'.statement) (hd : OneLine f.domain) (hd' : OneLine f'.domain) :
    f.domain = f'.domain ∧ f.address = f'.address ∧ f.statement = f'.statement ∧ f.uri = f'.uri := by
  have w1 : ascii " wants you to sign in with your Ethereum account:\n" =
    ascii " wants you to sign in with your Ethereum account:" ++ ascii "\n" := by decide
  have o1 : OneLine (ascii " wants you to sign in with your Ethereum account:") := by unfold OneLine; decide
  unfold textHead at h
  rw [w1, nn_split] at h
  simp only [List.append_assoc] at h
  rw [← List.append_assoc f.domain, ← List.append_assoc f'.domain, ← List.append_assoc, ← List.append_assoc (f'.domain ++ _)] at h
  obtain ⟨d1, h⟩ := split_line (oneLine_append.mpr ⟨hd, o1⟩) (oneLine_append.mpr ⟨hd', o1⟩) h
  obtain ⟨d2, h⟩ := append_len_inj h (ha.trans ha'.symm)
  replace h := List.append_cancel_left (List.append_cancel_left h)
  rw [← List.append_assoc f.statement, ← List.append_assoc f'.statement] at h
  obtain ⟨d3, h⟩ := split_line hs hs' h
  exact ⟨List.append_cancel_right d1, d2, d3, List.append_cancel_left (List.append_cancel_left h)⟩

theorem valid_statement {E : Env} {s : Settings} (h : ValidSettings E s) : OneLine s.statement :=
  h (¬ 10 ∈ s.statement, .invalidStatement) (by simp [requirements])

theorem oneLine_of_valid {E : Env} {b s : Settings} (h : SettingsBuilder.build E b = .ok s) : OneLine s.statement := by
  obtain ⟨hv, rfl⟩ := (C40_accepts E b s).mp h
  exact valid_statement hv

/-- C10: the texts of messages issued for accepted addresses under any two accepted configurations determine every displayed field if
both configurations have a domain of one line, or both a uri of one line; the other may have line breaks. What comes after the uri they
determine in any case. Missing: one configuration with line breaks in the domain and one with line breaks in the uri, for which it is false
(`C10_line_breaks_are_ambiguous`). -/
theorem C10_text_injective_partial (E : Env) (ε : Type) (b b' s s' : Settings) (hb : SettingsBuilder.build E b = .ok s)
    (hb' : SettingsBuilder.build E b' = .ok s') (a a' : EthAddress) (ha : EthAddress.new E a.str = .ok a)
    (ha' : EthAddress.new E a'.str = .ok a') (n n' : Bytes) (hn : ∀ c ∈ n, isHexDigit c = true) (hn' : ∀ c ∈ n', isHexDigit c = true)
    (t t' : UInt64) (txt : Bytes) (h : (SiweMessage.new s t a n).text (ε := ε) = .ok txt)
    (h' : (SiweMessage.new s' t' a' n').text (ε := ε) = .ok txt) :
    (s.chainId = s'.chainId ∧ n = n' ∧ t = t') ∧
      ((OneLine s.domain ∧ OneLine s'.domain) ∨ (OneLine s.uri ∧ OneLine s'.uri) →
        s.domain = s'.domain ∧ a = a' ∧ s.statement = s'.statement ∧ s.uri = s'.uri) := by
  obtain ⟨x, hx, sx⟩ := message_text_ok ε (SiweMessage.new s t a n)
  obtain ⟨y, hy, sy⟩ := message_text_ok ε (SiweMessage.new s' t' a' n')
  rw [h] at hx; rw [h'] at hy
  cases hx; cases hy
  obtain ⟨e0, _, e2, e3, e4, _⟩ := siweText_tail sx sy (hexDigits_oneLine hn) (hexDigits_oneLine hn')
  refine ⟨⟨UInt32.toNat_inj.mp e2, e3, UInt64.toNat_inj.mp e4⟩, fun hor => ?_⟩
  have l := address_length (isAddress_of_new ha).1
  have l' := address_length (isAddress_of_new ha').1
  have st := oneLine_of_valid hb
  have st' := oneLine_of_valid hb'
  obtain ⟨g1, g2, g3, g4⟩ := hor.elim (fun o => textHead_domains e0 l l' st st' o.1 o.2) (fun o => textHead_uris e0 l l' st st' o.1 o.2)
  exact ⟨g1, by cases a; cases a'; exact congrArg _ g2, g3, g4⟩

/-- C10: the same of any two canisters after any calls (or of one canister at two times): if they answer `siwe_prepare_login` with the same
text, then with the same nonce at the same time and under the same chain id; and, if both domains or both uris in force have one line,
for the same address and with the same domain, statement and uri. -/
theorem C10_issued_texts_partial (E E' : Env) (h h' : History) (now now' : UInt64) (addr addr' : Bytes) (r r' : PrepareLoginOkResponse)
    (hr : (step (stateAfter E h) now (.prepareLogin addr)).2 = .prepared r)
    (hr' : (step (stateAfter E' h') now' (.prepareLogin addr')).2 = .prepared r') (s s' : Settings) (p p' : ProviderSettings)
    (hs : InForce E (trace E h) s p) (hs' : InForce E' (trace E' h') s' p') (htxt : r.siweMessage = r'.siweMessage) :
    (s.chainId = s'.chainId ∧ r.nonce = r'.nonce ∧ now = now') ∧
      ((OneLine s.domain ∧ OneLine s'.domain) ∨ (OneLine s.uri ∧ OneLine s'.uri) →
        s.domain = s'.domain ∧ addr = addr' ∧ s.statement = s'.statement ∧ s.uri = s'.uri) := by
  have ha := C89_answer E h now addr
  have ha' := C89_answer E' h' now' addr'
  rw [hr] at ha; rw [hr'] at ha'
  cases ha with
  | prepared s1 p1 seed since text nonce g1 g2 g3 g4 g5 g6 =>
  cases ha' with
  | prepared s2 p2 seed' since' text' nonce' k1 k2 k3 k4 k5 k6 =>
  have q := (inForce_state hs).1
  have q' := (inForce_state hs').1
  rw [(inForce_state g2).1] at q
  rw [(inForce_state k2).1] at q'
  cases q; cases q'
  simp only at htxt
  subst htxt
  obtain ⟨e0, _, e2, e3, e4, _⟩ := siweText_tail g6 k6 (hexDigits_oneLine (spells_hex g4)) (hexDigits_oneLine (spells_hex k4))
  refine ⟨⟨UInt32.toNat_inj.mp e2, e3, UInt64.toNat_inj.mp e4⟩, fun hor => ?_⟩
  have st := valid_statement ((inv_stateAfter E h).valid s (inForce_state hs).1)
  have st' := valid_statement ((inv_stateAfter E' h').valid s' (inForce_state hs').1)
  exact hor.elim (fun o => textHead_domains e0 (address_length g1) (address_length k1) st st' o.1 o.2)
    (fun o => textHead_uris e0 (address_length g1) (address_length k1) st st' o.1 o.2)

/-- Non-vacuity: a configuration whose uri has line breaks is accepted, issues a text, and its domain has one line. -/
example : OneLine (ambiguousA Ex.alice).domain ∧ ¬OneLine (ambiguousA Ex.alice).uri ∧
    SettingsBuilder.build Toy.env (ambiguousA Ex.alice) = .ok (ambiguousA Ex.alice) ∧
    (∃ txt, (SiweMessage.new (ambiguousA Ex.alice) 5 ⟨Ex.alice⟩ (Ex.nonce 3)).text (ε := Empty) = .ok txt) ∧
    EthAddress.new Toy.env Ex.alice = .ok ⟨Ex.alice⟩ := by
  refine ⟨by unfold OneLine; decide +kernel, by unfold OneLine; decide +kernel, by decide +kernel, ?_, by decide +kernel⟩
  obtain ⟨x, hx, _⟩ := message_text_ok Empty (SiweMessage.new (ambiguousA Ex.alice) 5 ⟨Ex.alice⟩ (Ex.nonce 3))
  exact ⟨x, hx⟩

/-- ... and the example's canister issues messages. -/
example : (match (step (stateAfter Toy.env Ex.prepared) 151 (.prepareLogin Ex.alice)).2 with | .prepared _ => true | _ => false) = true ∧
    OneLine Ex.input.domain := by
  refine ⟨by decide +kernel, by unfold OneLine; decide +kernel⟩

end Siwe
