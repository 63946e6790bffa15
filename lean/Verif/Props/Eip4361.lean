import Verif.Props.Message
import Verif.Lemmas.History
import Verif.Examples.Histories
import Verif.Spec.Eip4361
/- Property C54: the issued texts and the EIP-4361 grammar. -/
namespace Siwe
open Spec

theorem isDigit_iff (c : UInt8) : isDigit c = true ↔ 48 ≤ c ∧ c ≤ 57 := by simp [isDigit]

theorem dateTime_of_instant {t : Nat} {txt : Bytes} (h : IsInstant t txt) : IsDateTime txt := by
  obtain ⟨c, ⟨y, mo, d, hh, mi, s, frac, rfl, hy, hmo, hd, hhh, hmi, hs, hf⟩, _⟩ := h
  refine ⟨y, mo, d, hh, mi, s, frac, ascii "Z", rfl, ?_, hy.1, ?_, ?_, .inl rfl⟩
  · intro x hx
    simp only [List.mem_cons, List.not_mem_nil, or_false] at hx
    rcases hx with rfl | rfl | rfl | rfl | rfl | rfl <;> intro c hc <;> rw [isDigit_iff]
    exacts [hy.2.1 c hc, hmo.2.1 c hc, hd.2.1 c hc, hhh.2.1 c hc, hmi.2.1 c hc, hs.2.1 c hc]
  · intro x hx
    simp only [List.mem_cons, List.not_mem_nil, or_false] at hx
    rcases hx with rfl | rfl | rfl | rfl | rfl
    exacts [hmo.1, hd.1, hhh.1, hmi.1, hs.1]
  · rcases hf with ⟨rfl, _⟩ | ⟨w, n, ds, rfl, hw, _, h2, _⟩
    · exact .inl rfl
    · refine .inr ⟨ds, ?_, fun c hc => (isDigit_iff c).mpr (h2.2.1 c hc), rfl⟩
      rintro rfl
      have := h2.1
      simp at this
      omega

theorem oneLine_of_all {p : UInt8 → Bool} (hp : p 10 = false) {b : Bytes} (h : ∀ c ∈ b, p c = true) : OneLine b := by
  intro hc
  rw [h _ hc] at hp
  cases hp

theorem dateTime_oneLine {txt : Bytes} (h : IsDateTime txt) : OneLine txt := by
  obtain ⟨y, mo, d, hh, mi, s, frac, off, rfl, hd, _, _, hf, ho⟩ := h
  have hdg : ∀ x ∈ [y, mo, d, hh, mi, s], OneLine x := fun x hx => oneLine_of_all (p := isDigit) (by decide) (hd x hx)
  have hdash : OneLine (ascii "-") := by unfold OneLine; decide
  have hplus : OneLine (ascii "+") := by unfold OneLine; decide
  have hT : OneLine (ascii "T") := by unfold OneLine; decide
  have hcol : OneLine (ascii ":") := by unfold OneLine; decide
  have hZ : OneLine (ascii "Z") := by unfold OneLine; decide
  have hdot : OneLine (ascii ".") := by unfold OneLine; decide
  have hfr : OneLine frac := by
    rcases hf with rfl | ⟨ds, _, f2, rfl⟩
    · simp [OneLine]
    · exact oneLine_append.mpr ⟨hdot, oneLine_of_all (p := isDigit) (by decide) f2⟩
  have hof : OneLine off := by
    rcases ho with rfl | ⟨oh, om, _, _, h, ho⟩
    · exact hZ
    · have h1 : OneLine oh := oneLine_of_all (p := isDigit) (by decide) (fun c hc => h c (by simp [hc]))
      have h2 : OneLine om := oneLine_of_all (p := isDigit) (by decide) (fun c hc => h c (by simp [hc]))
      rcases ho with rfl | rfl <;> simp only [oneLine_append] <;> simp [*]
  simp only [List.mem_cons, List.not_mem_nil, or_false, forall_eq_or_imp, forall_eq] at hdg
  simp only [oneLine_append]
  simp [*]

/-- The parts of the text with the given fields. -/
def partsOf (f : Shown) (version chainId issued expires : Bytes) : Parts :=
  { scheme := none, domain := f.domain, address := f.address, statement := some f.statement, uri := f.uri,
    version := version, chainId := chainId, nonce := f.nonce, issuedAt := issued, expirationTime := some expires,
    notBefore := none, requestId := none, resources := none }

theorem lf : ascii "\n" = LF := by decide

theorem optPart_none (a b : Bytes) : optPart a none b = [] := rfl
theorem optPart_some (a x b : Bytes) : optPart a (some x) b = a ++ x ++ b := rfl

theorem wants_lf : ascii " wants you to sign in with your Ethereum account:\n" =
    ascii " wants you to sign in with your Ethereum account:" ++ LF := by decide
theorem lf_lf : ascii "\n\n" = LF ++ LF := by decide

theorem partsOf_text (f : Shown) (v c i e : Bytes) : (partsOf f v c i e).text =
    f.domain ++ ascii " wants you to sign in with your Ethereum account:\n"
      ++ f.address ++ ascii "\n\n"
      ++ f.statement ++ ascii "\n\n"
      ++ ascii "URI: " ++ f.uri ++ ascii "\n"
      ++ ascii "Version: " ++ v ++ ascii "\n"
      ++ ascii "Chain ID: " ++ c ++ ascii "\n"
      ++ ascii "Nonce: " ++ f.nonce ++ ascii "\n"
      ++ ascii "Issued At: " ++ i ++ ascii "\n"
      ++ ascii "Expiration Time: " ++ e := by
  unfold Parts.text
  simp only [partsOf, optPart_none, optPart_some, List.nil_append, List.append_nil, List.append_assoc]
  rw [wants_lf, lf_lf, lf]
  simp only [List.append_assoc]

theorem split_lf {a b x y : Bytes} (ha : OneLine a) (hb : OneLine b) (h : a ++ (LF ++ x) = b ++ (LF ++ y)) :
    a = b ∧ x = y := by
  apply split_line ha hb
  rw [lf, List.append_assoc, List.append_assoc]
  exact h

/-- A text that continues after a line differs from one that does not. -/
theorem split_end {a b x : Bytes} (hb : OneLine b) (h : a ++ (LF ++ x) = b) : False := by
  subst h
  apply hb
  simp [LF]

theorem hexString_oneLine {n : Nat} {s : Bytes} (h : HexString n s) : OneLine s := by
  obtain ⟨ds, rfl, _, hh⟩ := h
  exact oneLine_append.mpr ⟨by unfold OneLine; decide, hexDigits_oneLine hh⟩

/-- The optPart lines after `Issued At` of a reading of a text ending in one `Expiration Time` line. -/
theorem read_tail {i i' x : Bytes} {e nb rid : Option Bytes} {rest : Bytes} (hi : OneLine i) (hi' : OneLine i') (hx : OneLine x)
    (hr : rest = [] ∨ ∃ r, rest = LF ++ (ascii "Resources:" ++ r))
    (h : i' ++ (optPart (LF ++ ascii "Expiration Time: ") e [] ++ (optPart (LF ++ ascii "Not Before: ") nb [] ++
      (optPart (LF ++ ascii "Request ID: ") rid [] ++ rest))) = i ++ (LF ++ (ascii "Expiration Time: " ++ x))) :
    i' = i ∧ e = some x ∧ nb = none ∧ rid = none ∧ rest = [] := by
  have he : OneLine (ascii "Expiration Time: " ++ x) := oneLine_append.mpr ⟨by unfold OneLine; decide, hx⟩
  have hne : ∀ (a r : Bytes), a.head? ≠ some 69 → a ≠ [] → a ++ r = ascii "Expiration Time: " ++ x → False := by
    intro a r h1 h2 h3
    cases a with
    | nil => exact h2 rfl
    | cons c cs =>
      have : (ascii "Expiration Time: ") = 69 :: ascii "xpiration Time: " := by decide
      rw [this] at h3
      simp only [List.cons_append, List.cons.injEq] at h3
      exact h1 (by simp [h3.1])
  cases e with
  | some e =>
    simp only [optPart_none, optPart_some, List.append_nil, List.append_assoc] at h
    obtain ⟨h1, h2⟩ := split_lf hi' hi h
    have h2 := List.append_cancel_left h2
    cases nb with
    | some nb =>
      simp only [optPart_none, optPart_some, List.append_nil, List.append_assoc] at h2
      exact (split_end hx h2).elim
    | none =>
      cases rid with
      | some rid =>
        simp only [optPart_none, optPart_some, List.append_nil, List.nil_append, List.append_assoc] at h2
        exact (split_end hx h2).elim
      | none =>
        simp only [optPart_none, optPart_some, List.nil_append] at h2
        rcases hr with rfl | ⟨r, rfl⟩
        · simp only [List.append_nil] at h2
          exact ⟨h1, by rw [h2], rfl, rfl, rfl⟩
        · exact (split_end hx h2).elim
  | none =>
    cases nb with
    | some nb =>
      simp only [optPart_none, optPart_some, List.append_nil, List.nil_append, List.append_assoc] at h
      exact (hne _ _ (by decide) (by decide) (split_lf hi' hi h).2).elim
    | none =>
      cases rid with
      | some rid =>
        simp only [optPart_none, optPart_some, List.append_nil, List.nil_append, List.append_assoc] at h
        exact (hne _ _ (by decide) (by decide) (split_lf hi' hi h).2).elim
      | none =>
        simp only [optPart_none, optPart_some, List.nil_append] at h
        rcases hr with rfl | ⟨r, rfl⟩
        · rw [List.append_nil] at h
          exact (split_end hi' h.symm).elim
        · exact (hne _ _ (by decide) (by decide) (split_lf hi' hi h).2).elim

/-- What a reading of an issued text shows, up to a scheme that is read off the domain. -/
theorem reads_parts {authority isUri : Bytes → Prop} (ha : ∀ b, authority b → (10 : UInt8) ∉ b)
    (hu : ∀ b, isUri b → (10 : UInt8) ∉ b) {f : Shown} {v c i e : Bytes} (hfd : OneLine f.domain)
    (hfa : OneLine f.address) (hfs : OneLine f.statement) (hfu : OneLine f.uri) (hv : OneLine v) (hc : OneLine c)
    (hfn : OneLine f.nonce) (hi : OneLine i) (he : OneLine e) {p : Parts}
    (h : Reads authority isUri (partsOf f v c i e).text p) : optPart [] p.scheme (ascii "://") ++ p.domain = f.domain ∧
      p = { partsOf f v c i e with scheme := p.scheme, domain := p.domain } := by
  obtain ⟨w, h⟩ := h
  have o1 : OneLine (ascii " wants you to sign in with your Ethereum account:") := by unfold OneLine; decide
  have hsch : OneLine (optPart [] p.scheme (ascii "://")) := by
    cases hs : p.scheme with
    | none => simp [optPart_none, optPart_some, OneLine]
    | some s =>
      refine oneLine_append.mpr ⟨?_, by unfold OneLine; decide⟩
      rw [List.nil_append]
      intro h10
      have := (w.scheme s hs).2 10 h10
      revert this; decide
  unfold Parts.text at h
  simp only [partsOf, optPart_none, optPart_some, List.append_assoc, List.nil_append, List.append_nil] at h
  rw [← List.append_assoc p.domain, ← List.append_assoc, ← List.append_assoc f.domain] at h
  obtain ⟨d1, h⟩ := split_lf (oneLine_append.mpr ⟨hsch, oneLine_append.mpr ⟨ha _ w.domain, o1⟩⟩)
    (oneLine_append.mpr ⟨hfd, o1⟩) h
  rw [← List.append_assoc] at d1
  have d1 := List.append_cancel_right d1
  obtain ⟨d2, h⟩ := split_lf (hexString_oneLine w.address) hfa h
  have h := List.append_cancel_left h
  have hstm : ∀ r r' : Bytes, (optPart [] p.statement LF ++ (LF ++ (ascii "URI: " ++ r)) =
      f.statement ++ (LF ++ (LF ++ (ascii "URI: " ++ r')))) → p.statement = some f.statement ∧ r = r' := by
    intro r r' hr
    cases hs : p.statement with
    | none =>
      rw [hs] at hr
      have := split_lf (a := []) (by simp [OneLine]) hfs hr
      exact absurd this.2 (by
        have : ascii "URI: " = 85 :: ascii "RI: " := by decide
        rw [this]; simp [LF])
    | some x =>
      rw [hs] at hr
      simp only [optPart_none, optPart_some, List.nil_append, List.append_assoc] at hr
      have hx : OneLine x := oneLine_of_all (p := isStatementChar) (by decide) (w.statement x hs)
      obtain ⟨g1, g2⟩ := split_lf hx hfs hr
      exact ⟨by rw [g1], List.append_cancel_left (List.append_cancel_left g2)⟩
  obtain ⟨d3, h⟩ := hstm _ _ h
  obtain ⟨d4, h⟩ := split_lf (hu _ w.uri) hfu h
  have h := List.append_cancel_left h
  obtain ⟨d5, h⟩ := split_lf (by rw [w.version]; unfold OneLine; decide) hv h
  have h := List.append_cancel_left h
  obtain ⟨d6, h⟩ := split_lf (oneLine_of_all (p := isDigit) (by decide) w.chainId.2) hc h
  have h := List.append_cancel_left h
  obtain ⟨d7, h⟩ := split_lf (oneLine_of_all (p := fun c => isAlpha c || isDigit c) (by decide)
    (fun c hc => by simpa using w.nonce.2 c hc)) hfn h
  have h := List.append_cancel_left h
  obtain ⟨d8, d9, d10, d11, d12⟩ := read_tail hi (dateTime_oneLine w.issuedAt) he (by
    cases p.resources with
    | none => exact .inl rfl
    | some rs => exact .inr ⟨(rs.map (fun r => LF ++ ascii "- " ++ r)).flatten, by simp only [List.append_assoc]⟩) h
  have hre : p.resources = none := by
    cases hs : p.resources with
    | none => rfl
    | some s =>
      rw [hs] at d12
      simp [LF] at d12
  refine ⟨d1, ?_⟩
  cases p
  simp only at *
  subst d2 d3 d4 d5 d6 d7 d8 d9 d10 d11 hre
  rfl

theorem reads_unique {authority isUri : Bytes → Prop} (ha : ∀ b, authority b → (10 : UInt8) ∉ b ∧ (47 : UInt8) ∉ b)
    (hu : ∀ b, isUri b → (10 : UInt8) ∉ b) {f : Shown} {v c i e : Bytes} (hfd : (10 : UInt8) ∉ f.domain ∧ (47 : UInt8) ∉ f.domain)
    (hfa : OneLine f.address) (hfs : OneLine f.statement) (hfu : OneLine f.uri) (hv : OneLine v) (hc : OneLine c)
    (hfn : OneLine f.nonce) (hi : OneLine i) (he : OneLine e) {p : Parts}
    (h : Reads authority isUri (partsOf f v c i e).text p) : p = partsOf f v c i e := by
  obtain ⟨d1, h2⟩ := reads_parts (fun b hb => (ha b hb).1) hu hfd.1 hfa hfs hfu hv hc hfn hi he h
  have hsc : p.scheme = none := by
    cases hs : p.scheme with
    | none => rfl
    | some s =>
      exfalso
      apply hfd.2
      rw [← d1, hs]
      have : (47 : UInt8) ∈ ascii "://" := by decide
      simp [optPart_none, optPart_some, this]
  rw [hsc] at d1 h2
  simp only [optPart_none, List.nil_append] at d1
  rw [h2, d1]
  rfl

theorem decimal_one {ds : Bytes} (h : IsDecimal 1 ds) : ds = ascii "1" :=
  isDecimal_unique h ⟨by decide, by decide, by decide, by decide⟩

/-- C54, partial: the text returned by `siwe_prepare_login` conforms to EIP-4361, with a checksummed address, when the
configured domain and URI are an RFC 3986 authority and URI and the configured statement is a non-empty statement of the EIP.
(Missing: the settings check does not ensure these conditions, see `C54_not_always`.) -/
theorem C54_conforms_partial (authority isUri : Bytes → Prop) (E : Env) (h : History) (now : UInt64) (addr : Bytes)
    (r : PrepareLoginOkResponse) (hr : (step (stateAfter E h) now (.prepareLogin addr)).2 = .prepared r) :
    IsAddress E.keccak addr ∧ ∃ s, (stateAfter E h).lib.settings = some s ∧
      (authority s.domain → isUri s.uri → s.statement ≠ [] → (∀ c ∈ s.statement, isStatementChar c = true) →
        Conforms authority isUri r.siweMessage) := by
  have hA := ((C11_reply (stateAfter E h) now addr).1.mp ⟨r, hr⟩).1
  refine ⟨hA, ?_⟩
  obtain ⟨s, hs, ⟨v, c, i, e, hv, hc, hi, he, ht⟩, hn1, hn2⟩ := C11_reply_text _ now addr r hr
  refine ⟨s, hs, fun h1 h2 h3 h4 => ⟨_, ⟨?_, (partsOf_text _ v c i e).trans ht.symm⟩, ?_⟩⟩
  · constructor
    · intro s hs; cases hs
    · exact h1
    · obtain ⟨ds, g1, g2, g3, _⟩ := hA
      exact ⟨ds, g1, g2, g3⟩
    · intro x hx; cases hx; exact h4
    · exact h2
    · exact decimal_one hv
    · exact ⟨hc.1, fun c hc' => (isDigit_iff c).mpr (hc.2.1 c hc')⟩
    · refine ⟨by show 8 ≤ r.nonce.length; omega, fun c hc => ?_⟩
      have key : ∀ c : UInt8, isHexDigit c = true ∧ isUpperLetter c = false → isAlpha c = true ∨ isDigit c = true := by
        apply u8_all; decide +kernel
      exact key c (hn2 c hc)
    · exact dateTime_of_instant hi
    · intro x hx; cases hx; exact dateTime_of_instant he
    · intro x hx; cases hx
    · intro x hx; cases hx
    · intro x hx; cases hx
  · intro hx
    exact h3 (Option.some.inj hx)

/-- C54: whoever reads the text returned by `siwe_prepare_login` as an EIP-4361 message reads exactly the configured domain,
statement, URI and chain id, the requested address, the returned nonce, the current time and the time of expiry, version 1, and
nothing else: no scheme, not-before time, request id or resources.  (Every authority and URI is one line, and an authority
contains no slash.) -/
theorem C54_reads_back (authority isUri : Bytes → Prop) (ha : ∀ b, authority b → (10 : UInt8) ∉ b ∧ (47 : UInt8) ∉ b)
    (hu : ∀ b, isUri b → (10 : UInt8) ∉ b) (E : Env) (h : History) (now : UInt64) (addr : Bytes)
    (r : PrepareLoginOkResponse) (hr : (step (stateAfter E h) now (.prepareLogin addr)).2 = .prepared r) :
    ∃ s, (stateAfter E h).lib.settings = some s ∧
      (authority s.domain → isUri s.uri → ∀ p, Reads authority isUri r.siweMessage p →
        p.scheme = none ∧ p.domain = s.domain ∧ p.address = addr ∧ p.statement = some s.statement ∧ p.uri = s.uri ∧
        p.version = ascii "1" ∧ IsDecimal s.chainId.toNat p.chainId ∧ p.nonce = r.nonce ∧
        IsInstant now.toNat p.issuedAt ∧
        (∃ e, p.expirationTime = some e ∧ IsInstant (min (now.toNat + s.signInExpiresIn.toNat) (2 ^ 64 - 1)) e) ∧
        p.notBefore = none ∧ p.requestId = none ∧ p.resources = none) := by
  have hA := ((C11_reply (stateAfter E h) now addr).1.mp ⟨r, hr⟩).1
  obtain ⟨s, hs, ⟨v, c, i, e, hv, hc, hi, he, ht⟩, hn1, hn2⟩ := C11_reply_text _ now addr r hr
  refine ⟨s, hs, fun h1 h2 p hp => ?_⟩
  rw [ht, ← partsOf_text] at hp
  have hst : OneLine s.statement :=
    (inv_stateAfter E h).valid s hs (¬ 10 ∈ s.statement, .invalidStatement) (by simp [requirements])
  have := reads_unique ha hu (ha _ h1) (address_oneLine hA) hst (hu _ h2) (digits_oneLine hv.2.1) (digits_oneLine hc.2.1)
    (hexDigits_oneLine fun c hc => (hn2 c hc).1) (instant_oneLine hi) (instant_oneLine he) hp
  subst this
  exact ⟨rfl, rfl, rfl, rfl, rfl, decimal_one hv, hc, rfl, hi, ⟨e, rfl, he⟩, rfl, rfl, rfl⟩

/-- C54, exactly: when the configured domain and URI are one line and the domain has no slash, the texts of `siwe_prepare_login`
conform to EIP-4361 if and only if the configured domain is an authority, the URI a URI, and the statement a non-empty one of
the allowed characters. -/
theorem C54_conforms_iff (authority isUri : Bytes → Prop) (ha : ∀ b, authority b → (10 : UInt8) ∉ b ∧ (47 : UInt8) ∉ b)
    (hu : ∀ b, isUri b → (10 : UInt8) ∉ b) (E : Env) (h : History) (now : UInt64) (addr : Bytes)
    (r : PrepareLoginOkResponse) (hr : (step (stateAfter E h) now (.prepareLogin addr)).2 = .prepared r) :
    ∃ s, (stateAfter E h).lib.settings = some s ∧
      ((10 : UInt8) ∉ s.domain → (47 : UInt8) ∉ s.domain → (10 : UInt8) ∉ s.uri →
        (Conforms authority isUri r.siweMessage ↔
          authority s.domain ∧ isUri s.uri ∧ s.statement ≠ [] ∧ ∀ c ∈ s.statement, isStatementChar c = true)) := by
  obtain ⟨hA, s, hs, hconf⟩ := C54_conforms_partial authority isUri E h now addr r hr
  refine ⟨s, hs, fun g1 g2 g3 => ⟨?_, fun ⟨f1, f2, f3, f4⟩ => hconf f1 f2 f3 f4⟩⟩
  rintro ⟨p, hp, hne⟩
  obtain ⟨s', hs', ⟨v, c, i, e, hv, hc, hi, he, ht⟩, hn1, hn2⟩ := C11_reply_text _ now addr r hr
  rw [hs] at hs'; cases hs'
  have hw := hp.1
  rw [ht, ← partsOf_text] at hp
  have hst : OneLine s.statement :=
    (inv_stateAfter E h).valid s hs (¬ 10 ∈ s.statement, .invalidStatement) (by simp [requirements])
  have hu' : OneLine s.uri := g3
  have hd' : OneLine s.domain ∧ (47 : UInt8) ∉ s.domain := ⟨g1, g2⟩
  have := reads_unique ha hu (by exact hd') (address_oneLine hA) (by exact hst) (by exact hu') (digits_oneLine hv.2.1) (digits_oneLine hc.2.1)
    (hexDigits_oneLine fun c hc => (hn2 c hc).1) (instant_oneLine hi) (instant_oneLine he) hp
  subst this
  exact ⟨hw.domain, hw.uri, fun h0 => hne (congrArg some h0), hw.statement _ rfl⟩

/-- Installation with the given statement, and seeding. -/
def Ex.withStatement (x : Bytes) : History :=
  [(1, .install { Ex.input with statement := some x }), (2, .rngSeeded [1, 2, 3])]

/-- The settings then in force. -/
def Ex.statementSettings (x : Bytes) : Settings :=
  { SettingsBuilder.new (ascii "a.com") (ascii "http://a.com") (ascii "s") with statement := x }

theorem Ex.prepares {E : Env} {st : State E} (h : (match (step st 5 (.prepareLogin Ex.alice)).2 with
    | .prepared _ => true | _ => false) = true) : ∃ r, (step st 5 (.prepareLogin Ex.alice)).2 = .prepared r := by
  split at h
  · next r h' => exact ⟨r, h'⟩
  · cases h

/-- C54 does not hold without the conditions: the settings check accepts a statement with a character the EIP does not allow
(here `"`), and an empty statement, and the text issued then has no reading, or only one with an empty statement. -/
theorem C54_not_always (authority isUri : Bytes → Prop) (ha : ∀ b, authority b → (10 : UInt8) ∉ b ∧ (47 : UInt8) ∉ b)
    (hu : ∀ b, isUri b → (10 : UInt8) ∉ b) :
    (∃ (E : Env) (h : History) (now : UInt64) (addr : Bytes) (r : PrepareLoginOkResponse),
      (step (stateAfter E h) now (.prepareLogin addr)).2 = .prepared r ∧ ∀ p, ¬Reads authority isUri r.siweMessage p) ∧
    ∃ (E : Env) (h : History) (now : UInt64) (addr : Bytes) (r : PrepareLoginOkResponse),
      (step (stateAfter E h) now (.prepareLogin addr)).2 = .prepared r ∧ ¬Conforms authority isUri r.siweMessage := by
  have key : ∀ x : Bytes, OneLine x →
      (stateAfter Toy.env (Ex.withStatement x)).lib.settings = some (Ex.statementSettings x) →
      (∃ r, (step (stateAfter Toy.env (Ex.withStatement x)) 5 (.prepareLogin Ex.alice)).2 = .prepared r) →
      ∃ r, (step (stateAfter Toy.env (Ex.withStatement x)) 5 (.prepareLogin Ex.alice)).2 = .prepared r ∧
        ∀ p, Reads authority isUri r.siweMessage p → p.statement = some x := by
    rintro x hx hset ⟨r, hr⟩
    refine ⟨r, hr, fun p hp => ?_⟩
    have hA := ((C11_reply _ _ _).1.mp ⟨r, hr⟩).1
    obtain ⟨s, hs, ⟨v, c, i, e, hv, hc, hi, he, ht⟩, hn1, hn2⟩ := C11_reply_text _ _ _ r hr
    rw [hset] at hs
    cases hs
    rw [ht, ← partsOf_text] at hp
    have := reads_unique ha hu (by simp only [Ex.statementSettings, SettingsBuilder.new]; decide) (address_oneLine hA) hx
      (by unfold OneLine; simp only [Ex.statementSettings, SettingsBuilder.new]; decide) (digits_oneLine hv.2.1)
      (digits_oneLine hc.2.1) (hexDigits_oneLine fun c hc => (hn2 c hc).1) (instant_oneLine hi) (instant_oneLine he) hp
    subst this
    rfl
  constructor
  · obtain ⟨r, h1, h2⟩ := key (ascii "Say \"hi\"") (by unfold OneLine; decide) (by decide +kernel)
      (Ex.prepares (by decide +kernel))
    refine ⟨_, _, _, _, r, h1, fun p hp => ?_⟩
    have := hp.1.statement _ (h2 p hp) 34 (by decide)
    revert this; decide
  · obtain ⟨r, h1, h2⟩ := key [] (by simp [OneLine]) (by decide +kernel) (Ex.prepares (by decide +kernel))
    exact ⟨_, _, _, _, r, h1, fun ⟨p, hp, hne⟩ => hne (h2 p hp)⟩

/-- Non-vacuity: an instance of the two categories with the required laws, for which the default settings' text conforms. -/
def Ex.authority (b : Bytes) : Prop := ∀ c ∈ b, (isUnreserved c || c == 58) = true
def Ex.isUri (b : Bytes) : Prop := ∀ c ∈ b, (isUnreserved c || isReserved c || c == 37) = true

example : (∀ b, Ex.authority b → (10 : UInt8) ∉ b ∧ (47 : UInt8) ∉ b) ∧ (∀ b, Ex.isUri b → (10 : UInt8) ∉ b) ∧
    ∃ r, (step (stateAfter Toy.env (Ex.withStatement (ascii "Login to the app"))) 5 (.prepareLogin Ex.alice)).2 = .prepared r ∧
      Conforms Ex.authority Ex.isUri r.siweMessage := by
  refine ⟨fun b h => ⟨fun h' => absurd (h _ h') (by decide), fun h' => absurd (h _ h') (by decide)⟩,
    fun b h h' => absurd (h _ h') (by decide), ?_⟩
  obtain ⟨r, hr⟩ := Ex.prepares (st := stateAfter Toy.env (Ex.withStatement (ascii "Login to the app"))) (by decide +kernel)
  obtain ⟨_, s, hs, h⟩ := C54_conforms_partial Ex.authority Ex.isUri _ _ _ _ r hr
  have : (stateAfter Toy.env (Ex.withStatement (ascii "Login to the app"))).lib.settings =
    some (Ex.statementSettings (ascii "Login to the app")) := by decide +kernel
  rw [this] at hs
  cases hs
  refine ⟨r, hr, h ?_ ?_ ?_ ?_⟩
  · show ∀ c ∈ ascii "a.com", (isUnreserved c || c == 58) = true
    decide
  · show ∀ c ∈ ascii "http://a.com", (isUnreserved c || isReserved c || c == 37) = true
    decide
  · show ascii "Login to the app" ≠ []
    decide
  · show ∀ c ∈ ascii "Login to the app", isStatementChar c = true
    decide

end Siwe
