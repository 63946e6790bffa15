import Verif.Lemmas.Rfc3986
import Verif.Props.UrlExact
/-
C54 and C95 with the authorities and URIs of RFC 3986.
-/
namespace Siwe
open Spec Rfc3986

/-! ### C54 -/

theorem wellFormed_parts {E : Env} {f : Shown} {v c i e : Bytes} {n t t' : Nat} (hA : IsAddress E.keccak f.address)
    (hv : IsDecimal 1 v) (hc : IsDecimal n c) (hn1 : f.nonce.length = 20)
    (hn2 : ∀ c ∈ f.nonce, isHexDigit c = true ∧ isUpperLetter c = false) (hi : IsInstant t i) (he : IsInstant t' e)
    (sch : Option Bytes) (d : Bytes) (hsch : ∀ x, sch = some x → Scheme x) (hd : Authority d) (hu : Uri f.uri)
    (hst : ∀ c ∈ f.statement, isStatementChar c = true) :
    Parts.WellFormed Authority Uri { partsOf f v c i e with scheme := sch, domain := d } := by
  constructor
  · exact hsch
  · exact hd
  · obtain ⟨ds, g1, g2, g3, _⟩ := hA
    exact ⟨ds, g1, g2, g3⟩
  · intro x hx; cases hx; exact hst
  · exact hu
  · exact decimal_one hv
  · exact ⟨hc.1, fun c hc' => (isDigit_iff c).mpr (hc.2.1 c hc')⟩
  · have key : ∀ c : UInt8, isHexDigit c = true ∧ isUpperLetter c = false → isAlpha c = true ∨ isDigit c = true := by
      apply u8_all; decide +kernel
    exact ⟨by show 8 ≤ f.nonce.length; omega, fun c hc => key c (hn2 c hc)⟩
  · exact dateTime_of_instant hi
  · intro x hx; cases hx; exact dateTime_of_instant he
  · intro x hx; cases hx
  · intro x hx; cases hx
  · intro x hx; cases hx

theorem text_parts (f : Shown) (v c i e : Bytes) (sch : Option Bytes) (d : Bytes) (h : optPart [] sch (ascii "://") ++ d = f.domain) :
    Parts.text { partsOf f v c i e with scheme := sch, domain := d } = (partsOf f v c i e).text := by
  unfold Parts.text
  simp only [partsOf]
  rw [h]
  rfl

/-- C54, exactly, with the authorities and URIs of RFC 3986: when the configured domain and URI are one line each, the texts of
`siwe_prepare_login` conform to EIP-4361 if and only if the configured domain is an authority, possibly behind a scheme and `://`, the
configured URI is a URI, and the configured statement is not empty and has only the characters the EIP allows. -/
theorem C54_rfc3986 (E : Env) (h : History) (now : UInt64) (addr : Bytes)
    (r : PrepareLoginOkResponse) (hr : (step (stateAfter E h) now (.prepareLogin addr)).2 = .prepared r) :
    ∃ s, (stateAfter E h).lib.settings = some s ∧
      ((10 : UInt8) ∉ s.domain → (10 : UInt8) ∉ s.uri →
        (Conforms Authority Uri r.siweMessage ↔
          (Authority s.domain ∨ ∃ scheme a, s.domain = scheme ++ ascii "://" ++ a ∧ Scheme scheme ∧ Authority a) ∧
          Uri s.uri ∧ s.statement ≠ [] ∧ ∀ c ∈ s.statement, isStatementChar c = true)) := by
  have hA := ((C11_reply (stateAfter E h) now addr).1.mp ⟨r, hr⟩).1
  obtain ⟨s, hs, ⟨v, c, i, e, hv, hc, hi, he, ht⟩, hn1, hn2⟩ := C11_reply_text _ now addr r hr
  refine ⟨s, hs, fun g1 g2 => ⟨?_, ?_⟩⟩
  · rintro ⟨p, hp, hne⟩
    have hw := hp.1
    rw [ht, ← partsOf_text] at hp
    have hst : OneLine s.statement :=
      (inv_stateAfter E h).valid s hs (¬ 10 ∈ s.statement, .invalidStatement) (by simp [requirements])
    obtain ⟨d1, h2⟩ := reads_parts (fun b hb => (authority_plain b hb).1) uri_oneLine (by exact g1) (address_oneLine hA) (by exact hst)
      (by exact g2) (digits_oneLine hv.2.1) (digits_oneLine hc.2.1) (hexDigits_oneLine fun c hc => (hn2 c hc).1) (instant_oneLine hi)
      (instant_oneLine he) hp
    have hdom := hw.domain
    have hsch := hw.scheme
    have h3 := congrArg Parts.statement h2
    have h4 := congrArg Parts.uri h2
    refine ⟨?_, ?_, fun h0 => hne (h3.trans (congrArg some h0)), hw.statement _ h3⟩
    · have d1 : optPart [] p.scheme (ascii "://") ++ p.domain = s.domain := d1
      cases hsc : p.scheme with
      | none =>
        rw [hsc] at d1
        left
        rw [← d1]
        exact hdom
      | some x =>
        rw [hsc] at d1
        exact .inr ⟨x, p.domain, by rw [← d1]; simp [optPart], hsch x hsc, hdom⟩
    · have := hw.uri
      rw [h4] at this
      exact this
  · rintro ⟨hd, hu, h3, h4⟩
    rw [ht, ← partsOf_text]
    have key : ∀ (f : Shown), f.address = addr → f.statement = s.statement → f.uri = s.uri → f.nonce = r.nonce → f.domain = s.domain →
        ∀ sch d, (∀ x, sch = some x → Scheme x) → Authority d → optPart [] sch (ascii "://") ++ d = s.domain →
        Conforms Authority Uri (partsOf f v c i e).text := by
      intro f f1 f2 f3 f4 f5 sch d hsch ha hd
      refine ⟨_, ⟨wellFormed_parts (E := E) (by rw [f1]; exact hA) hv hc (by rw [f4]; exact hn1) (by rw [f4]; exact hn2) hi he sch d hsch ha
        (by rw [f3]; exact hu) (by rw [f2]; exact h4), text_parts f v c i e sch d (by rw [f5]; exact hd)⟩, fun h0 => h3 ?_⟩
      rw [← f2]
      exact Option.some.inj h0
    rcases hd with hd | ⟨scheme, a, hd, h5, h6⟩
    · exact key _ rfl rfl rfl rfl rfl none _ (fun _ h => nomatch h) hd rfl
    · exact key _ rfl rfl rfl rfl rfl (some scheme) a (fun x hx => by cases hx; exact h5) h6 (by rw [hd]; simp [optPart])

/-- C54: and then every reading shows what was configured and requested. -/
theorem C54_rfc3986_reads_back (E : Env) (h : History) (now : UInt64) (addr : Bytes)
    (r : PrepareLoginOkResponse) (hr : (step (stateAfter E h) now (.prepareLogin addr)).2 = .prepared r) :
    ∃ s, (stateAfter E h).lib.settings = some s ∧
      (Authority s.domain → Uri s.uri → ∀ p, Reads Authority Uri r.siweMessage p →
        p.scheme = none ∧ p.domain = s.domain ∧ p.address = addr ∧ p.statement = some s.statement ∧ p.uri = s.uri ∧
        p.version = ascii "1" ∧ IsDecimal s.chainId.toNat p.chainId ∧ p.nonce = r.nonce ∧
        IsInstant now.toNat p.issuedAt ∧
        (∃ e, p.expirationTime = some e ∧ IsInstant (min (now.toNat + s.signInExpiresIn.toNat) (2 ^ 64 - 1)) e) ∧
        p.notBefore = none ∧ p.requestId = none ∧ p.resources = none) :=
  C54_reads_back Authority Uri authority_plain uri_oneLine E h now addr r hr

/-! ### C95 -/

theorem hostText_chars {b : Bool} {s : Bytes} (h : ∀ c ∈ s, (isUnreserved c || isSubDelim c || isHex c || c == 37) = true) :
    HostText true b s b := by
  induction s with
  | nil => exact .nil
  | cons c s ih =>
    have key : ∀ c : UInt8, (isUnreserved c || isSubDelim c || isHex c || c == 37) = true →
        (c ≠ 47 ∧ c ≠ 63 ∧ c ≠ 35 ∧ c ≠ 92) ∧ c ≠ 64 ∧ c ≠ 58 ∧ c ≠ 91 ∧ c ≠ 93 := by apply u8_all; decide +kernel
    obtain ⟨⟨k1, k2, k3, k4⟩, k5, k6, k7, k8⟩ := key c (h c (by simp))
    refine .other ?_ k5 k6 k7 k8 (ih fun c hc => h c (by simp [hc]))
    rintro (h | h | h | ⟨_, h⟩)
    exacts [k1 h, k2 h, k3 h, k4 h]

theorem hostText_literal {s : Bytes} (h : ∀ c ∈ s, isLiteralChar c = true) : HostText true true (s ++ [93]) false := by
  induction s with
  | nil => exact .closing .nil
  | cons c s ih =>
    have ih := ih fun c hc => h c (by simp [hc])
    by_cases h58 : c = 58
    · subst h58; exact .colon ih
    · have key : ∀ c : UInt8, isLiteralChar c = true → c ≠ 58 →
          (c ≠ 47 ∧ c ≠ 63 ∧ c ≠ 35 ∧ c ≠ 92) ∧ c ≠ 64 ∧ c ≠ 58 ∧ c ≠ 91 ∧ c ≠ 93 := by apply u8_all; decide +kernel
      obtain ⟨⟨k1, k2, k3, k4⟩, k5, k6, k7, k8⟩ := key c (h c (by simp)) h58
      refine .other ?_ k5 k6 k7 k8 ih
      rintro (h | h | h | ⟨_, h⟩)
      exacts [k1 h, k2 h, k3 h, k4 h]

theorem hostText_host {s : Bytes} (h : Host s) : HostText true false s false := by
  rcases h with h | ⟨x, rfl, h⟩
  · exact hostText_chars (regName_all (q := fun c => isUnreserved c || isSubDelim c || isHex c || c == 37) (fun _ h => h) h)
  · refine .opening (hostText_literal fun c hc => ?_)
    rcases h with h | h
    · exact ip6_all h c hc
    · exact ipFuture_all h c hc

theorem withoutDropped_self {s : Bytes} (h : ∀ c ∈ s, 32 < c.toNat) : WithoutDropped s s := by
  induction s with
  | nil => exact .nil
  | cons c s ih =>
    refine .keep (fun hd => ?_) (ih fun c hc => h c (by simp [hc]))
    have := dropped_le hd
    have := h c (by simp)
    omega

theorem readAs_self {s : Bytes} (h : ∀ c ∈ s, 32 < c.toNat) : ReadAs s s :=
  ⟨s, [], by simp, by simp, fun c hc => h c (List.mem_of_getLast? hc), withoutDropped_self h⟩

theorem uriChar_gt : ∀ c : UInt8, isUriChar c = true → 32 < c.toNat := by apply u8_all; decide +kernel

/-- An authority of RFC 3986 and what may follow it have a host for a URL parser. -/
theorem hasHost_authority {host : Bytes → Option Bytes} {a tail : Bytes} (h : AuthorityAt (fun t => ∃ h, host t = some h ∧ h ≠ []) a)
    (ht : NoAuthority true tail) (hc : ∀ c ∈ tail, isUriChar c = true) : HasHost host (a ++ tail) := by
  obtain ⟨user, text, port, rfl, hu, hh, hne, ⟨h, h1, h2⟩, hp⟩ := h
  have hA : Authority (user ++ text ++ port) := ⟨user, text, port, rfl, hu, hh, hp.imp_right fun ⟨p, h1, h2, _⟩ => ⟨p, h1, h2⟩⟩
  have hall : ∀ c ∈ user ++ text ++ port ++ tail, 32 < c.toNat := by
    intro c hc'
    rcases List.mem_append.mp hc' with hc' | hc'
    · exact uriChar_gt c (by simp [isUriChar, authority_all hA c hc'])
    · exact uriChar_gt c (hc c hc')
  refine ⟨_, [], _, readAs_self hall, rfl, (fun _ h => nomatch h), user, text, false, port, tail, h, rfl, ?_, hne, hostText_host hh, h1, h2, ?_,
    fun _ => rfl, .inl ht⟩
  · rcases hu with rfl | ⟨u, rfl, hu⟩
    · exact .inl rfl
    · refine .inr ⟨u, rfl, fun c hc => ?_⟩
      have := userInfo_all (q := fun c => isUnreserved c || isSubDelim c || isHex c || c == 58 || c == 37) (fun _ h => h) hu c hc
      have key : ∀ c : UInt8, (isUnreserved c || isSubDelim c || isHex c || c == 58 || c == 37) = true →
        c ≠ 47 ∧ c ≠ 63 ∧ c ≠ 35 ∧ c ≠ 92 := by apply u8_all; decide +kernel
      obtain ⟨k1, k2, k3, k4⟩ := key c this
      rintro (h | h | h | ⟨_, h⟩)
      exacts [k1 h, k2 h, k3 h, k4 h]
  · rcases hp with rfl | ⟨p, rfl, hp, hn⟩
    · exact .inl rfl
    · refine .inr ⟨p, rfl, fun d hd => ?_, hn⟩
      have := (isDigit_iff d).mp (hp d hd)
      exact ⟨UInt8.le_iff_toNat_le.mp this.1, UInt8.le_iff_toNat_le.mp this.2⟩

/-- C95: every authority of RFC 3986 with a host that the host parser knows and a port up to 65535 is accepted as a domain. -/
theorem C95_rfc3986_domain (E : Env) (H : HostParser) (hE : E.urlParse = urlParse H) (s : Settings)
    (hs : s.scheme = ascii "http" ∨ s.scheme = ascii "https")
    (hd : AuthorityAt (fun t => ∃ h, H.special t = some h ∧ h ≠ []) s.domain) : DomainOk E s := by
  rw [C95_domain_exact E H hE s hs]
  have := hasHost_authority hd (.inl rfl) (fun _ h => nomatch h)
  rwa [List.append_nil] at this

/-- C95: every URI of RFC 3986 with the scheme `http` or `https` and such an authority is accepted as a URI. -/
theorem C95_rfc3986_uri (E : Env) (H : HostParser) (hE : E.urlParse = urlParse H) (s : Settings)
    (hd : WebUriAt (fun t => ∃ h, H.special t = some h ∧ h ≠ []) s.uri) : UriOk E s ∧ Uri s.uri := by
  obtain ⟨scheme, a, path, query, fragment, hu, hs, ha, hp, hp', hq, hf⟩ := hd
  have hA : Authority a := by
    obtain ⟨user, text, port, rfl, hu, hh, hne, _, hp⟩ := ha
    exact ⟨user, text, port, rfl, hu, hh, hp.imp_right fun ⟨p, h1, h2, _⟩ => ⟨p, h1, h2⟩⟩
  have hq' : ∀ c ∈ query, isUriChar c = true := by
    rcases hq with rfl | ⟨q, rfl, hq⟩
    · exact fun _ h => nomatch h
    · exact List.forall_mem_cons.mpr ⟨by decide, query_all hq⟩
  have hf' : ∀ c ∈ fragment, isUriChar c = true := by
    rcases hf with rfl | ⟨q, rfl, hq⟩
    · exact fun _ h => nomatch h
    · exact List.forall_mem_cons.mpr ⟨by decide, query_all hq⟩
  constructor
  · rw [C95_uri_exact E H hE s scheme (a ++ (path ++ query ++ fragment)) hs (by rw [hu]; simp)]
    refine hasHost_authority ha ?_ (List.forall_mem_append.mpr ⟨List.forall_mem_append.mpr ⟨path_all hp, hq'⟩, hf'⟩)
    rcases hp' with rfl | ⟨p, rfl⟩
    · rcases hq with rfl | ⟨q, rfl, _⟩
      · rcases hf with rfl | ⟨f, rfl, _⟩
        · exact .inl rfl
        · exact .inr ⟨35, f, rfl, .inr (.inr (.inl rfl))⟩
      · exact .inr ⟨63, _, rfl, .inr (.inl rfl)⟩
    · exact .inr ⟨47, _, rfl, .inl rfl⟩
  · refine ⟨scheme, 47 :: 47 :: a ++ path, query, fragment, ?_, ?_, .inl ⟨a, path, rfl, hA, hp, hp'⟩, hq, hf⟩
    · rw [hu, show ascii "://" = [58, 47, 47] by decide]; simp
    · rcases hs with rfl | rfl
      · exact ⟨⟨104, _, rfl, by decide⟩, by decide⟩
      · exact ⟨⟨104, _, rfl, by decide⟩, by decide⟩

/-- C95: so with an authority and a URI of RFC 3986 as its domain and URI, and otherwise in order, a configuration is accepted; and by
`C54_rfc3986` the messages then conform to EIP-4361. -/
theorem C95_rfc3986_accepted (E : Env) (H : HostParser) (hE : E.urlParse = urlParse H) (s : Settings)
    (hs : s.scheme = ascii "http" ∨ s.scheme = ascii "https")
    (hd : AuthorityAt (fun t => ∃ h, H.special t = some h ∧ h ≠ []) s.domain)
    (hu : WebUriAt (fun t => ∃ h, H.special t = some h ∧ h ≠ []) s.uri)
    (hsalt : s.salt ≠ [] ∧ ∀ c ∈ s.salt, 33 ≤ c.toNat ∧ c.toNat ≤ 126) (hc : s.chainId ≠ 0)
    (hst : ∀ c ∈ s.statement, isStatementChar c = true) (ht : s.signInExpiresIn ≠ 0 ∧ s.sessionExpiresIn ≠ 0)
    (hts : ∀ ts, s.targets = some ts → ts ≠ [] ∧ ts.length ≤ 1000 ∧ ts.Nodup) :
    SettingsBuilder.build E s = .ok s :=
  (C95_accepted_exactly E H hE s s).mpr ⟨rfl, hs, (C95_domain_exact E H hE s hs).mp (C95_rfc3986_domain E H hE s hs hd),
    (C95_uri_any_scheme E H hE s).mp (C95_rfc3986_uri E H hE s hu).1, hsalt, hc, fun h => absurd (hst _ h) (by decide), ht.1, ht.2, hts⟩

/-! ### examples -/

theorem Ex.regName {s : Bytes} (h : ∀ c ∈ s, (isUnreserved c || isSubDelim c) = true) : RegName s := by
  induction s with
  | nil => exact .nil
  | cons c s ih => exact .char (h c (by simp)) (ih fun c hc => h c (by simp [hc]))

/-- A domain with a port, and the loopback address. -/
example : AuthorityAt (fun t => ∃ h, Ex.hosts.special t = some h ∧ h ≠ []) (ascii "example.com:8080") ∧ Authority (ascii "[::1]") := by
  refine ⟨⟨[], ascii "example.com", ascii ":8080", by decide, .inl rfl, .inl (Ex.regName (by decide)), by decide, ⟨_, rfl, by decide⟩,
    .inr ⟨ascii "8080", by decide, by unfold Port; decide, by decide⟩⟩, [], ascii "[::1]", [], by decide, .inl rfl, ?_, .inl rfl⟩
  exact .inr ⟨ascii "::1", by decide, .inl (.inr ⟨[], ascii "1", 0, 1, by decide, .inl ⟨rfl, rfl⟩,
    .inr (.one ⟨by decide, by decide, by decide⟩), by decide⟩)⟩

/-- A URI with a path, a query and a fragment. -/
example : WebUriAt (fun t => ∃ h, Ex.hosts.special t = some h ∧ h ≠ []) (ascii "https://example.com/a%20b?x=/y#top") := by
  refine ⟨ascii "https", ascii "example.com", ascii "/a%20b", ascii "?x=/y", ascii "#top", by decide, .inr rfl,
    ⟨[], ascii "example.com", [], by decide, .inl rfl, .inl (Ex.regName (by decide)), by decide, ⟨_, rfl, by decide⟩, .inl rfl⟩, ?_,
    .inr ⟨ascii "a%20b", by decide⟩, .inr ⟨ascii "x=/y", by decide, ?_⟩, .inr ⟨ascii "top", by decide, ?_⟩⟩
  · rw [show ascii "/a%20b" = [47, 97, 37, 50, 48, 98] by decide]
    exact .char (by decide) (.char (by decide) (.pct (by decide) (by decide) (.char (by decide) .nil)))
  · rw [show ascii "x=/y" = [120, 61, 47, 121] by decide]
    exact .char (by decide) (.char (by decide) (.char (by decide) (.char (by decide) .nil)))
  · rw [show ascii "top" = [116, 111, 112] by decide]
    exact .char (by decide) (.char (by decide) (.char (by decide) .nil))

/-- The domain `http://a.com` is accepted, although it is no authority: the texts read as those of `a.com`, with the scheme `http`. -/
example : SettingsBuilder.build Ex.urlEnv (SettingsBuilder.new (ascii "http://a.com") (ascii "http://a.com") (ascii "s")) =
      .ok (SettingsBuilder.new (ascii "http://a.com") (ascii "http://a.com") (ascii "s")) ∧
    ¬Authority (ascii "http://a.com") ∧
    ∃ scheme a, ascii "http://a.com" = scheme ++ ascii "://" ++ a ∧ Scheme scheme ∧ Authority a := by
  refine ⟨by decide +kernel, fun h => (authority_plain _ h).2 (by decide), ascii "http", ascii "a.com", by decide,
    ⟨⟨104, _, rfl, by decide⟩, by decide⟩, [], ascii "a.com", [], by decide, .inl rfl, .inl (Ex.regName (by decide)), .inl rfl⟩

end Siwe
