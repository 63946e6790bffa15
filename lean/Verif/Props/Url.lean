import Verif.Lemmas.Url
import Verif.Props.Settings
import Verif.Props.Message
/- Property C95: which domains and URIs the settings accept, with the URL parser the code uses. -/
namespace Siwe
open Spec

theorem parseScheme_http (t : Bytes) : parseScheme (ascii "http://" ++ t) = some (ascii "http", 47 :: 47 :: t) := rfl
theorem parseScheme_https (t : Bytes) : parseScheme (ascii "https://" ++ t) = some (ascii "https", 47 :: 47 :: t) := rfl

theorem urlInput_http (d : Bytes) :
    urlInput (ascii "http://" ++ d) = ascii "http://" ++ (trimEndUrl d).filter fun c => !urlSkips c := by
  have e : (ascii "http://" ++ d).dropWhile (fun c => decide (c ≤ 32)) = ascii "http://" ++ d := rfl
  have hl : ∀ c, (ascii "http://").getLast? = some c → 32 < c.toNat := by
    intro c hc
    have : (ascii "http://").getLast? = some 47 := by decide
    rw [this] at hc; cases hc; decide
  have hf : (ascii "http://").filter (fun c => !urlSkips c) = ascii "http://" := by decide
  unfold urlInput
  rw [trimUrl_eq, e, trimEndUrl_prefix d hl, List.filter_append, hf]

theorem urlInput_https (d : Bytes) :
    urlInput (ascii "https://" ++ d) = ascii "https://" ++ (trimEndUrl d).filter fun c => !urlSkips c := by
  have e : (ascii "https://" ++ d).dropWhile (fun c => decide (c ≤ 32)) = ascii "https://" ++ d := rfl
  have hl : ∀ c, (ascii "https://").getLast? = some c → 32 < c.toNat := by
    intro c hc
    have : (ascii "https://").getLast? = some 47 := by decide
    rw [this] at hc; cases hc; decide
  have hf : (ascii "https://").filter (fun c => !urlSkips c) = ascii "https://" := by decide
  unfold urlInput
  rw [trimUrl_eq, e, trimEndUrl_prefix d hl, List.filter_append, hf]

/-- what the parser makes of a web address -/
theorem urlParse_web (H : HostParser) (scheme d : Bytes) (hs : scheme = ascii "http" ∨ scheme = ascii "https") :
    urlParse H (scheme ++ ascii "://" ++ d) =
      (afterDoubleSlash H true (((trimEndUrl d).filter fun c => !urlSkips c).dropWhile fun c => c == 47 || c == 92)).map
        fun h => ⟨true, h⟩ := by
  have st1 : schemeType (ascii "http") = .specialNotFile := by decide
  have st2 : schemeType (ascii "https") = .specialNotFile := by decide
  have hd : ∀ t : Bytes, (47 :: 47 :: t).dropWhile (fun c : UInt8 => c == 47 || c == 92) = t.dropWhile fun c => c == 47 || c == 92 :=
    fun t => rfl
  rcases hs with rfl | rfl
  · have e : ascii "http" ++ ascii "://" = ascii "http://" := by decide
    unfold urlParse
    rw [e, urlInput_http, parseScheme_http]
    simp only [st1, hd]
  · have e : ascii "https" ++ ascii "://" = ascii "https://" := by decide
    unfold urlParse
    rw [e, urlInput_https, parseScheme_https]
    simp only [st2, hd]

theorem hasHost_iff (H : HostParser) (d : Bytes) :
    HasHost H.special d ↔
      ∃ h, afterDoubleSlash H true (((trimEndUrl d).filter fun c => !urlSkips c).dropWhile fun c => c == 47 || c == 92) = some (some h) := by
  rw [afterSlashes_iff]
  constructor
  · rintro ⟨t, sl, x, hr, rest⟩
    rw [readAs_iff] at hr
    subst hr
    exact ⟨sl, x, rest⟩
  · rintro ⟨sl, x, rest⟩
    exact ⟨_, sl, x, (readAs_iff _ _).mpr rfl, rest⟩

/-- the URL parser finds a host in a web address exactly if there is one -/
theorem urlParse_hasHost (H : HostParser) (scheme d : Bytes) (hs : scheme = ascii "http" ∨ scheme = ascii "https") :
    (∃ a host, urlParse H (scheme ++ ascii "://" ++ d) = some ⟨a, some host⟩) ↔ HasHost H.special d := by
  rw [urlParse_web H scheme d hs, hasHost_iff]
  generalize afterDoubleSlash H true _ = o
  constructor
  · rintro ⟨a, host, h⟩
    cases o with
    | none => simp at h
    | some x => simp at h; exact ⟨host, by rw [h.2]⟩
  · rintro ⟨h, rfl⟩
    exact ⟨true, h, rfl⟩

/-- C95: with the scheme `http` or `https`, a domain is accepted exactly if the web address made of it has a host. -/
theorem C95_domain_exact (E : Env) (H : HostParser) (hE : E.urlParse = urlParse H) (s : Settings)
    (hs : s.scheme = ascii "http" ∨ s.scheme = ascii "https") : DomainOk E s ↔ HasHost H.special s.domain := by
  unfold DomainOk
  rw [hE, urlParse_web H s.scheme s.domain hs, hasHost_iff]
  generalize afterDoubleSlash H true _ = o
  constructor
  · rintro ⟨host, h⟩
    cases o with
    | none => simp at h
    | some x => simp at h; exact ⟨host, by rw [h]⟩
  · rintro ⟨h, rfl⟩
    exact ⟨h, rfl⟩

/-- C95: a URI that is a web address is accepted exactly if it has a host. -/
theorem C95_uri_exact (E : Env) (H : HostParser) (hE : E.urlParse = urlParse H) (s : Settings) (scheme rest : Bytes)
    (hs : scheme = ascii "http" ∨ scheme = ascii "https") (hu : s.uri = scheme ++ ascii "://" ++ rest) :
    UriOk E s ↔ HasHost H.special rest := by
  unfold UriOk
  rw [hE, hu]
  exact urlParse_hasHost H scheme rest hs

/-- C95: with the scheme `http` or `https`, `build` does not panic (see C41). -/
theorem C95_web_never_panics (E : Env) (H : HostParser) (hE : E.urlParse = urlParse H) (s : Settings)
    (hs : s.scheme = ascii "http" ∨ s.scheme = ascii "https") : SettingsBuilder.build E s ≠ .panic := by
  intro h
  have hp := (C41_panics_iff E s).mp h
  unfold HostlessDomain at hp
  rw [hE, urlParse_web H s.scheme s.domain hs] at hp
  cases ho : afterDoubleSlash H true (((trimEndUrl s.domain).filter fun c => !urlSkips c).dropWhile fun c => c == 47 || c == 92) with
  | none => rw [ho] at hp; simp at hp
  | some x =>
    rw [ho] at hp
    simp at hp
    subst hp
    exact afterDoubleSlash_special_host H _ ho

theorem requirements_domain (E : Env) (H : HostParser) (hE : E.urlParse = urlParse H) (s : Settings) (a b : Bytes) (c : UInt8)
    (hc : Dropped c) : requirements E { s with domain := a ++ c :: b } = requirements E { s with domain := a ++ b } := by
  have h : DomainOk E { s with domain := a ++ c :: b } = DomainOk E { s with domain := a ++ b } := by
    unfold DomainOk
    simp only [hE]
    rw [← List.append_assoc, urlParse_dropped H hc, List.append_assoc]
  have hu : UriOk E { s with domain := a ++ c :: b } = UriOk E { s with domain := a ++ b } := rfl
  unfold requirements
  rw [h, hu]

theorem requirements_uri (E : Env) (H : HostParser) (hE : E.urlParse = urlParse H) (s : Settings) (a b : Bytes) (c : UInt8)
    (hc : Dropped c) : requirements E { s with uri := a ++ c :: b } = requirements E { s with uri := a ++ b } := by
  have h : DomainOk E { s with uri := a ++ c :: b } = DomainOk E { s with uri := a ++ b } := rfl
  have hu : UriOk E { s with uri := a ++ c :: b } = UriOk E { s with uri := a ++ b } := by
    unfold UriOk
    simp only [hE]
    rw [urlParse_dropped H hc]
  unfold requirements
  rw [h, hu]

theorem build_ok_iff (E : Env) (s : Settings) : SettingsBuilder.build E s = .ok s ↔ ∀ r ∈ requirements E s, r.1 := by
  rw [C40_accepts]; simp [ValidSettings]

/-- C95: tabs and line breaks in the domain or the URI do not matter to the checks, wherever they stand: settings with one more are
accepted exactly if those without it are.  (They are shown in the messages, see C10.) -/
theorem C95_line_breaks_ignored (E : Env) (H : HostParser) (hE : E.urlParse = urlParse H) (s : Settings) (a b : Bytes) (c : UInt8)
    (hc : c = 9 ∨ c = 10 ∨ c = 13) :
    (SettingsBuilder.build E { s with domain := a ++ c :: b } = .ok { s with domain := a ++ c :: b } ↔
      SettingsBuilder.build E { s with domain := a ++ b } = .ok { s with domain := a ++ b }) ∧
    (SettingsBuilder.build E { s with uri := a ++ c :: b } = .ok { s with uri := a ++ c :: b } ↔
      SettingsBuilder.build E { s with uri := a ++ b } = .ok { s with uri := a ++ b }) := by
  constructor
  · rw [build_ok_iff, build_ok_iff, requirements_domain E H hE s a b c hc]
  · rw [build_ok_iff, build_ok_iff, requirements_uri E H hE s a b c hc]

theorem not_skipped {c : UInt8} (h : 32 < c.toNat) : (!urlSkips c) = true := by
  have : urlSkips c = false := by
    cases hs : urlSkips c with
    | false => rfl
    | true => have := dropped_le ((urlSkips_iff c).mp hs); omega
  rw [this]; rfl

theorem delimiter_gt {c : UInt8} (h : Delimiter true c) : 32 < c.toNat := by
  rcases h with rfl | rfl | rfl | ⟨_, rfl⟩ <;> decide

theorem hasHost_anything (host : Bytes → Option Bytes) (text h : Bytes) (opened : Bool) (ht : HostText true false text opened)
    (hv : ∀ c ∈ text, 32 < c.toNat) (hne : text ≠ []) (hh : host text = some h) (hhn : h ≠ []) (c : UInt8) (hc : Delimiter true c) (x : Bytes) :
    HasHost host (text ++ c :: x) := by
  refine ⟨text ++ c :: (trimEndUrl x).filter (fun c => !urlSkips c), [], _, ?_, rfl, by simp, [], text, opened, [],
    c :: (trimEndUrl x).filter (fun c => !urlSkips c), h, by simp, .inl rfl, hne, ht, hh, hhn, .inl rfl, by simp, .inl (.inr ⟨c, _, rfl, hc⟩)⟩
  rw [readAs_iff]
  have e : text ++ c :: x = (text ++ [c]) ++ x := by simp
  have hl : ∀ y, (text ++ [c]).getLast? = some y → 32 < y.toNat := by
    intro y hy
    rw [List.getLast?_append] at hy
    simp at hy
    subst hy
    exact delimiter_gt hc
  have hf : text.filter (fun c => !urlSkips c) = text := List.filter_eq_self.mpr fun y hy => not_skipped (hv y hy)
  rw [e, trimEndUrl_prefix x hl, List.filter_append, List.filter_append, hf,
    List.filter_cons_of_pos (p := fun c => !urlSkips c) (not_skipped (delimiter_gt hc))]
  simp

/-- C95: behind a host and a `/`, `\`, `?` or `#`, a domain may contain anything at all. -/
theorem C95_anything_behind_the_host (E : Env) (H : HostParser) (hE : E.urlParse = urlParse H) (s : Settings)
    (hs : s.scheme = ascii "http" ∨ s.scheme = ascii "https") (text h : Bytes) (opened : Bool) (ht : HostText true false text opened)
    (hv : ∀ c ∈ text, 32 < c.toNat) (hne : text ≠ []) (hh : H.special text = some h) (hhn : h ≠ []) (c : UInt8) (hc : Delimiter true c)
    (x : Bytes) : DomainOk E { s with domain := text ++ c :: x } :=
  (C95_domain_exact E H hE { s with domain := text ++ c :: x } hs).mpr (hasHost_anything H.special text h opened ht hv hne hh hhn c hc x)

/-- C95: so the two configurations of C10, whose texts say the same for different accounts, are accepted (by any parser for which `d`, `u`
and `v` are hosts). -/
theorem C95_ambiguous_settings_accepted (E : Env) (H : HostParser) (hE : E.urlParse = urlParse H)
    (hd : ∃ h, h ≠ [] ∧ H.special (ascii "d") = some h) (hu : ∃ h, h ≠ [] ∧ H.special (ascii "u") = some h)
    (hv : ∃ h, h ≠ [] ∧ H.special (ascii "v") = some h) (a1 a2 : Bytes) :
    SettingsBuilder.build E (ambiguousA a2) = .ok (ambiguousA a2) ∧
    SettingsBuilder.build E (ambiguousB a1) = .ok (ambiguousB a1) := by
  apply C10_ambiguous_settings_accepted
  have key : ∀ (scheme x : Bytes) (l : UInt8), (scheme = ascii "http" ∨ scheme = ascii "https") → 97 ≤ l.toNat → l.toNat ≤ 122 →
      (∃ h, h ≠ [] ∧ H.special [l] = some h) → ∃ host, E.urlParse (scheme ++ ascii "://" ++ (l :: 47 :: x)) = some ⟨true, some host⟩ := by
    intro scheme x l hs h1 h2 ⟨h, hhn, hh⟩
    have ht : HostText true false [l] false := by
      refine .other ?_ ?_ ?_ ?_ ?_ .nil
      · rintro (rfl | rfl | rfl | ⟨_, rfl⟩) <;> exact absurd h1 (by decide)
      all_goals (rintro rfl; exact absurd h1 (by decide))
    have := hasHost_anything H.special [l] h false ht (by simp; omega) (by simp) hh hhn 47 (.inl rfl) x
    rw [hE, urlParse_web H scheme _ hs]
    obtain ⟨host, hho⟩ := (hasHost_iff H _).mp this
    exact ⟨host, by rw [show [l] ++ 47 :: x = l :: 47 :: x from rfl] at hho; rw [hho]; rfl⟩
  have es : ascii "https://" = ascii "https" ++ ascii "://" := by decide
  intro s hs
  simp only [List.mem_cons, List.not_mem_nil, or_false] at hs
  rcases hs with rfl | rfl | rfl | rfl
  · have : ascii "https://" ++ (ambiguousA a2).domain = ascii "https" ++ ascii "://" ++ (100 :: 47 :: ascii "x") := by
      rw [es]; rfl
    rw [this]; exact key _ _ _ (.inr rfl) (by decide) (by decide) hd
  · have : (ambiguousA a2).uri = ascii "http" ++ ascii "://" ++ (117 :: 47 :: (ascii " wants you to sign in with your Ethereum account:\n" ++ a2
      ++ ascii "\n\nhello\n\nURI: http://v/")) := rfl
    rw [this]; exact key _ _ _ (.inl rfl) (by decide) (by decide) hu
  · have : ascii "https://" ++ (ambiguousB a1).domain = ascii "https" ++ ascii "://" ++
        (100 :: 47 :: (ascii "x wants you to sign in with your Ethereum account:\n" ++ a1 ++ ascii "\n\nhi\n\nURI: http://u/")) := by
      rw [es]; rfl
    rw [this]; exact key _ _ _ (.inr rfl) (by decide) (by decide) hd
  · have : (ambiguousB a1).uri = ascii "http" ++ ascii "://" ++ (118 :: 47 :: []) := rfl
    rw [this]; exact key _ _ _ (.inl rfl) (by decide) (by decide) hv

theorem toLower_spec (c : UInt8) : toLower c = if 65 ≤ c.toNat ∧ c.toNat ≤ 90 then UInt8.ofNat (c.toNat + 32) else c := by
  revert c; apply u8_all; decide +kernel

theorem lowered_eq (s : Bytes) : lowered s = s.map toLower := by
  unfold lowered
  exact List.map_congr_left fun c _ => (toLower_spec c).symm

theorem isAsciiAlpha_spec (c : UInt8) (h : (65 ≤ c.toNat ∧ c.toNat ≤ 90) ∨ (97 ≤ c.toNat ∧ c.toNat ≤ 122)) : isAsciiAlpha c = true := by
  simp only [isAsciiAlpha, Bool.or_eq_true, Bool.and_eq_true, decide_eq_true_eq, UInt8.le_iff_toNat_le]
  exact h

theorem schemeName_chars {s : Bytes} (h : SchemeName s) : ∀ c ∈ s, isSchemeChar c = true ∧ 32 < c.toNat := by
  obtain ⟨c, r, rfl, hc, hr⟩ := h
  have key : ∀ c : UInt8, ((65 ≤ c.toNat ∧ c.toNat ≤ 90) ∨ (97 ≤ c.toNat ∧ c.toNat ≤ 122) ∨ (48 ≤ c.toNat ∧ c.toNat ≤ 57) ∨
      c = 43 ∨ c = 45 ∨ c = 46) → isSchemeChar c = true ∧ 32 < c.toNat := by
    apply u8_all; decide +kernel
  intro x hx
  rcases List.mem_cons.mp hx with rfl | hx
  · exact key x (by rcases hc with h | h <;> simp [h])
  · exact key x (hr x hx)

theorem schemeLoop_name (r : Bytes) : ∀ s : Bytes, (∀ c ∈ s, isSchemeChar c = true) → schemeLoop (s ++ 58 :: r) = some (lowered s, r) := by
  intro s
  rw [lowered_eq]
  induction s with
  | nil => intro _; rw [List.nil_append, schemeLoop, if_neg (by decide), if_pos rfl]; rfl
  | cons c s ih =>
    intro h
    rw [List.cons_append, schemeLoop, if_pos (h c List.mem_cons_self), ih fun x hx => h x (List.mem_cons_of_mem _ hx)]
    rfl

/-- C95: with any other URL scheme and an empty domain, `build` panics: the scheme is checked too late. (See C41.) -/
theorem C95_other_schemes_panic (E : Env) (H : HostParser) (hE : E.urlParse = urlParse H) (s : Settings) (hn : SchemeName s.scheme)
    (hw : ¬WebScheme s.scheme) (hd : s.domain = []) : SettingsBuilder.build E s = .panic := by
  rw [C41_panics_iff, HostlessDomain, hE, hd, List.append_nil]
  have hcs := schemeName_chars hn
  have e1 : urlInput (s.scheme ++ ascii "://") = s.scheme ++ ascii "://" := by
    have hall : ∀ c ∈ s.scheme ++ ascii "://", 32 < c.toNat := by
      intro c hc
      rcases List.mem_append.mp hc with hc | hc
      · exact (hcs c hc).2
      · have : ∀ c ∈ ascii "://", 32 < c.toNat := by decide
        exact this c hc
    have hdw : (s.scheme ++ ascii "://").dropWhile (fun c => decide (c ≤ 32)) = s.scheme ++ ascii "://" := by
      cases hx : s.scheme ++ ascii "://" with
      | nil => rfl
      | cons c r =>
        have := hall c (by rw [hx]; simp)
        exact List.dropWhile_cons_of_neg (by simp [UInt8.le_iff_toNat_le]; omega)
    unfold urlInput
    rw [trimUrl_eq, hdw]
    have := trimEndUrl_append (x := s.scheme ++ ascii "://") (y := [])
      (fun c hc => hall c (List.mem_of_getLast? hc)) (by simp)
    rw [List.append_nil] at this
    rw [this]
    exact List.filter_eq_self.mpr fun y hy => not_skipped (hall y hy)
  have e2 : parseScheme (s.scheme ++ ascii "://") = some (lowered s.scheme, [47, 47]) := by
    have hl := schemeLoop_name [47, 47] s.scheme (fun c hc => (hcs c hc).1)
    obtain ⟨c, r, hcr, hc, _⟩ := hn
    have ea : ascii "://" = [58, 47, 47] := by decide
    rw [ea]
    rw [hcr] at hl ⊢
    rw [List.cons_append, parseScheme, if_pos (isAsciiAlpha_spec c hc), ← List.cons_append, hl]
  have e3 : schemeType (lowered s.scheme) ≠ .specialNotFile := by
    unfold schemeType
    rw [if_neg]
    · split <;> simp
    · intro h
      apply hw
      unfold WebScheme
      simp only [List.mem_cons, List.not_mem_nil, or_false]
      exact h
  unfold urlParse
  rw [e1, e2]
  simp only
  cases ht : schemeType (lowered s.scheme) with
  | specialNotFile => exact absurd ht e3
  | file => rfl
  | notSpecial => rfl

/-- a parser for which visible ASCII texts are hosts -/
def Ex.hosts : HostParser where
  special t := if t.all (fun c => decide (32 < c) && decide (c < 127)) then some t else none
  other t := some t
  file t := some (some t)

/-- the toy canister with the URL parser -/
def Ex.urlEnv : Env := { Toy.env with urlParse := urlParse Ex.hosts }

/-- Non-vacuity: with user name, port and path, and with a line break; rejected without a host, with a bad port, with two ports; the default
configuration is accepted; the scheme `foo` panics, as does `file`. -/
example :
    DomainOk Ex.urlEnv (SettingsBuilder.new (ascii "//me:pw@exa\nmple.com:8080/a b\nc ") (ascii "https://example.com") (ascii "s")) ∧
    ¬DomainOk Ex.urlEnv (SettingsBuilder.new (ascii "/:80") [] []) ∧
    ¬DomainOk Ex.urlEnv (SettingsBuilder.new (ascii "example.com:65536") [] []) ∧
    ¬DomainOk Ex.urlEnv (SettingsBuilder.new (ascii "example.com:1:2") [] []) ∧
    SettingsBuilder.build Ex.urlEnv (SettingsBuilder.new (ascii "example.com") (ascii "https://example.com") (ascii "s")) =
      .ok (SettingsBuilder.new (ascii "example.com") (ascii "https://example.com") (ascii "s")) ∧
    SettingsBuilder.build Ex.urlEnv { SettingsBuilder.new [] [] [] with scheme := ascii "foo" } = .panic ∧
    SettingsBuilder.build Ex.urlEnv { SettingsBuilder.new [] [] [] with scheme := ascii "File" } = .panic := by
  refine ⟨⟨ascii "example.com", by decide +kernel⟩, ?_, ?_, ?_, by decide +kernel, by decide +kernel, by decide +kernel⟩
  · rintro ⟨h, hh⟩
    have : Ex.urlEnv.urlParse (ascii "https" ++ ascii "://" ++ ascii "/:80") = none := by decide +kernel
    rw [show Ex.urlEnv.urlParse (ascii "https" ++ ascii "://" ++ ascii "/:80") = _ from hh] at this
    cases this
  · rintro ⟨h, hh⟩
    have : Ex.urlEnv.urlParse (ascii "https" ++ ascii "://" ++ ascii "example.com:65536") = none := by decide +kernel
    rw [show Ex.urlEnv.urlParse (ascii "https" ++ ascii "://" ++ ascii "example.com:65536") = _ from hh] at this
    cases this
  · rintro ⟨h, hh⟩
    have : Ex.urlEnv.urlParse (ascii "https" ++ ascii "://" ++ ascii "example.com:1:2") = none := by decide +kernel
    rw [show Ex.urlEnv.urlParse (ascii "https" ++ ascii "://" ++ ascii "example.com:1:2") = _ from hh] at this
    cases this

/-- Non-vacuity: the hypotheses of the other statements. -/
example : SchemeName (ascii "foo") ∧ ¬WebScheme (ascii "foo") ∧ HostText true false (ascii "[::1]") false ∧
    (∃ h, h ≠ [] ∧ Ex.hosts.special (ascii "d") = some h) := by
  refine ⟨⟨102, [111, 111], by decide, by decide, by decide⟩, ?_, ?_, ascii "d", by decide, by decide⟩
  · unfold WebScheme; decide
  · rw [show ascii "[::1]" = [91, 58, 58, 49, 93] by decide]
    exact .opening (.colon (.colon (.other (by simp [Delimiter]) (by decide) (by decide) (by decide) (by decide) (.closing .nil))))

end Siwe
