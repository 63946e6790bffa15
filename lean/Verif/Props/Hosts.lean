import Verif.Lemmas.Host
import Verif.Props.Rfc3986
/- Property C105: which hosts the settings accept, with the host parser the code uses. -/
namespace Siwe
open Spec
open Spec.Rfc3986 (AuthorityAt)

theorem hasWebHost_iff (idna : Bytes → Option Bytes) (d : Bytes) : HasHost (Host.parse idna) d ↔ HasWebHost idna d := by
  constructor
  · rintro ⟨t, slashes, x, h1, rfl, h2, user, text, opened, port, tail, h, rfl, h3, -, h4, h5, h6, h7, h8, h9⟩
    exact ⟨_, slashes, user, text, opened, port, tail, h1, rfl, h2, h3, h4, (Host.parse_nonempty idna text).1 ⟨h, h5, h6⟩, h7, h8, h9⟩
  · rintro ⟨_, slashes, user, text, opened, port, tail, h1, rfl, h2, h3, h4, h5, h7, h8, h9⟩
    obtain ⟨h, h6, h6'⟩ := (Host.parse_nonempty idna text).2 h5
    refine ⟨_, slashes, _, h1, rfl, h2, user, text, opened, port, tail, h, rfl, h3, ?_, h4, h6, h6', h7, h8, h9⟩
    rintro rfl
    rcases h5 with ⟨x, e, -⟩ | ⟨-, d, name, e1, e2, e3, -⟩
    · cases e
    · rw [Host.percentDecoded_iff] at e1
      subst e1
      rcases e2 with ⟨-, rfl⟩ | ⟨e2, -⟩
      · exact e3 rfl
      · refine e2 ⟨(fun _ h => nomatch h), fun ls hls l hl hx => ?_⟩
        rw [Host.labels_iff] at hls
        subst hls
        have : Host.splitDots (lowered []) = [[]] := rfl
        rw [show Host.percentDecode [] = [] from rfl, this] at hl
        simp only [List.mem_singleton] at hl
        subst hl
        have := hx.length_le
        exact absurd this (by decide)

theorem nameChar_plain (c : UInt8) (h : Host.nameChar c = true) :
    32 < c.toNat ∧ c ≠ 47 ∧ c ≠ 92 ∧ c ≠ 63 ∧ c ≠ 35 ∧ c ≠ 64 ∧ c ≠ 58 ∧ c ≠ 91 ∧ c ≠ 93 := by
  revert c; apply u8_all; decide +kernel

/-- A domain of letters, digits, hyphens and dots is all host. -/
theorem hasWebHost_name (idna : Bytes → Option Bytes) (d : Bytes) (h : ∀ c ∈ d, Host.nameChar c = true) :
    HasWebHost idna d ↔ WebHost idna d := by
  have plain := fun c hc => nameChar_plain c (h c hc)
  have hread : ReadAs d d := readAs_self fun c hc => (plain c hc).1
  constructor
  · rintro ⟨t, slashes, user, text, opened, port, tail, h1, e, h2, h3, h4, h5, h6, -, h8⟩
    have e' : d = t := ((readAs_iff _ _).1 hread).trans ((readAs_iff _ _).1 h1).symm
    subst e'
    have no : ∀ {c}, c ∈ slashes ++ (user ++ text ++ port ++ tail) → c ≠ 47 ∧ c ≠ 92 ∧ c ≠ 63 ∧ c ≠ 35 ∧ c ≠ 64 ∧ c ≠ 58 := by
      intro c hc
      rw [← e] at hc
      obtain ⟨-, a1, a2, a3, a4, a5, a6, -⟩ := plain c hc
      exact ⟨a1, a2, a3, a4, a5, a6⟩
    have hs : slashes = [] := by
      cases slashes with
      | nil => rfl
      | cons c r =>
        have := no (c := c) (by simp)
        rcases h2 c (by simp) with h | h
        · exact absurd h this.1
        · exact absurd h this.2.1
    have hu : user = [] := by
      rcases h3 with h | ⟨v, rfl, -⟩
      · exact h
      · exact absurd rfl (no (c := 64) (by simp)).2.2.2.2.1
    have hp : port = [] := by
      rcases h6 with h | ⟨v, rfl, -⟩
      · exact h
      · exact absurd rfl (no (c := 58) (by simp)).2.2.2.2.2
    have ht : tail = [] := by
      rcases h8 with (h | ⟨c, r, rfl, h⟩) | ⟨h, -⟩
      · exact h
      · have := no (c := c) (by simp)
        rcases h with h | h | h | ⟨-, h⟩
        · exact absurd h this.1
        · exact absurd h this.2.2.1
        · exact absurd h this.2.2.2.1
        · exact absurd h this.2.1
      · exact absurd hp h
    subst hs hu hp ht
    rw [e]
    simpa using h5
  · intro hw
    have ht : HostText true false d false := by
      clear hread hw h
      induction d with
      | nil => exact .nil
      | cons c d ih =>
        obtain ⟨-, a1, a2, a3, a4, a5, a6, a7, a8⟩ := plain c (by simp)
        refine .other ?_ a5 a6 a7 a8 (ih fun c hc => plain c (by simp [hc]))
        rintro (h | h | h | ⟨-, h⟩)
        exacts [a1 h, a3 h, a4 h, a2 h]
    exact ⟨d, [], [], d, false, [], [], hread, by simp, (fun _ h => nomatch h), .inl rfl, ht, hw, .inl rfl, (fun _ => rfl), .inl (.inl rfl)⟩

/-- C105: with the scheme `http` or `https`, a domain is accepted exactly if the web address made of it has a host as the URL standard
defines it: an IPv6 address in brackets, or a text that stands for a name without forbidden characters, which must be an IPv4 address if it
ends in a number. (What IDNA makes of names that are not plain ASCII is a parameter.) -/
theorem C105_domain_exact (E : Env) (idna : Bytes → Option Bytes) (file : Bytes → Option (Option Bytes))
    (hE : E.urlParse = urlParse (Host.parser idna file)) (s : Settings) (hs : s.scheme = ascii "http" ∨ s.scheme = ascii "https") :
    DomainOk E s ↔ HasWebHost idna s.domain := by
  rw [C95_domain_exact E _ hE s hs, ← hasWebHost_iff]
  rfl

/-- C105: the same for a URI that is a web address. -/
theorem C105_uri_exact (E : Env) (idna : Bytes → Option Bytes) (file : Bytes → Option (Option Bytes))
    (hE : E.urlParse = urlParse (Host.parser idna file)) (s : Settings) (scheme rest : Bytes)
    (hs : scheme = ascii "http" ∨ scheme = ascii "https") (hu : s.uri = scheme ++ ascii "://" ++ rest) :
    UriOk E s ↔ HasWebHost idna rest := by
  rw [C95_uri_exact E _ hE s scheme rest hs hu, ← hasWebHost_iff]
  rfl

/-- C105: and for a URI of another scheme than these, `ws`, `wss`, `ftp` and `file`: its host may be any text without forbidden
characters. -/
theorem C105_other_uri (E : Env) (idna : Bytes → Option Bytes) (file : Bytes → Option (Option Bytes))
    (hE : E.urlParse = urlParse (Host.parser idna file)) (s : Settings) (name rest : Bytes) (hn : SchemeName name)
    (hw : ¬WebScheme name) (hf : lowered name ≠ ascii "file") (hu : s.uri = name ++ ascii "://" ++ rest) :
    UriOk E s ↔ HasOpaqueHost rest := by
  rw [C95_uri_any_scheme E _ hE s, hu]
  constructor
  · rintro ⟨t, name', r, h1, h2, h3, h5⟩
    have hp := (parseScheme_iff _ _ _).mpr ⟨name', h2, h3, rfl⟩
    rw [addressReadAs_iff, urlInput_scheme hn] at h1
    rw [h1, (parseScheme_iff _ _ _).mpr ⟨name, rfl, hn, rfl⟩] at hp
    have hl : lowered name = lowered name' := congrArg Prod.fst (Option.some.inj hp)
    have hr : _ = r := congrArg Prod.snd (Option.some.inj hp)
    rcases h5 with ⟨h5, _⟩ | ⟨h5, _⟩ | ⟨_, _, x, hx, user, text, opened, port, tail, h, rfl, g1, g2, g3, g4, -, g5⟩
    · exact absurd (by unfold WebScheme at h5 ⊢; rw [hl]; exact h5) hw
    · exact absurd (hl.trans h5) hf
    · rw [hx] at hr
      have hr' := (List.cons.inj (List.cons.inj hr).2).2
      exact ⟨user, text, opened, port, tail, (readAs_iff _ _).mpr hr'.symm, g1, g2, g3,
        (Host.parseOpaque_iff text).1 (Option.isSome_iff_exists.2 ⟨h, g4⟩), g5⟩
  · rintro ⟨user, text, opened, port, tail, h1, g1, g2, g3, g4, g5⟩
    rw [readAs_iff] at h1
    obtain ⟨h, g6⟩ := Option.isSome_iff_exists.1 ((Host.parseOpaque_iff text).2 g4)
    refine ⟨_, name, _, (addressReadAs_iff _ _).mpr rfl, urlInput_scheme hn _, hn, .inr (.inr ⟨hw, hf, _, rfl, ?_⟩)⟩
    exact ⟨user, text, opened, port, tail, h, h1.symm, g1, g2, g3, g6, fun e => Host.parseOpaque_ne_nil text g2 (e ▸ g6), g5⟩

theorem siteHost_facts (idna : Bytes → Option Bytes) {t : Bytes} (h : SiteHost t) : WebHost idna t ∧ t ≠ [] ∧ Rfc3986.Host t := by
  have reg : (∀ c ∈ t, Host.nameChar c = true) → Rfc3986.RegName t := by
    intro h
    refine Ex.regName fun c hc => ?_
    have := h c hc
    clear hc
    revert c; apply u8_all; decide +kernel
  rcases h with h | h | ⟨x, rfl, h⟩
  · obtain ⟨h1, h2, h3⟩ := Host.webHost_hostName idna t h
    exact ⟨h1, h2, .inl (reg h3)⟩
  · obtain ⟨h1, h2, h3⟩ := Host.webHost_ip4 idna t h
    exact ⟨h1, h2, .inl (reg h3)⟩
  · exact ⟨.inl ⟨x, rfl, h⟩, by simp, .inr ⟨x, rfl, .inl h⟩⟩

theorem siteHost_authority (idna : Bytes → Option Bytes) {t port : Bytes} (h : SiteHost t) (hp : PortPart port) :
    AuthorityAt (fun t => ∃ h, Host.parse idna t = some h ∧ h ≠ []) (t ++ port) := by
  obtain ⟨h1, h2, h3⟩ := siteHost_facts idna h
  refine ⟨[], t, port, rfl, .inl rfl, h3, h2, (Host.parse_nonempty idna t).2 h1, ?_⟩
  rcases hp with rfl | ⟨ds, rfl, hd, hn⟩
  · exact .inl rfl
  · refine .inr ⟨ds, rfl, fun c hc => ?_, hn⟩
    have := hd c hc
    exact (isDigit_iff c).2 ⟨UInt8.le_iff_toNat_le.2 this.1, UInt8.le_iff_toNat_le.2 this.2⟩

/-- C105: every host name, every IPv4 address and every IPv6 address in brackets is accepted as a domain, with any port up to 65535 or
without one; whatever IDNA is. -/
theorem C105_site_accepted (E : Env) (idna : Bytes → Option Bytes) (file : Bytes → Option (Option Bytes))
    (hE : E.urlParse = urlParse (Host.parser idna file)) (s : Settings) (hs : s.scheme = ascii "http" ∨ s.scheme = ascii "https")
    (t port : Bytes) (ht : SiteHost t) (hp : PortPart port) (hd : s.domain = t ++ port) : DomainOk E s :=
  C95_rfc3986_domain E _ hE s hs (by rw [hd]; exact siteHost_authority idna ht hp)

/-- C105: and so is the web address of such a host, with any path, query and fragment. -/
theorem C105_site_uri (E : Env) (idna : Bytes → Option Bytes) (file : Bytes → Option (Option Bytes))
    (hE : E.urlParse = urlParse (Host.parser idna file)) (s : Settings) (scheme t port rest : Bytes)
    (hs : scheme = ascii "http" ∨ scheme = ascii "https") (ht : SiteHost t) (hp : PortPart port) (hr : NoAuthority true rest)
    (hv : ∀ c ∈ rest, 32 < c.toNat) (hu : s.uri = scheme ++ ascii "://" ++ (t ++ port ++ rest)) : UriOk E s := by
  rw [C95_uri_exact E _ hE s scheme _ hs hu]
  have hA := siteHost_authority idna ht hp
  obtain ⟨hw, hne, hh⟩ := siteHost_facts idna ht
  obtain ⟨y, hy, hy'⟩ := (Host.parse_nonempty idna t).2 hw
  have hall : ∀ c ∈ t ++ port ++ rest, 32 < c.toNat := by
    intro c hc
    rcases List.mem_append.1 hc with hc | hc
    · refine uriChar_gt c ?_
      have hA' : Rfc3986.Authority (t ++ port) := by
        obtain ⟨user, text, port, e, hu, hh, hne, _, hp⟩ := hA
        exact ⟨user, text, port, e, hu, hh, hp.imp_right fun ⟨p, h1, h2, _⟩ => ⟨p, h1, h2⟩⟩
      simp [isUriChar, authority_all hA' c hc]
    · exact hv c hc
  exact ⟨_, [], _, readAs_self hall, rfl, (fun _ h => nomatch h), [], t, false, port, rest, y, rfl, .inl rfl, hne, hostText_host hh, hy, hy', hp,
    (fun _ => rfl), .inl hr⟩

/-- C105: four decimal numbers with dots between them are accepted exactly if none is above 255: no address that is out of range is taken
for a host name. -/
theorem C105_dotted (E : Env) (idna : Bytes → Option Bytes) (file : Bytes → Option (Option Bytes))
    (hE : E.urlParse = urlParse (Host.parser idna file)) (s : Settings) (hs : s.scheme = ascii "http" ∨ s.scheme = ascii "https")
    (a b c d : Nat) (ta tb tc td : Bytes) (ha : IsDecimal a ta) (hb : IsDecimal b tb) (hc : IsDecimal c tc) (hd : IsDecimal d td)
    (hdom : s.domain = ta ++ 46 :: (tb ++ 46 :: (tc ++ 46 :: td))) : DomainOk E s ↔ a ≤ 255 ∧ b ≤ 255 ∧ c ≤ 255 ∧ d ≤ 255 := by
  rw [C105_domain_exact E idna file hE s hs, hdom, hasWebHost_name, Host.webHost_dotted idna ha hb hc hd]
  · simp only [Nat.lt_succ_iff]
  · have k : ∀ {n x}, IsDecimal n x → ∀ c ∈ x, Host.nameChar c = true := fun h c hc => (Host.decimal_lowered h c hc).2
    intro x hx
    simp only [List.mem_append, List.mem_cons] at hx
    rcases hx with hx | rfl | hx | rfl | hx | rfl | hx
    · exact k ha x hx
    · rfl
    · exact k hb x hx
    · rfl
    · exact k hc x hx
    · rfl
    · exact k hd x hx

/-- C105: a domain of letters, digits, hyphens and dots, in which no label begins with `xn--`, is accepted exactly if it is an IPv4 address
or does not end in a number. -/
theorem C105_names (E : Env) (idna : Bytes → Option Bytes) (file : Bytes → Option (Option Bytes))
    (hE : E.urlParse = urlParse (Host.parser idna file)) (s : Settings) (hs : s.scheme = ascii "http" ∨ s.scheme = ascii "https")
    (h0 : s.domain ≠ [])
    (h : ∀ c ∈ s.domain, (48 ≤ c.toNat ∧ c.toNat ≤ 57) ∨ (65 ≤ c.toNat ∧ c.toNat ≤ 90) ∨ (97 ≤ c.toNat ∧ c.toNat ≤ 122) ∨ c = 45 ∨ c = 46)
    (hx : ∀ ls, Labels (lowered s.domain) ls → ∀ l ∈ ls, ¬ascii "xn--" <+: l) :
    DomainOk E s ↔ (EndsInNumber (lowered s.domain) → Ip4Text (lowered s.domain)) := by
  have hn : ∀ c ∈ s.domain, Host.nameChar c = true := by
    intro c hc
    have := h c hc
    clear hc
    revert c; apply u8_all; decide +kernel
  rw [C105_domain_exact E idna file hE s hs, hasWebHost_name idna _ hn, Host.webHost_name idna _ h0 hn hx]

/-- C105 settles what C41 left open: `build` panics exactly if `scheme://domain` is an address with an authority but no host. -/
theorem C105_panics_exactly (E : Env) (idna : Bytes → Option Bytes) (file : Bytes → Option (Option Bytes))
    (hE : E.urlParse = urlParse (Host.parser idna file)) (s : Settings) :
    SettingsBuilder.build E s = .panic ↔ HostlessAddress file (s.scheme ++ ascii "://" ++ s.domain) :=
  C41_panics_exactly E _ hE Host.parseOpaque_ne_nil s

/-- C105 settles what C10 and C95 left open: the two configurations whose texts say the same for different accounts are accepted. -/
theorem C105_ambiguous_accepted (E : Env) (idna : Bytes → Option Bytes) (file : Bytes → Option (Option Bytes))
    (hE : E.urlParse = urlParse (Host.parser idna file)) (a1 a2 : Bytes) :
    SettingsBuilder.build E (ambiguousA a2) = .ok (ambiguousA a2) ∧
    SettingsBuilder.build E (ambiguousB a1) = .ok (ambiguousB a1) := by
  apply C95_ambiguous_settings_accepted E _ hE
  · exact ⟨ascii "d", by decide, rfl⟩
  · exact ⟨ascii "u", by decide, rfl⟩
  · exact ⟨ascii "v", by decide, rfl⟩

/-! ### examples -/

/-- the toy canister with the URL parser and its host parser -/
def Ex.hostEnv : Env := { Toy.env with urlParse := urlParse (Host.parser (fun _ => none) (fun _ => none)) }

/-- A host name and both kinds of addresses. -/
example : SiteHost (ascii "Example.com") ∧ SiteHost (ascii "127.0.0.1") ∧ SiteHost (ascii "[2001:db8::192.0.2.1]") := by
  refine ⟨.inl ⟨[ascii "Example"], ascii "com", ?_, by decide, by decide⟩, .inr (.inl ?_), .inr (.inr ⟨ascii "2001:db8::192.0.2.1", by decide, ?_⟩)⟩
  · rw [show ascii "Example.com" = ascii "Example" ++ 46 :: ascii "com" by decide]
    exact .more (by decide) (.one (by decide))
  · refine ⟨ascii "127", ascii "0", ascii "0", ascii "1", by decide, ?_⟩
    intro x hx
    simp only [List.mem_cons, List.not_mem_nil, or_false] at hx
    rcases hx with rfl | rfl | rfl | rfl
    · exact ⟨127, by decide, by unfold IsDecimal; decide⟩
    · exact ⟨0, by decide, by unfold IsDecimal; decide⟩
    · exact ⟨0, by decide, by unfold IsDecimal; decide⟩
    · exact ⟨1, by decide, by unfold IsDecimal; decide⟩
  · exact (Host.ipv6Ok_iff _).1 (by decide +kernel)

/-- Accepted domains: names, addresses in all their forms, a percent-encoded letter. -/
example : ∀ d ∈ ["localhost:4943", "example.com", "127.0.0.1:8080", "[::1]", "[1:2:3:4:5:6:7::]", "0x7f.1", "017700000001", "4294967295",
      "1.2.3.4.", "ex%61mple.com", "a_b.c", "1.2.3.4x", "com."],
    SettingsBuilder.build Ex.hostEnv (SettingsBuilder.new (ascii d) (ascii "https://example.com") (ascii "s")) =
      .ok (SettingsBuilder.new (ascii d) (ascii "https://example.com") (ascii "s")) := by
  decide +kernel

/-- Refused domains: addresses out of range or of too many numbers, with a zero in front of a group's end, forbidden characters, an
internationalised name (without IDNA). -/
example : ∀ d ∈ ["256.1.1.1", "1.2.3.4.5", "4294967296", "1.2.65536", "08", "a.0x", "1..2", "[::1", "[1:2:3:4:5:6:7:8::]", "[12345::]", "[::1.2.3.04]",
      "[1:2]", "[v1.x]", "a b", "a%20b", "a<b", "%41%2fb", "xn--a", "bücher", "", "%"],
    SettingsBuilder.build Ex.hostEnv (SettingsBuilder.new (ascii d) (ascii "https://example.com") (ascii "s")) = .err .invalidDomain := by
  decide +kernel

/-- URIs of other schemes. -/
example :
    (let s := SettingsBuilder.new (ascii "example.com") (ascii "app://my%app!") (ascii "s"); SettingsBuilder.build Ex.hostEnv s = .ok s) ∧
    SettingsBuilder.build Ex.hostEnv (SettingsBuilder.new (ascii "example.com") (ascii "app://my app") (ascii "s")) = .err .invalidUri ∧
    SettingsBuilder.build Ex.hostEnv (SettingsBuilder.new (ascii "example.com") (ascii "app://[::g]") (ascii "s")) = .err .invalidUri := by
  decide +kernel

end Siwe
