import Verif.Props.UrlPanic
/-
C95: the addresses in which the URL parser finds a host, for all schemes; with that, exactly which settings are accepted.
-/
namespace Siwe
open Spec

theorem parseFile_hosted (H : HostParser) (rest h : Bytes) : parseFile H rest = some (some h) ↔
    ∃ a b x, rest = a :: b :: x ∧ Slash a ∧ Slash b ∧ ¬NoAuthority true x ∧ H.file x = some (some h) := by
  unfold parseFile
  split
  · next a b x =>
    split
    · next hab =>
      have hs : Slash a ∧ Slash b := hab
      cases x with
      | nil =>
        constructor
        · intro h; simp at h
        · rintro ⟨_, _, _, he, _, _, hn, _⟩; cases he; exact absurd (.inl rfl) hn
      | cons c r =>
        simp only
        split
        · next hc =>
          constructor
          · intro h; simp at h
          · rintro ⟨_, _, _, he, _, _, hn, _⟩; cases he; exact absurd (.inr ⟨c, r, rfl, (endsAuthority_iff c).mp hc⟩) hn
        · next hc =>
          constructor
          · intro h
            refine ⟨a, b, _, rfl, hs.1, hs.2, ?_, h⟩
            rintro (h | ⟨c', r', he, h⟩)
            · exact nomatch h
            · cases he; exact hc ((endsAuthority_iff c).mpr h)
          · rintro ⟨_, _, _, he, _, _, _, h⟩; cases he; exact h
    · next hab =>
      constructor
      · intro h; simp at h
      · rintro ⟨_, _, _, he, h1, h2, _⟩; cases he; exact absurd ⟨h1, h2⟩ hab
  · next hn =>
    constructor
    · intro h; simp at h
    · rintro ⟨a, b, x, he, _⟩; exact absurd he (hn a b x)

theorem urlParse_hosted (H : HostParser) (s : Bytes) (authority : Bool) :
    (∃ h, urlParse H s = some ⟨authority, some h⟩) ↔ authority = true ∧ HostedAddress H.special H.other H.file s := by
  have hmap : ∀ o : Option (Option Bytes), (∃ h, (o.map fun h => (⟨true, h⟩ : ParsedUrl)) = some ⟨authority, some h⟩) ↔
      authority = true ∧ ∃ h, o = some (some h) := by
    intro o
    cases o with
    | none => simp
    | some o =>
      constructor
      · rintro ⟨h, e⟩; cases e; exact ⟨rfl, h, rfl⟩
      · rintro ⟨rfl, h, e⟩; cases e; exact ⟨h, rfl⟩
  have hnf : schemeType (ascii "file") = .file := by decide
  constructor
  · intro h
    unfold urlParse at h
    cases hp : parseScheme (urlInput s) with
    | none => rw [hp] at h; obtain ⟨_, h⟩ := h; exact nomatch h
    | some x =>
      obtain ⟨l, r⟩ := x
      rw [hp] at h
      obtain ⟨name, h1, h2, rfl⟩ := (parseScheme_iff _ _ _).mp hp
      simp only at h
      cases ht : schemeType (lowered name) with
      | specialNotFile =>
        rw [ht] at h
        simp only [hmap] at h
        exact ⟨h.1, _, name, r, (addressReadAs_iff _ _).mpr rfl, h1, h2, .inl ⟨schemeType_web.mp ht, (afterSlashes_iff H r).mp h.2⟩⟩
      | file =>
        rw [ht] at h
        simp only [hmap] at h
        have hw : ¬WebScheme name := fun hw => by rw [schemeType_web.mpr hw] at ht; cases ht
        obtain ⟨ha, x, hx⟩ := h
        obtain ⟨a, b, y, h3⟩ := (parseFile_hosted H r x).mp hx
        exact ⟨ha, _, name, r, (addressReadAs_iff _ _).mpr rfl, h1, h2, .inr (.inl ⟨(schemeType_file hw).mp ht, a, b, y, x, h3⟩)⟩
      | notSpecial =>
        rw [ht] at h
        simp only at h
        have hw : ¬WebScheme name := fun hw => by rw [schemeType_web.mpr hw] at ht; cases ht
        have hf : lowered name ≠ ascii "file" := fun hf => by rw [(schemeType_file hw).mpr hf] at ht; cases ht
        split at h
        · next x =>
          rw [hmap] at h
          exact ⟨h.1, _, name, _, (addressReadAs_iff _ _).mpr rfl, h1, h2, .inr (.inr ⟨hw, hf, x, rfl, (afterDoubleSlash_iff H x).mp h.2⟩)⟩
        · obtain ⟨_, h⟩ := h; simp at h
  · rintro ⟨rfl, t, name, r, h1, h2, h3, h4⟩
    rw [addressReadAs_iff] at h1
    subst h1
    have hp := (parseScheme_iff _ _ _).mpr ⟨name, h2, h3, rfl⟩
    unfold urlParse
    rw [hp]
    simp only
    rcases h4 with ⟨hw, h⟩ | ⟨hf, a, b, x, y, h⟩ | ⟨hw, hf, x, rfl, h⟩
    · rw [schemeType_web.mpr hw]
      simp only [hmap]
      exact ⟨trivial, (afterSlashes_iff H r).mpr h⟩
    · rw [hf, hnf]
      simp only [hmap]
      exact ⟨trivial, y, (parseFile_hosted H r y).mpr ⟨a, b, x, h⟩⟩
    · have ht : schemeType (lowered name) = .notSpecial := by
        cases ht : schemeType (lowered name) with
        | file => exact absurd ((schemeType_file hw).mp ht) hf
        | specialNotFile => exact absurd (schemeType_web.mp ht) hw
        | notSpecial => rfl
      rw [ht]
      simp only [hmap]
      exact ⟨trivial, (afterDoubleSlash_iff H x).mpr h⟩

/-- C95: exactly these settings are accepted (and kept as they are): a web scheme, a domain with a host, a URI with a host (of any scheme),
a visible salt, a chain, a statement on one line, times for signing in and for sessions, and a list of at most 1000 different targets, if any. -/
theorem C95_accepted_exactly (E : Env) (H : HostParser) (hE : E.urlParse = urlParse H) (s s' : Settings) :
    SettingsBuilder.build E s = .ok s' ↔ s' = s ∧ (s.scheme = ascii "http" ∨ s.scheme = ascii "https") ∧ HasHost H.special s.domain ∧
      HostedAddress H.special H.other H.file s.uri ∧ (s.salt ≠ [] ∧ ∀ c ∈ s.salt, 33 ≤ c.toNat ∧ c.toNat ≤ 126) ∧ s.chainId ≠ 0 ∧
      ¬ 10 ∈ s.statement ∧ s.signInExpiresIn ≠ 0 ∧ s.sessionExpiresIn ≠ 0 ∧
      ∀ ts, s.targets = some ts → ts ≠ [] ∧ ts.length ≤ 1000 ∧ ts.Nodup := by
  have hu : UriOk E s ↔ HostedAddress H.special H.other H.file s.uri := by
    unfold UriOk
    rw [hE]
    constructor
    · rintro ⟨a, h⟩; exact ((urlParse_hosted H s.uri a).mp h).2
    · intro h; exact ⟨true, (urlParse_hosted H s.uri true).mpr ⟨rfl, h⟩⟩
  rw [C40_accepts]
  unfold ValidSettings requirements
  simp only [List.forall_mem_cons, List.not_mem_nil, false_imp_iff, implies_true, and_true]
  constructor
  · rintro ⟨⟨h1, h2, h3, h4, h5, h6, h7, h8, h9, h10, h11, h12⟩, rfl⟩
    refine ⟨rfl, h6, (C95_domain_exact E H hE s' h6).mp h1, hu.mp h2, ⟨h3, h4⟩, h5, h7, h8, h9, ?_⟩
    intro ts ht
    exact ⟨fun h => h10 (by rw [ht, h]), h11 ts ht, h12 ts ht⟩
  · rintro ⟨rfl, h6, h1, h2, ⟨h3, h4⟩, h5, h7, h8, h9, h10⟩
    exact ⟨⟨(C95_domain_exact E H hE s' h6).mpr h1, hu.mpr h2, h3, h4, h5, h6, h7, h8, h9, fun h => (h10 [] h).1 rfl,
      fun ts ht => (h10 ts ht).2.1, fun ts ht => (h10 ts ht).2.2⟩, rfl⟩

/-- C95: the URIs that are accepted, whatever their scheme. -/
theorem C95_uri_any_scheme (E : Env) (H : HostParser) (hE : E.urlParse = urlParse H) (s : Settings) :
    UriOk E s ↔ HostedAddress H.special H.other H.file s.uri := by
  unfold UriOk
  rw [hE]
  constructor
  · rintro ⟨a, h⟩; exact ((urlParse_hosted H s.uri a).mp h).2
  · intro h; exact ⟨true, (urlParse_hosted H s.uri true).mpr ⟨rfl, h⟩⟩

/-- Non-vacuity: URIs with other schemes and without slashes are accepted, and those without a host are not; a `\` ends a port, unless an
`@` comes after it. -/
example :
    let s : Bytes → Settings := fun u => SettingsBuilder.new (ascii "example.com") u (ascii "s")
    SettingsBuilder.build Ex.urlEnv (s (ascii "foo://bar:1\\x")) = .ok (s (ascii "foo://bar:1\\x")) ∧
    SettingsBuilder.build Ex.urlEnv (s (ascii " HTTP:example.com ")) = .ok (s (ascii " HTTP:example.com ")) ∧
    SettingsBuilder.build Ex.urlEnv (s (ascii "file:\\/host")) = .ok (s (ascii "file:\\/host")) ∧
    SettingsBuilder.build Ex.urlEnv (s (ascii "foo://bar:1\\x@:2")) = .err .invalidUri ∧
    SettingsBuilder.build Ex.urlEnv (s (ascii "foo:/bar")) = .err .invalidUri ∧
    SettingsBuilder.build Ex.urlEnv (s (ascii "mailto:me@example.com")) = .err .invalidUri ∧
    SettingsBuilder.build Ex.urlEnv (s (ascii "file:///host")) = .err .invalidUri := by
  decide +kernel

end Siwe
