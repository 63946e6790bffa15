import Verif.Props.Url
/-
C41: exactly which settings make `build` panic.
-/
namespace Siwe
open Spec

theorem addressReadAs_iff (s t : Bytes) : AddressReadAs s t ↔ t = urlInput s := by
  constructor
  · rintro ⟨lead, rest, rfl, hl, hr, h⟩
    rw [readAs_iff] at h
    unfold urlInput
    rw [trimUrl_eq, List.dropWhile_append_of_pos fun c hc => by simpa [UInt8.le_iff_toNat_le] using hl c hc]
    have : rest.dropWhile (fun c => decide (c ≤ 32)) = rest := by
      cases rest with
      | nil => rfl
      | cons c r =>
        have := hr c rfl
        exact List.dropWhile_cons_of_neg (by simp [UInt8.le_iff_toNat_le]; omega)
    rw [this]; exact h
  · rintro rfl
    refine ⟨s.takeWhile fun c => decide (c ≤ 32), s.dropWhile fun c => decide (c ≤ 32), List.takeWhile_append_dropWhile.symm, ?_, ?_, ?_⟩
    · intro c hc
      have := List.all_eq_true.mp (List.all_takeWhile (p := fun c : UInt8 => decide (c ≤ 32)) (l := s)) c hc
      simpa [UInt8.le_iff_toNat_le] using this
    · intro c hc
      have := List.head?_dropWhile_not (fun c : UInt8 => decide (c ≤ 32)) s
      rw [hc] at this
      simpa [UInt8.le_iff_toNat_le] using this
    · rw [readAs_iff]; rfl

theorem schemeLoop_inv (s : Bytes) : ∀ l r, schemeLoop s = some (l, r) →
    ∃ name, s = name ++ 58 :: r ∧ (∀ c ∈ name, isSchemeChar c = true) ∧ l = lowered name := by
  induction s with
  | nil => intro l r h; exact nomatch h
  | cons c s ih =>
    intro l r h
    rw [schemeLoop] at h
    by_cases hc : isSchemeChar c = true
    · rw [if_pos hc] at h
      cases hs : schemeLoop s with
      | none => rw [hs] at h; exact nomatch h
      | some x =>
        obtain ⟨l', r'⟩ := x
        rw [hs] at h
        cases h
        obtain ⟨name, h1, h2, h3⟩ := ih _ _ hs
        refine ⟨c :: name, by rw [h1]; rfl, ?_, ?_⟩
        · intro x hx
          rcases List.mem_cons.mp hx with rfl | hx
          · exact hc
          · exact h2 x hx
        · rw [h3, lowered_eq, lowered_eq]; rfl
    · rw [if_neg hc] at h
      split at h
      · next h58 => cases h; exact ⟨[], by rw [h58]; rfl, by simp, rfl⟩
      · exact nomatch h

theorem parseScheme_iff (x l r : Bytes) :
    parseScheme x = some (l, r) ↔ ∃ name, x = name ++ 58 :: r ∧ SchemeName name ∧ l = lowered name := by
  have k1 : ∀ c : UInt8, isAsciiAlpha c = true → c ≠ 58 ∧ ((65 ≤ c.toNat ∧ c.toNat ≤ 90) ∨ (97 ≤ c.toNat ∧ c.toNat ≤ 122)) := by
    apply u8_all; decide +kernel
  have k2 : ∀ c : UInt8, isSchemeChar c = true → ((65 ≤ c.toNat ∧ c.toNat ≤ 90) ∨ (97 ≤ c.toNat ∧ c.toNat ≤ 122) ∨
      (48 ≤ c.toNat ∧ c.toNat ≤ 57) ∨ c = 43 ∨ c = 45 ∨ c = 46) := by
    apply u8_all; decide +kernel
  constructor
  · intro h
    cases x with
    | nil => exact nomatch h
    | cons c x =>
      rw [parseScheme] at h
      split at h
      · next hc =>
        obtain ⟨name, h1, h2, h3⟩ := schemeLoop_inv _ _ _ h
        refine ⟨name, h1, ?_, h3⟩
        cases name with
        | nil => cases h1; exact absurd rfl (k1 _ hc).1
        | cons d name =>
          cases h1
          exact ⟨c, name, rfl, (k1 c hc).2, fun y hy => k2 y (h2 y (List.mem_cons_of_mem _ hy))⟩
      · exact nomatch h
  · rintro ⟨name, rfl, hn, rfl⟩
    have hl := schemeLoop_name r name (fun c hc => (schemeName_chars hn c hc).1)
    obtain ⟨c, y, rfl, hc, _⟩ := hn
    rw [List.cons_append, parseScheme, if_pos (isAsciiAlpha_spec c hc), ← List.cons_append, hl]

theorem lastAt_split (special : Bool) (s : Bytes) : ∀ v r, lastAt special s = some (v, r) → s = v ++ 64 :: r := by
  induction s with
  | nil => intro v r h; exact nomatch h
  | cons c s ih =>
    intro v r h
    rw [lastAt] at h
    split at h
    · exact nomatch h
    · cases hs : lastAt special s with
      | none =>
        rw [hs] at h
        simp only at h
        split at h
        · next hc => cases h; rw [hc]; rfl
        · exact nomatch h
      | some x =>
        obtain ⟨u, y⟩ := x
        rw [hs] at h
        cases h
        rw [ih _ _ hs]; rfl

theorem noAuthority_lastAt {t : Bytes} (h : NoAuthority false t) : lastAt false t = none := by
  rcases h with rfl | ⟨c, r, rfl, h⟩
  · rfl
  · rw [lastAt, if_pos ((endsAuthority_iff c).mpr h)]

theorem noAuthority_hostSplit {t : Bytes} (h : NoAuthority false t) : hostSplit false false t = ([], t) := by
  rcases h with rfl | ⟨c, r, rfl, h⟩
  · rfl
  · rw [hostSplit, if_pos (.inr ((endsAuthority_iff c).mpr h))]

theorem noAuthority_head {t : Bytes} (h : NoAuthority false t) : (t.head? == some 58) = false := by
  rcases h with rfl | ⟨c, r, rfl, rfl | rfl | rfl | ⟨h, _⟩⟩
  · rfl
  · rfl
  · rfl
  · rfl
  · cases h

/-- what remains when the text of the host is empty -/
theorem noAuthority_of_empty {t : Bytes} (h : (hostSplit false false t).1 = []) :
    (hostSplit false false t).2 = t ∧ (NoAuthority false t ∨ t.head? = some 58) := by
  cases t with
  | nil => exact ⟨rfl, .inl (.inl rfl)⟩
  | cons c r =>
    rw [hostSplit] at h ⊢
    split at h
    · next hc =>
      rw [if_pos hc]
      refine ⟨rfl, ?_⟩
      rcases hc with ⟨rfl, _⟩ | hc
      · exact .inr rfl
      · exact .inl (.inr ⟨c, r, rfl, (endsAuthority_iff c).mp hc⟩)
    · exact nomatch h

theorem afterDoubleSlash_hostless (H : HostParser) (hH : ∀ x, x ≠ [] → H.other x ≠ some []) (t : Bytes) :
    afterDoubleSlash H false t = some none ↔ EmptyAuthority t := by
  have key : ∀ (user : Bool) (x : Bytes),
      (match parseHost H false (hostSplit false false x).1 with
        | none => none
        | some [] => if false || (hostSplit false false x).2.head? == some 58 || user then none else some none
        | some host =>
          match (hostSplit false false x).2 with
          | 58 :: port => if portOk 0 port then some (some host) else none
          | _ => some (some host)) = some none → user = false ∧ NoAuthority false x := by
    intro user x h
    cases hp : parseHost H false (hostSplit false false x).1 with
    | none => rw [hp] at h; exact nomatch h
    | some host =>
      rw [hp] at h
      cases host with
      | cons a b =>
        simp only at h
        split at h
        · split at h <;> simp at h
        · simp at h
      | nil =>
        have ht : (hostSplit false false x).1 = [] := by
          by_cases he : (hostSplit false false x).1 = []
          · exact he
          · unfold parseHost at hp
            rw [if_neg he] at hp
            exact absurd hp (by simpa using hH _ he)
        obtain ⟨h2, h3⟩ := noAuthority_of_empty ht
        rw [h2] at h
        rcases h3 with h3 | h3
        · cases user with
          | false => exact ⟨rfl, h3⟩
          | true => simp at h
        · rw [h3] at h; simp at h
  constructor
  · intro h
    unfold afterDoubleSlash parseUserinfo at h
    cases hl : lastAt false t with
    | none =>
      rw [hl] at h
      exact .inl (key false t h).2
    | some x =>
      obtain ⟨user, rest⟩ := x
      rw [hl] at h
      have hs := lastAt_split _ _ _ _ hl
      by_cases hu : user = []
      · subst hu
        simp only [if_true] at h
        cases rest with
        | nil => exact .inr (.inl hs)
        | cons c r =>
          simp only at h
          by_cases hc : endsAuthority false c = true
          · rw [if_pos hc] at h; exact nomatch h
          · rw [if_neg hc] at h
            rcases (key false _ h).2 with h0 | ⟨c', r', he, h'⟩
            · exact nomatch h0
            · cases he; exact absurd ((endsAuthority_iff c).mpr h') hc
      · simp only [if_neg hu] at h
        obtain ⟨h1, h2⟩ := key _ _ h
        have : user = [58] := by simpa using h1
        subst this
        exact .inr (.inr ⟨rest, hs, h2⟩)
  · intro h
    rcases h with h | rfl | ⟨u, rfl, h⟩
    · unfold afterDoubleSlash parseUserinfo
      rw [noAuthority_lastAt h]
      simp only
      rw [noAuthority_hostSplit h]
      simp [parseHost, noAuthority_head h]
    · rfl
    · have hl : lastAt false (58 :: 64 :: u) = some ([58], u) := by
        rw [lastAt, if_neg (by decide), lastAt, if_neg (by decide), noAuthority_lastAt h]
        rfl
      unfold afterDoubleSlash parseUserinfo
      rw [hl]
      simp only
      rw [if_neg (by simp)]
      simp only
      rw [noAuthority_hostSplit h]
      simp [parseHost, noAuthority_head h]

theorem parseFile_hostless (H : HostParser) (rest : Bytes) : parseFile H rest = some none ↔
    ∀ a b x, rest = a :: b :: x → Slash a → Slash b → NoAuthority true x ∨ H.file x = some none := by
  unfold parseFile
  split
  · next a b x =>
    split
    · next hab =>
      have hs : Slash a ∧ Slash b := hab
      cases x with
      | nil => simp only [true_iff]; intro _ _ _ he _ _; cases he; exact .inl (.inl rfl)
      | cons c r =>
        simp only
        split
        · next hc =>
          simp only [true_iff]; intro _ _ _ he _ _; cases he
          exact .inl (.inr ⟨c, r, rfl, (endsAuthority_iff c).mp hc⟩)
        · next hc =>
          constructor
          · intro h _ _ _ he _ _; cases he; exact .inr h
          · intro h
            rcases h a b _ rfl hs.1 hs.2 with (h | ⟨c', r', he, h⟩) | h
            · exact nomatch h
            · cases he; exact absurd ((endsAuthority_iff c).mpr h) hc
            · exact h
    · next hab =>
      simp only [true_iff]; intro _ _ _ he h1 h2; cases he; exact absurd ⟨h1, h2⟩ hab
  · next hn => simp only [true_iff]; intro a b x he; exact absurd he (hn a b x)

theorem schemeType_web {n : Bytes} : schemeType (lowered n) = .specialNotFile ↔ WebScheme n := by
  unfold schemeType WebScheme
  simp only [List.mem_cons, List.not_mem_nil, or_false]
  split
  · next h => simp [h]
  · next h => split <;> simp [h]

theorem schemeType_file {n : Bytes} (hw : ¬WebScheme n) : schemeType (lowered n) = .file ↔ lowered n = ascii "file" := by
  have h := mt schemeType_web.mp hw
  unfold schemeType at h ⊢
  split
  · next h' => rw [if_pos h'] at h; exact absurd rfl h
  · split <;> simp_all

theorem urlParse_hostless (H : HostParser) (hH : ∀ x, x ≠ [] → H.other x ≠ some []) (s : Bytes) :
    urlParse H s = some ⟨true, none⟩ ↔ HostlessAddress H.file s := by
  have hmap : ∀ o : Option (Option Bytes), (o.map fun h => (⟨true, h⟩ : ParsedUrl)) = some ⟨true, none⟩ ↔ o = some none := by
    intro o; cases o <;> simp
  constructor
  · intro h
    unfold urlParse at h
    cases hp : parseScheme (urlInput s) with
    | none => rw [hp] at h; exact nomatch h
    | some x =>
      obtain ⟨l, r⟩ := x
      rw [hp] at h
      obtain ⟨name, h1, h2, rfl⟩ := (parseScheme_iff _ _ _).mp hp
      simp only at h
      have hw : ¬WebScheme name := by
        intro hw
        rw [schemeType_web.mpr hw] at h
        simp only [hmap] at h
        exact afterDoubleSlash_special_host H _ h
      refine ⟨_, name, r, (addressReadAs_iff _ _).mpr rfl, h1, h2, hw, ?_⟩
      by_cases hf : lowered name = ascii "file"
      · rw [(schemeType_file hw).mpr hf] at h
        simp only [hmap] at h
        exact .inl ⟨hf, (parseFile_hostless H r).mp h⟩
      · have ht : schemeType (lowered name) = .notSpecial := by
          cases ht : schemeType (lowered name) with
          | file => exact absurd ((schemeType_file hw).mp ht) hf
          | specialNotFile => exact absurd (schemeType_web.mp ht) hw
          | notSpecial => rfl
        rw [ht] at h
        simp only at h
        refine .inr ⟨hf, ?_⟩
        split at h
        · next x => rw [hmap] at h; exact ⟨x, rfl, (afterDoubleSlash_hostless H hH x).mp h⟩
        · simp at h
  · rintro ⟨t, name, r, h1, h2, h3, hw, h4⟩
    rw [addressReadAs_iff] at h1
    subst h1
    have hp := (parseScheme_iff _ _ _).mpr ⟨name, h2, h3, rfl⟩
    unfold urlParse
    rw [hp]
    simp only
    rcases h4 with ⟨hf, h⟩ | ⟨hf, x, rfl, h⟩
    · rw [(schemeType_file hw).mpr hf]
      simp only [hmap]
      exact (parseFile_hostless H r).mpr h
    · have ht : schemeType (lowered name) = .notSpecial := by
        cases ht : schemeType (lowered name) with
        | file => exact absurd ((schemeType_file hw).mp ht) hf
        | specialNotFile => exact absurd (schemeType_web.mp ht) hw
        | notSpecial => rfl
      rw [ht]
      simp only [hmap]
      exact (afterDoubleSlash_hostless H hH x).mpr h

/-- C41, exactly: `build` panics for those settings, and only those, whose `scheme://domain` is an address with an authority but no host. (No
host text that is not empty is written out as an empty one, as the URL standard has it.) -/
theorem C41_panics_exactly (E : Env) (H : HostParser) (hE : E.urlParse = urlParse H) (hH : ∀ x, x ≠ [] → H.other x ≠ some [])
    (s : Settings) : SettingsBuilder.build E s = .panic ↔ HostlessAddress H.file (s.scheme ++ ascii "://" ++ s.domain) := by
  rw [C41_panics_iff, HostlessDomain, hE]
  exact urlParse_hostless H hH _

theorem urlInput_scheme {name : Bytes} (hn : SchemeName name) (d : Bytes) :
    urlInput (name ++ ascii "://" ++ d) = name ++ 58 :: 47 :: 47 :: (trimEndUrl d).filter fun c => !urlSkips c := by
  have ea : ascii "://" = [58, 47, 47] := by decide
  rw [ea]
  have hall : ∀ c ∈ name ++ [58, 47, 47], 32 < c.toNat := by
    intro c hc
    rcases List.mem_append.mp hc with hc | hc
    · exact (schemeName_chars hn c hc).2
    · have : ∀ c ∈ ([58, 47, 47] : Bytes), 32 < c.toNat := by decide
      exact this c hc
  have hdw : (name ++ [58, 47, 47] ++ d).dropWhile (fun c => decide (c ≤ 32)) = name ++ [58, 47, 47] ++ d := by
    obtain ⟨c, r, rfl, _⟩ := hn
    have := hall c (by simp)
    exact List.dropWhile_cons_of_neg (by simp [UInt8.le_iff_toNat_le]; omega)
  unfold urlInput
  rw [trimUrl_eq, hdw, trimEndUrl_prefix d fun c hc => hall c (List.mem_of_getLast? hc), List.filter_append,
    List.filter_eq_self.mpr fun y hy => not_skipped (hall y hy), List.append_assoc]
  rfl

/-- C41: so no domain makes `build` panic if the scheme is one that must have a host, in capitals or not. -/
theorem C41_special_schemes_safe (E : Env) (H : HostParser) (hE : E.urlParse = urlParse H) (hH : ∀ x, x ≠ [] → H.other x ≠ some [])
    (s : Settings) (hs : SchemeName s.scheme) (hw : WebScheme s.scheme) : SettingsBuilder.build E s ≠ .panic := by
  rw [Ne, C41_panics_exactly E H hE hH]
  rintro ⟨t, name, r, h1, h2, h3, h4, _⟩
  have hp := (parseScheme_iff _ _ _).mpr ⟨name, h2, h3, rfl⟩
  rw [addressReadAs_iff, urlInput_scheme hs] at h1
  rw [h1, (parseScheme_iff _ _ _).mpr ⟨s.scheme, rfl, hs, rfl⟩] at hp
  have : lowered s.scheme = lowered name := congrArg Prod.fst (Option.some.inj hp)
  exact h4 (by unfold WebScheme at hw ⊢; rw [← this]; exact hw)

/-- C41: and for any other scheme but `file`, the domains that make `build` panic are those that are read as an empty authority. -/
theorem C41_other_schemes (E : Env) (H : HostParser) (hE : E.urlParse = urlParse H) (hH : ∀ x, x ≠ [] → H.other x ≠ some [])
    (s : Settings) (hs : SchemeName s.scheme) (hw : ¬WebScheme s.scheme) (hf : lowered s.scheme ≠ ascii "file") :
    SettingsBuilder.build E s = .panic ↔ ∃ t, ReadAs s.domain t ∧ EmptyAuthority t := by
  rw [C41_panics_exactly E H hE hH]
  constructor
  · rintro ⟨t, name, r, h1, h2, h3, _, h5⟩
    have hp := (parseScheme_iff _ _ _).mpr ⟨name, h2, h3, rfl⟩
    rw [addressReadAs_iff, urlInput_scheme hs] at h1
    rw [h1, (parseScheme_iff _ _ _).mpr ⟨s.scheme, rfl, hs, rfl⟩] at hp
    have hl : lowered s.scheme = lowered name := congrArg Prod.fst (Option.some.inj hp)
    have hr : _ = r := congrArg Prod.snd (Option.some.inj hp)
    rcases h5 with ⟨h5, _⟩ | ⟨_, x, hx, h5⟩
    · exact absurd (hl.trans h5) hf
    · rw [hx] at hr
      cases hr
      exact ⟨_, (readAs_iff _ _).mpr rfl, h5⟩
  · rintro ⟨t, h1, h2⟩
    rw [readAs_iff] at h1
    subst h1
    exact ⟨_, s.scheme, _, (addressReadAs_iff _ _).mpr rfl, urlInput_scheme hs _, hs, hw, .inr ⟨hf, _, rfl, h2⟩⟩

/-- Non-vacuity: the three forms of an empty authority, and `file`. -/
example :
    SettingsBuilder.build Ex.urlEnv { SettingsBuilder.new (ascii "/x") [] [] with scheme := ascii "foo" } = .panic ∧
    SettingsBuilder.build Ex.urlEnv { SettingsBuilder.new (ascii ":\n@?") [] [] with scheme := ascii " foo" } = .panic ∧
    SettingsBuilder.build Ex.urlEnv { SettingsBuilder.new (ascii "@") [] [] with scheme := ascii "foo" } = .panic ∧
    SettingsBuilder.build Ex.urlEnv { SettingsBuilder.new (ascii "a") [] [] with scheme := ascii "file:x" } = .panic ∧
    SettingsBuilder.build Ex.urlEnv { SettingsBuilder.new (ascii "@/") [] [] with scheme := ascii "foo" } ≠ .panic := by
  decide +kernel

end Siwe
