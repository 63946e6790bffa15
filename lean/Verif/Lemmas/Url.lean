import Verif.Model.Url
import Verif.Spec.Url
import Verif.Lemmas.Hex
/- The URL parser against its specification. -/
namespace Siwe
open Spec

theorem urlSkips_iff (c : UInt8) : urlSkips c = true ↔ Dropped c := by
  simp [urlSkips, Dropped, or_assoc]

theorem dropped_le {c : UInt8} (h : Dropped c) : c.toNat ≤ 32 := by
  rcases h with rfl | rfl | rfl <;> decide

theorem withoutDropped_iff (s t : Bytes) : WithoutDropped s t ↔ t = s.filter fun c => !urlSkips c := by
  constructor
  · intro h
    induction h with
    | nil => rfl
    | drop hc _ ih => rw [ih, List.filter_cons_of_neg (by simp [(urlSkips_iff _).mpr hc])]
    | keep hc _ ih => rw [ih, List.filter_cons_of_pos (by simpa [← urlSkips_iff] using hc)]
  · rintro rfl
    induction s with
    | nil => exact .nil
    | cons c s ih =>
      by_cases hc : Dropped c
      · rw [List.filter_cons_of_neg (by simp [(urlSkips_iff _).mpr hc])]; exact .drop hc ih
      · rw [List.filter_cons_of_pos (by simpa [← urlSkips_iff] using hc)]; exact .keep hc ih

/-- trimming at the end -/
def trimEndUrl (s : Bytes) : Bytes := (s.reverse.dropWhile fun c => decide (c ≤ 32)).reverse

theorem trimUrl_eq (s : Bytes) : trimUrl s = trimEndUrl (s.dropWhile fun c => decide (c ≤ 32)) := rfl

theorem trimEndUrl_split (s : Bytes) :
    ∃ pad, s = trimEndUrl s ++ pad ∧ (∀ c ∈ pad, c.toNat ≤ 32) ∧ (∀ c, (trimEndUrl s).getLast? = some c → 32 < c.toNat) := by
  refine ⟨(s.reverse.takeWhile fun c => decide (c ≤ 32)).reverse, ?_, ?_, ?_⟩
  · unfold trimEndUrl
    rw [← List.reverse_append, List.takeWhile_append_dropWhile, List.reverse_reverse]
  · intro c hc
    have := List.all_eq_true.mp (List.all_takeWhile (p := fun c : UInt8 => decide (c ≤ 32)) (l := s.reverse)) c (List.mem_reverse.mp hc)
    simpa [UInt8.le_iff_toNat_le] using this
  · intro c hc
    unfold trimEndUrl at hc
    rw [List.getLast?_reverse] at hc
    have := List.head?_dropWhile_not (fun c : UInt8 => decide (c ≤ 32)) s.reverse
    rw [hc] at this
    simp [UInt8.le_iff_toNat_le] at this
    omega

theorem trimEndUrl_append {x y : Bytes} (hx : ∀ c, x.getLast? = some c → 32 < c.toNat) (hy : ∀ c ∈ y, c.toNat ≤ 32) :
    trimEndUrl (x ++ y) = x := by
  unfold trimEndUrl
  rw [List.reverse_append, List.dropWhile_append_of_pos]
  · have : x.reverse.dropWhile (fun c => decide (c ≤ 32)) = x.reverse := by
      cases hr : x.reverse with
      | nil => rfl
      | cons c r =>
        have : x.getLast? = some c := by rw [← List.head?_reverse, hr]; rfl
        have h := hx c this
        rw [List.dropWhile_cons_of_neg]
        simp [UInt8.le_iff_toNat_le]; omega
    rw [this, List.reverse_reverse]
  · intro c hc
    have := hy c (List.mem_reverse.mp hc)
    simpa [UInt8.le_iff_toNat_le] using this

theorem trimEndUrl_prefix {x : Bytes} (y : Bytes) (hx : ∀ c, x.getLast? = some c → 32 < c.toNat) :
    trimEndUrl (x ++ y) = x ++ trimEndUrl y := by
  obtain ⟨pad, he, hp, hl⟩ := trimEndUrl_split y
  conv => lhs; rw [he, ← List.append_assoc]
  refine trimEndUrl_append ?_ hp
  intro c hc
  rw [List.getLast?_append] at hc
  cases hy : (trimEndUrl y).getLast? with
  | none => rw [hy] at hc; exact hx c (by simpa using hc)
  | some d => rw [hy] at hc; simp at hc; subst hc; exact hl d hy

theorem readAs_iff (s t : Bytes) : ReadAs s t ↔ t = (trimEndUrl s).filter fun c => !urlSkips c := by
  constructor
  · rintro ⟨body, pad, rfl, hp, hl, hw⟩
    rw [trimEndUrl_append hl hp]
    exact (withoutDropped_iff _ _).mp hw
  · rintro rfl
    obtain ⟨pad, he, hp, hl⟩ := trimEndUrl_split s
    exact ⟨_, pad, he, hp, hl, (withoutDropped_iff _ _).mpr rfl⟩

theorem dropWhile_filter_comm {p q : UInt8 → Bool} (h : ∀ c, q c = false → p c = true) (s : Bytes) :
    (s.filter q).dropWhile p = (s.dropWhile p).filter q := by
  induction s with
  | nil => rfl
  | cons c s ih =>
    cases hq : q c with
    | false =>
      rw [List.filter_cons_of_neg (by simp [hq]), List.dropWhile_cons_of_pos (h c hq), ih]
    | true =>
      rw [List.filter_cons_of_pos hq]
      cases hp : p c with
      | true => rw [List.dropWhile_cons_of_pos hp, List.dropWhile_cons_of_pos hp, ih]
      | false => rw [List.dropWhile_cons_of_neg (by simp [hp]), List.dropWhile_cons_of_neg (by simp [hp]), List.filter_cons_of_pos hq]

theorem urlInput_eq (s : Bytes) : urlInput s = trimUrl (s.filter fun c => !urlSkips c) := by
  have h : ∀ c : UInt8, (!urlSkips c) = false → decide (c ≤ 32) = true := by
    intro c hc
    have := dropped_le ((urlSkips_iff c).mp (by simpa using hc))
    simpa [UInt8.le_iff_toNat_le] using this
  unfold urlInput trimUrl
  rw [dropWhile_filter_comm h, ← List.filter_reverse, dropWhile_filter_comm h, ← List.filter_reverse]

/-- the parser does not see a dropped character -/
theorem urlInput_dropped {c : UInt8} (hc : Dropped c) (x y : Bytes) : urlInput (x ++ c :: y) = urlInput (x ++ y) := by
  rw [urlInput_eq, urlInput_eq, List.filter_append, List.filter_cons_of_neg (by simp [(urlSkips_iff c).mpr hc]), ← List.filter_append]

theorem urlParse_dropped (H : HostParser) {c : UInt8} (hc : Dropped c) (x y : Bytes) :
    urlParse H (x ++ c :: y) = urlParse H (x ++ y) := by
  unfold urlParse; rw [urlInput_dropped hc]

variable {sp : Bool}

theorem endsAuthority_iff (c : UInt8) : endsAuthority sp c = true ↔ Delimiter sp c := by
  simp only [endsAuthority, Delimiter, Bool.or_eq_true, Bool.and_eq_true, beq_iff_eq, or_assoc]

theorem lastAt_none {s : Bytes} (h : ∀ a b, s = a ++ 64 :: b → ∃ c ∈ a, endsAuthority sp c = true) : lastAt sp s = none := by
  induction s with
  | nil => rfl
  | cons c s ih =>
    rw [lastAt]
    split
    · rfl
    · next hc =>
      have hn : lastAt sp s = none := by
        apply ih
        intro a b he
        obtain ⟨x, hx, hxe⟩ := h (c :: a) b (by rw [he]; rfl)
        rcases List.mem_cons.mp hx with rfl | hx
        · exact absurd hxe hc
        · exact ⟨x, hx, hxe⟩
      rw [hn]
      simp only
      split
      · next h64 =>
        subst h64
        obtain ⟨x, hx, _⟩ := h [] s rfl
        exact absurd hx (by simp)
      · rfl

theorem lastAt_user {v r : Bytes} (hv : ∀ c ∈ v, endsAuthority sp c = false) (hr : lastAt sp r = none) :
    lastAt sp (v ++ 64 :: r) = some (v, r) := by
  induction v with
  | nil =>
    have h64 : ¬endsAuthority sp 64 = true := by simp [endsAuthority]
    simp only [List.nil_append, lastAt, hr, if_true, if_neg h64]
  | cons c v ih =>
    have hc := hv c List.mem_cons_self
    rw [List.cons_append, lastAt, hc, ih fun x hx => hv x (List.mem_cons_of_mem _ hx)]
    rfl

theorem lastAt_some {s v r : Bytes} (h : lastAt sp s = some (v, r)) :
    s = v ++ 64 :: r ∧ (∀ c ∈ v, endsAuthority sp c = false) ∧ lastAt sp r = none := by
  induction s generalizing v with
  | nil => exact absurd h (by simp [lastAt])
  | cons c s ih =>
    rw [lastAt] at h
    split at h
    · exact absurd h (by simp)
    · next hc =>
      have hcf : endsAuthority sp c = false := by simpa using hc
      cases hl : lastAt sp s with
      | none =>
        rw [hl] at h
        simp only at h
        split at h
        · next h64 =>
          obtain ⟨rfl, rfl⟩ := Prod.mk.inj (Option.some.inj h)
          exact ⟨by rw [h64]; rfl, by simp, hl⟩
        · exact absurd h (by simp)
      | some x =>
        obtain ⟨u, r'⟩ := x
        rw [hl] at h
        simp only at h
        obtain ⟨rfl, rfl⟩ := Prod.mk.inj (Option.some.inj h)
        obtain ⟨h1, h2, h3⟩ := ih hl
        refine ⟨by rw [h1]; rfl, ?_, h3⟩
        intro x hx
        rcases List.mem_cons.mp hx with rfl | hx
        · exact hcf
        · exact h2 x hx

theorem lastAt_none_before {s : Bytes} (h : lastAt sp s = none) (a b : Bytes) (he : s = a ++ 64 :: b) :
    ∃ c ∈ a, endsAuthority sp c = true := by
  induction s generalizing a with
  | nil => simp at he
  | cons c s ih =>
    rw [lastAt] at h
    split at h
    · next hc =>
      cases a with
      | nil =>
        obtain ⟨rfl, rfl⟩ := List.cons.inj he
        exact absurd hc (by simp [endsAuthority])
      | cons x a =>
        obtain ⟨rfl, _⟩ := List.cons.inj he
        exact ⟨c, List.mem_cons_self, hc⟩
    · cases hl : lastAt sp s with
      | some x => rw [hl] at h; exact absurd h (by simp)
      | none =>
        rw [hl] at h
        simp only at h
        cases a with
        | nil =>
          obtain ⟨rfl, rfl⟩ := List.cons.inj he
          simp at h
        | cons x a =>
          obtain ⟨rfl, he'⟩ := List.cons.inj he
          obtain ⟨y, hy, hye⟩ := ih hl a he'
          exact ⟨y, List.mem_cons_of_mem _ hy, hye⟩

/-- where a host's text stops -/
def HostStops (sp b : Bool) (rest : Bytes) : Prop :=
  rest = [] ∨ ∃ c r, rest = c :: r ∧ ((c = 58 ∧ b = false) ∨ endsAuthority sp c = true)

theorem hostSplit_stops {b : Bool} {rest : Bytes} (h : HostStops sp b rest) : hostSplit sp b rest = ([], rest) := by
  rcases h with rfl | ⟨c, r, rfl, h⟩
  · rfl
  · rw [hostSplit, if_pos h]

theorem hostSplit_text {text rest : Bytes} {b b' : Bool} (h : HostText sp b text b') (hr : HostStops sp b' rest) :
    hostSplit sp b (text ++ rest) = (text, rest) := by
  induction h with
  | nil => exact hostSplit_stops hr
  | opening _ ih =>
    rw [List.cons_append, hostSplit, if_neg (by simp [endsAuthority])]
    simp only [if_true, ih hr]
  | closing _ ih =>
    rw [List.cons_append, hostSplit, if_neg (by simp [endsAuthority])]
    simp only [if_neg (show ¬(93 : UInt8) = 91 by decide), if_true, ih hr]
  | colon _ ih =>
    rw [List.cons_append, hostSplit, if_neg (by simp [endsAuthority])]
    simp only [if_neg (show ¬(58 : UInt8) = 91 by decide), if_neg (show ¬(58 : UInt8) = 93 by decide), ih hr]
  | other hd _ hc ho hcl _ ih =>
    rw [List.cons_append, hostSplit, if_neg (by rw [endsAuthority_iff]; simp [hc, hd])]
    simp only [if_neg ho, if_neg hcl, ih hr]

theorem hostSplit_spec (s : Bytes) : ∀ (b : Bool) (text rest : Bytes), hostSplit sp b s = (text, rest) →
    (∀ a x, text = a ++ 64 :: x → False) →
    ∃ b', s = text ++ rest ∧ HostText sp b text b' ∧ HostStops sp b' rest := by
  induction s with
  | nil =>
    intro b text rest h _
    obtain ⟨rfl, rfl⟩ := Prod.mk.inj h
    exact ⟨b, rfl, .nil, .inl rfl⟩
  | cons c s ih =>
    intro b text rest h hat
    rw [hostSplit] at h
    split at h
    · next hs =>
      obtain ⟨rfl, rfl⟩ := Prod.mk.inj h
      exact ⟨b, rfl, .nil, .inr ⟨c, s, rfl, hs⟩⟩
    · next hs =>
      simp only at h
      obtain ⟨rfl, hrest⟩ := Prod.mk.inj h
      have hs' := not_or.mp hs
      have key := ih (if c = 91 then true else if c = 93 then false else b)
        (hostSplit sp (if c = 91 then true else if c = 93 then false else b) s).1 rest
        (by rw [← hrest])
        (by intro a x he; exact hat (c :: a) x (by rw [he]; rfl))
      obtain ⟨b', h1, h2, h3⟩ := key
      refine ⟨b', by rw [List.cons_append, ← h1], ?_, h3⟩
      by_cases h91 : c = 91
      · subst h91; exact .opening (by simpa using h2)
      · by_cases h93 : c = 93
        · subst h93; exact .closing (by simpa using h2)
        · simp only [h91, h93, if_false] at h2 ⊢
          by_cases h58 : c = 58
          · subst h58
            have hb : b = true := by
              cases b with
              | true => rfl
              | false => exact absurd ⟨rfl, rfl⟩ hs'.1
            subst hb
            exact .colon h2
          · refine .other (by rw [← endsAuthority_iff]; exact hs'.2) ?_ h58 h91 h93 h2
            rintro rfl
            exact hat [] _ rfl

theorem hostText_no_at {b b' : Bool} {text : Bytes} (h : HostText sp b text b') : ∀ c ∈ text, c ≠ 64 ∧ ¬Delimiter sp c := by
  induction h with
  | nil => simp
  | opening _ ih => intro c hc; rcases List.mem_cons.mp hc with rfl | hc; exact ⟨by decide, by simp [Delimiter]⟩; exact ih c hc
  | closing _ ih => intro c hc; rcases List.mem_cons.mp hc with rfl | hc; exact ⟨by decide, by simp [Delimiter]⟩; exact ih c hc
  | colon _ ih => intro c hc; rcases List.mem_cons.mp hc with rfl | hc; exact ⟨by decide, by simp [Delimiter]⟩; exact ih c hc
  | other hd hat _ _ _ _ ih => intro c hc; rcases List.mem_cons.mp hc with rfl | hc; exact ⟨hat, hd⟩; exact ih c hc

theorem foldl_ge (ds : Bytes) : ∀ n, n ≤ ds.foldl (fun n d => n * 10 + (d.toNat - 48)) n := by
  induction ds with
  | nil => intro n; exact Nat.le_refl _
  | cons d ds ih => intro n; exact Nat.le_trans (show n ≤ n * 10 + (d.toNat - 48) by omega) (ih _)

theorem portOk_of {ds tail : Bytes} (hd : ∀ d ∈ ds, 48 ≤ d.toNat ∧ d.toNat ≤ 57) (ht : NoAuthority true tail) :
    ∀ n, ds.foldl (fun n d => n * 10 + (d.toNat - 48)) n ≤ 65535 → portOk n (ds ++ tail) = true := by
  induction ds with
  | nil =>
    intro n _
    rcases ht with rfl | ⟨c, r, rfl, hc⟩
    · rfl
    · rcases hc with rfl | rfl | rfl | ⟨_, rfl⟩ <;> simp [portOk]
  | cons d ds ih =>
    intro n hn
    have h0 := hd d List.mem_cons_self
    have hlt := foldl_ge ds (n * 10 + (d.toNat - 48))
    rw [List.foldl_cons] at hn
    rw [List.cons_append, portOk, if_pos (by simp only [UInt8.le_iff_toNat_le]; exact h0),
      if_neg (by omega)]
    exact ih (fun x hx => hd x (List.mem_cons_of_mem _ hx)) _ hn

theorem portOk_spec (s : Bytes) : ∀ n, n ≤ 65535 → portOk n s = true →
    ∃ ds tail, s = ds ++ tail ∧ (∀ d ∈ ds, 48 ≤ d.toNat ∧ d.toNat ≤ 57) ∧
      ds.foldl (fun n d => n * 10 + (d.toNat - 48)) n ≤ 65535 ∧ NoAuthority true tail := by
  induction s with
  | nil => intro n hn _; exact ⟨[], [], rfl, by simp, hn, .inl rfl⟩
  | cons c s ih =>
    intro n hn h
    rw [portOk] at h
    split at h
    · next hd =>
      split at h
      · exact absurd h (by simp)
      · next hle =>
        obtain ⟨ds, tail, rfl, h1, h2, h3⟩ := ih _ (by omega) h
        refine ⟨c :: ds, tail, rfl, ?_, h2, h3⟩
        intro d hx
        rcases List.mem_cons.mp hx with rfl | hx
        · simpa [UInt8.le_iff_toNat_le] using hd
        · exact h1 d hx
    · refine ⟨[], c :: s, rfl, by simp, hn, .inr ⟨c, s, rfl, ?_⟩⟩
      simp only [Bool.or_eq_true, beq_iff_eq] at h
      rcases h with ((h | h) | h) | h <;> simp [Delimiter, h]


theorem afterDoubleSlash_special_host (H : HostParser) (x : Bytes) : afterDoubleSlash H true x ≠ some none := by
  unfold afterDoubleSlash
  cases parseUserinfo true x with
  | none => simp
  | some u =>
    obtain ⟨user, input⟩ := u
    simp only
    cases parseHost H true (hostSplit true false input).1 with
    | none => simp
    | some h =>
      cases h with
      | nil => simp
      | cons a h =>
        simp only
        split
        · split <;> simp
        · simp

/-- the parser of hosts -/
def hostOf (H : HostParser) (sp : Bool) : Bytes → Option Bytes := if sp then H.special else H.other

theorem parseHost_of {H : HostParser} {text : Bytes} (h : text ≠ []) : parseHost H sp text = hostOf H sp text := by
  cases sp <;> simp [parseHost, hostOf, h]

theorem tailPart_noAuthority {port tail : Bytes} (h : TailPart sp port tail) (hp : port ≠ []) : NoAuthority true tail := by
  rcases h with (h | ⟨c, r, rfl, h⟩) | ⟨_, r, rfl, _⟩
  · exact .inl h
  · refine .inr ⟨c, r, rfl, ?_⟩
    rcases h with h | h | h | h
    · exact .inl h
    · exact .inr (.inl h)
    · exact .inr (.inr (.inl h))
    · exact .inr (.inr (.inr ⟨rfl, h.2⟩))
  · exact .inr ⟨92, r, rfl, .inr (.inr (.inr ⟨rfl, rfl⟩))⟩

/-- the host's text, port and tail behind the user name -/
theorem afterUser_iff (H : HostParser) (input : Bytes) (hat : lastAt sp input = none) (user : Bool) :
    (∃ h, (match parseHost H sp (hostSplit sp false input).1 with
        | none => none
        | some [] => if sp || (hostSplit sp false input).2.head? == some 58 || user then none else some none
        | some host =>
          match (hostSplit sp false input).2 with
          | 58 :: port => if portOk 0 port then some (some host) else none
          | _ => some (some host)) = some (some h)) ↔
    ∃ text opened port tail h, input = text ++ port ++ tail ∧ text ≠ [] ∧ HostText sp false text opened ∧ hostOf H sp text = some h ∧
      h ≠ [] ∧ PortPart port ∧ (port ≠ [] → opened = false) ∧ TailPart sp port tail := by
  constructor
  · rintro ⟨h, hh⟩
    have hno : ∀ a x, (hostSplit sp false input).1 = a ++ 64 :: x → False := by
      have hpre : ∀ (s : Bytes) (b : Bool), s = (hostSplit sp b s).1 ++ (hostSplit sp b s).2 ∧
          ∀ c ∈ (hostSplit sp b s).1, endsAuthority sp c = false := by
        intro s
        induction s with
        | nil => intro b; exact ⟨rfl, by simp [hostSplit]⟩
        | cons c s ih =>
          intro b
          rw [hostSplit]
          split
          · exact ⟨rfl, by simp⟩
          · next hs =>
            obtain ⟨h1, h2⟩ := ih (if c = 91 then true else if c = 93 then false else b)
            refine ⟨by simp only [List.cons_append, ← h1], ?_⟩
            intro x hx
            rcases List.mem_cons.mp hx with rfl | hx
            · simpa using (not_or.mp hs).2
            · exact h2 x hx
      intro a x he
      obtain ⟨h1, h2⟩ := hpre input false
      rw [he] at h2
      obtain ⟨c, hc, hce⟩ := lastAt_none_before hat a (x ++ (hostSplit sp false input).2) (by
        conv => lhs; rw [h1]
        rw [he]; simp)
      rw [h2 c (List.mem_append_left _ hc)] at hce
      exact absurd hce (by simp)
    obtain ⟨b', h1, h2, h3⟩ := hostSplit_spec input false _ _ rfl hno
    generalize (hostSplit sp false input).1 = text at *
    generalize (hostSplit sp false input).2 = rest at *
    have hne : text ≠ [] := by
      rintro rfl
      cases sp <;> simp [parseHost] at hh
    rw [parseHost_of hne] at hh
    cases hs : hostOf H sp text with
    | none => rw [hs] at hh; simp at hh
    | some host =>
      rw [hs] at hh
      cases host with
      | nil => simp only at hh; split at hh <;> simp at hh
      | cons a host =>
        simp only at hh
        rcases h3 with rfl | ⟨c, r, rfl, hc⟩
        · exact ⟨text, b', [], [], a :: host, by simp [h1], hne, h2, hs, by simp, .inl rfl, by simp, .inl (.inl rfl)⟩
        · rcases hc with ⟨rfl, rfl⟩ | hc
          · simp only at hh
            split at hh
            · next hpo =>
              obtain ⟨ds, tail, rfl, hd, hn, ht⟩ := portOk_spec r 0 (by omega) hpo
              refine ⟨text, false, 58 :: ds, tail, a :: host, by simp [h1], hne, h2, hs, by simp,
                .inr ⟨ds, rfl, hd, hn⟩, fun _ => rfl, ?_⟩
              rcases ht with rfl | ⟨c, t, rfl, ht⟩
              · exact .inl (.inl rfl)
              · by_cases hc : Delimiter sp c
                · exact .inl (.inr ⟨c, t, rfl, hc⟩)
                · have hc92 : c = 92 := by
                    rcases ht with h | h | h | h
                    · exact absurd (.inl h) hc
                    · exact absurd (.inr (.inl h)) hc
                    · exact absurd (.inr (.inr (.inl h))) hc
                    · exact h.2
                  subst hc92
                  refine .inr ⟨by simp, t, rfl, ?_⟩
                  intro x y he
                  obtain ⟨d, hd1, hd2⟩ := lastAt_none_before hat (text ++ 58 :: ds ++ 92 :: x) y (by rw [h1, he]; simp)
                  rw [endsAuthority_iff] at hd2
                  rcases List.mem_append.mp hd1 with hd1 | hd1
                  · rcases List.mem_append.mp hd1 with hd1 | hd1
                    · exact absurd hd2 (hostText_no_at h2 d hd1).2
                    · rcases List.mem_cons.mp hd1 with rfl | hd1
                      · exact absurd hd2 (by simp [Delimiter])
                      · have := hd d hd1
                        rcases hd2 with rfl | rfl | rfl | ⟨_, rfl⟩ <;> exact absurd this (by decide)
                  · rcases List.mem_cons.mp hd1 with rfl | hd1
                    · exact absurd hd2 hc
                    · exact ⟨d, hd1, hd2⟩
            · simp at hh
          · exact ⟨text, b', [], c :: r, a :: host, by simp [h1], hne, h2, hs, by simp, .inl rfl, by simp,
              .inl (.inr ⟨c, r, rfl, (endsAuthority_iff c).mp hc⟩)⟩
  · rintro ⟨text, opened, port, tail, h, rfl, hne, ht, hh, hhn, hport, hop, htail⟩
    have hstop : HostStops sp opened (port ++ tail) := by
      rcases hport with rfl | ⟨ds, rfl, _, _⟩
      · rcases htail with (rfl | ⟨c, r, rfl, hc⟩) | ⟨hp, _⟩
        · exact .inl rfl
        · exact .inr ⟨c, r, rfl, .inr ((endsAuthority_iff c).mpr hc)⟩
        · exact absurd rfl hp
      · exact .inr ⟨58, ds ++ tail, rfl, .inl ⟨rfl, hop (by simp)⟩⟩
    rw [List.append_assoc, hostSplit_text ht hstop]
    refine ⟨h, ?_⟩
    have hp : parseHost H sp text = some h := by rw [parseHost_of hne, hh]
    simp only [hp]
    cases h with
    | nil => exact absurd rfl hhn
    | cons a h =>
      rcases hport with rfl | ⟨ds, rfl, hd, hn⟩
      · rcases htail with (rfl | ⟨c, r, rfl, hc⟩) | ⟨hp, _⟩
        · rfl
        · rcases hc with rfl | rfl | rfl | ⟨_, rfl⟩ <;> rfl
        · exact absurd rfl hp
      · simp only [List.cons_append]
        rw [if_pos (portOk_of hd (tailPart_noAuthority htail (by simp)) 0 hn)]

theorem slash_iff (c : UInt8) : (c == 47 || c == 92) = true ↔ Slash c := by simp [Slash]

theorem noAt_of_parts {text port tail : Bytes} {b : Bool} (ht : HostText sp false text b) (hp : PortPart port)
    (htail : TailPart sp port tail) : lastAt sp (text ++ port ++ tail) = none := by
  apply lastAt_none
  intro a x he
  have hclean : ∀ c ∈ text ++ port, c ≠ 64 := by
    intro c hc
    rcases List.mem_append.mp hc with hc | hc
    · exact (hostText_no_at ht c hc).1
    · rcases hp with rfl | ⟨ds, rfl, hd, _⟩
      · simp at hc
      · rcases List.mem_cons.mp hc with rfl | hc
        · decide
        · rintro rfl; exact absurd (hd _ hc).2 (by decide)
  have htl : ∀ y z, tail = y ++ 64 :: z → ∃ c ∈ y, endsAuthority sp c = true := by
    intro y z hy
    rcases htail with (rfl | ⟨c, r, rfl, hc⟩) | ⟨_, r, rfl, hr⟩
    · have := congrArg List.length hy
      simp at this
    · cases y with
      | nil =>
        obtain ⟨rfl, _⟩ := List.cons.inj hy
        exact absurd hc (by simp [Delimiter])
      | cons d y =>
        obtain ⟨rfl, _⟩ := List.cons.inj hy
        exact ⟨c, by simp, (endsAuthority_iff c).mpr hc⟩
    · cases y with
      | nil =>
        obtain ⟨h, _⟩ := List.cons.inj hy
        exact absurd h (by decide)
      | cons d y =>
        obtain ⟨rfl, hy'⟩ := List.cons.inj hy
        obtain ⟨c, h1, h2⟩ := hr _ _ hy'
        exact ⟨c, List.mem_cons_of_mem _ h1, (endsAuthority_iff c).mpr h2⟩
  rcases List.append_eq_append_iff.mp he with ⟨as, h1, h2⟩ | ⟨bs, h1, h2⟩
  · obtain ⟨c, hc, hce⟩ := htl _ _ h2
    exact ⟨c, by rw [h1]; exact List.mem_append_right _ hc, hce⟩
  · cases bs with
    | nil =>
      obtain ⟨c, hc, _⟩ := htl [] x (by rw [List.nil_append] at h2; exact h2.symm)
      exact absurd hc (by simp)
    | cons y bs =>
      obtain ⟨rfl, _⟩ := List.cons.inj h2
      exact absurd rfl (hclean 64 (by rw [h1]; simp))

theorem afterDoubleSlash_iff (H : HostParser) (input : Bytes) :
    (∃ h, afterDoubleSlash H sp input = some (some h)) ↔ Hosted sp (hostOf H sp) input := by
  constructor
  · rintro ⟨h, hh⟩
    unfold afterDoubleSlash parseUserinfo at hh
    cases hl : lastAt sp input with
    | none =>
      rw [hl] at hh
      obtain ⟨text, opened, port, tail, h, rfl, rest⟩ := (afterUser_iff H input hl false).mp ⟨h, hh⟩
      exact ⟨[], text, opened, port, tail, h, by simp, .inl rfl, rest⟩
    | some x =>
      obtain ⟨v, r⟩ := x
      obtain ⟨rfl, hv, hr⟩ := lastAt_some hl
      rw [hl] at hh
      have hgo : ∃ b, ∃ h, (match parseHost H sp (hostSplit sp false r).1 with
          | none => none
          | some [] => if sp || (hostSplit sp false r).2.head? == some 58 || b then none else some none
          | some host =>
            match (hostSplit sp false r).2 with
            | 58 :: port => if portOk 0 port then some (some host) else none
            | _ => some (some host)) = some (some h) := by
        by_cases hv0 : v = []
        · subst hv0
          simp only [if_true] at hh
          cases r with
          | nil => exact ⟨false, h, hh⟩
          | cons c r =>
            simp only at hh
            by_cases he : endsAuthority sp c = true
            · rw [if_pos he] at hh; simp at hh
            · rw [if_neg he] at hh; exact ⟨false, h, hh⟩
        · simp only [if_neg hv0] at hh
          exact ⟨_, h, hh⟩
      obtain ⟨b, hb⟩ := hgo
      obtain ⟨text, opened, port, tail, h, rfl, rest⟩ := (afterUser_iff H r hr b).mp hb
      exact ⟨v ++ [64], text, opened, port, tail, h, by simp,
        .inr ⟨v, rfl, fun c hc hd => by have := hv c hc; rw [(endsAuthority_iff c).mpr hd] at this; exact absurd this (by simp)⟩, rest⟩
  · rintro ⟨user, text, opened, port, tail, h, rfl, huser, hne, htext, hh, hhn, hport, hop, htail⟩
    have hnone := noAt_of_parts htext hport htail
    have hgo := fun b => (afterUser_iff H (text ++ port ++ tail) hnone b).mpr
      ⟨text, opened, port, tail, h, rfl, hne, htext, hh, hhn, hport, hop, htail⟩
    unfold afterDoubleSlash parseUserinfo
    rcases huser with rfl | ⟨v, rfl, hv⟩
    · rw [List.nil_append, hnone]
      exact hgo false
    · have hv' : ∀ c ∈ v, endsAuthority sp c = false := by
        intro c hc
        have := mt (endsAuthority_iff c).mp (hv c hc)
        simpa using this
      have e : v ++ [64] ++ text ++ port ++ tail = v ++ 64 :: (text ++ port ++ tail) := by simp
      rw [e, lastAt_user hv' hnone]
      simp only
      by_cases hv0 : v = []
      · subst hv0
        simp only [if_true]
        cases htx : text with
        | nil => exact absurd htx hne
        | cons c r =>
          have hc : endsAuthority sp c = false := by
            have := mt (endsAuthority_iff c).mp (hostText_no_at htext c (by rw [htx]; simp)).2
            simpa using this
          rw [htx] at hgo
          simp only [List.cons_append, hc] at hgo ⊢
          exact hgo false
      · simp only [if_neg hv0]
        exact hgo _

/-- an authority with a host does not begin with a slash, in a web address -/
theorem hosted_head {host : Bytes → Option Bytes} {x : Bytes} (h : Hosted true host x) : ∃ c r, x = c :: r ∧ ¬Slash c := by
  obtain ⟨user, text, opened, port, tail, h, rfl, huser, hne, htext, _⟩ := h
  have hd : ∀ c, ¬Delimiter true c → ¬Slash c := by
    intro c h1 h2
    rcases h2 with h2 | h2
    · exact h1 (.inl h2)
    · exact h1 (.inr (.inr (.inr ⟨rfl, h2⟩)))
  rcases huser with rfl | ⟨v, rfl, hv⟩
  · cases text with
    | nil => exact absurd rfl hne
    | cons c r => exact ⟨c, _, rfl, hd c (hostText_no_at htext c (by simp)).2⟩
  · cases v with
    | nil => exact ⟨64, _, rfl, by simp [Slash]⟩
    | cons c v => exact ⟨c, _, rfl, hd c (hv c (by simp))⟩

theorem afterSlashes_iff (H : HostParser) (t : Bytes) :
    (∃ h, afterDoubleSlash H true (t.dropWhile fun c => c == 47 || c == 92) = some (some h)) ↔
    ∃ slashes x, t = slashes ++ x ∧ (∀ c ∈ slashes, Slash c) ∧ Hosted true H.special x := by
  rw [afterDoubleSlash_iff]
  constructor
  · intro h
    refine ⟨t.takeWhile (fun c => c == 47 || c == 92), _, (List.takeWhile_append_dropWhile ..).symm, ?_, h⟩
    intro c hc
    exact (slash_iff c).mp (List.all_eq_true.mp (List.all_takeWhile (p := fun c : UInt8 => c == 47 || c == 92) (l := t)) c hc)
  · rintro ⟨slashes, x, rfl, hs, hx⟩
    obtain ⟨c, r, rfl, hc⟩ := hosted_head hx
    rw [List.dropWhile_append_of_pos fun c hc => (slash_iff c).mpr (hs c hc), List.dropWhile_cons_of_neg (by rw [slash_iff]; exact hc)]
    exact hx

end Siwe
