import Verif.Props.Eip4361
import Verif.Spec.Rfc3986
/-
The characters of the authorities and URIs of RFC 3986.
-/
namespace Siwe
open Spec Rfc3986

/-! ### which characters there are -/

/-- The characters of an authority. -/
def isAuthorityChar (c : UInt8) : Bool := isUnreserved c || isSubDelim c || isHex c || (ascii ":@[]%").contains c

theorem chars_all {p q : UInt8 → Bool} {s : Bytes} (h : Chars p s) (hp : ∀ c, p c = true → q c = true) (hq : q 37 = true)
    (hh : ∀ c, isHex c = true → q c = true) : ∀ c ∈ s, q c = true := by
  induction h with
  | nil => exact fun _ h => nomatch h
  | char h _ ih => exact List.forall_mem_cons.mpr ⟨hp _ h, ih⟩
  | pct h1 h2 _ ih => exact List.forall_mem_cons.mpr ⟨hq, List.forall_mem_cons.mpr ⟨hh _ h1, List.forall_mem_cons.mpr ⟨hh _ h2, ih⟩⟩⟩

theorem userInfo_all {q : UInt8 → Bool} (hq : ∀ c, (isUnreserved c || isSubDelim c || isHex c || c == 58 || c == 37) = true → q c = true)
    {s : Bytes} (h : Rfc3986.UserInfo s) : ∀ c ∈ s, q c = true := by
  refine chars_all h (fun c hc => hq c ?_) (hq 37 (by decide)) (fun c hc => hq c ?_)
  · revert hc; cases isUnreserved c <;> cases isSubDelim c <;> cases c == 58 <;> simp
  · simp [hc]

theorem regName_all {q : UInt8 → Bool} (hq : ∀ c, (isUnreserved c || isSubDelim c || isHex c || c == 37) = true → q c = true)
    {s : Bytes} (h : RegName s) : ∀ c ∈ s, q c = true := by
  refine chars_all h (fun c hc => hq c ?_) (hq 37 (by decide)) (fun c hc => hq c ?_)
  · revert hc; cases isUnreserved c <;> cases isSubDelim c <;> simp
  · simp [hc]

theorem h16_all {s : Bytes} (h : H16 s) : ∀ c ∈ s, isHex c = true := h.2.2

theorem ip4_all {s : Bytes} (h : Ip4 s) : ∀ c ∈ s, (isDigit c || c == 46) = true := by
  obtain ⟨a, b, c, d, rfl, h⟩ := h
  have hd : ∀ x ∈ [a, b, c, d], ∀ c ∈ x, (isDigit c || c == 46) = true := by
    intro x hx y hy
    obtain ⟨n, _, _, h2, _⟩ := h x hx
    simp [(isDigit_iff y).mpr (h2 y hy)]
  simp only [List.forall_mem_cons] at hd
  obtain ⟨h1, h2, h3, h4, _⟩ := hd
  simp only [List.forall_mem_append, List.forall_mem_cons]
  exact ⟨⟨⟨h1, by decide, h2⟩, by decide, h3⟩, by decide, h4⟩

/-- The characters of an IPv6 address. -/
def isIp6Char (c : UInt8) : Bool := isHex c || c == 46 || c == 58

theorem groups_all {s : Bytes} {n : Nat} (h : Groups s n) : ∀ c ∈ s, isIp6Char c = true := by
  have hx : ∀ {g : Bytes}, H16 g → ∀ c ∈ g, isIp6Char c = true := fun h c hc => by simp [isIp6Char, h16_all h c hc]
  induction h with
  | one h => exact hx h
  | two h =>
    intro c hc
    have := ip4_all h c hc
    revert this; unfold isIp6Char isHex
    cases isDigit c <;> simp_all
  | more h _ ih => exact List.forall_mem_append.mpr ⟨hx h, List.forall_mem_cons.mpr ⟨by decide, ih⟩⟩

theorem plainGroups_all {s : Bytes} {n : Nat} (h : PlainGroups s n) : ∀ c ∈ s, isIp6Char c = true := by
  have hx : ∀ {g : Bytes}, H16 g → ∀ c ∈ g, isIp6Char c = true := fun h c hc => by simp [isIp6Char, h16_all h c hc]
  induction h with
  | one h => exact hx h
  | more h _ ih => exact List.forall_mem_append.mpr ⟨hx h, List.forall_mem_cons.mpr ⟨by decide, ih⟩⟩

/-- The characters between the brackets of an IP literal. -/
def isLiteralChar (c : UInt8) : Bool := isUnreserved c || isSubDelim c || isHex c || c == 58

theorem ip6_all {s : Bytes} (h : Ip6 s) : ∀ c ∈ s, isLiteralChar c = true := by
  have key : ∀ c, isIp6Char c = true → isLiteralChar c = true := by apply u8_all; decide +kernel
  intro c hc
  apply key
  rcases h with h | ⟨l, r, n, m, rfl, hl, hr, _⟩
  · exact groups_all h c hc
  · have h1 : ∀ c ∈ l, isIp6Char c = true := by
      rcases hl with ⟨rfl, _⟩ | hl
      · exact fun _ h => nomatch h
      · exact plainGroups_all hl
    have h2 : ∀ c ∈ r, isIp6Char c = true := by
      rcases hr with ⟨rfl, _⟩ | hr
      · exact fun _ h => nomatch h
      · exact groups_all hr
    revert c
    exact List.forall_mem_append.mpr ⟨h1, List.forall_mem_cons.mpr ⟨by decide, List.forall_mem_cons.mpr ⟨by decide, h2⟩⟩⟩

theorem ipFuture_all {s : Bytes} (h : IpFuture s) : ∀ c ∈ s, isLiteralChar c = true := by
  obtain ⟨v, ds, cs, rfl, hv, _, hd, _, hc⟩ := h
  refine List.forall_mem_append.mpr ⟨List.forall_mem_cons.mpr ⟨by rcases hv with rfl | rfl <;> decide, fun c h => ?_⟩,
    List.forall_mem_cons.mpr ⟨by decide, fun c h => ?_⟩⟩
  · simp [isLiteralChar, hd c h]
  · have := hc c h
    revert this; unfold isLiteralChar
    cases isUnreserved c <;> cases isSubDelim c <;> simp_all

theorem host_all {s : Bytes} (h : Host s) : ∀ c ∈ s, isAuthorityChar c = true := by
  rcases h with h | ⟨x, rfl, h⟩
  · exact regName_all (q := isAuthorityChar) (by apply u8_all; decide +kernel) h
  · have key : ∀ c, isLiteralChar c = true → isAuthorityChar c = true := by apply u8_all; decide +kernel
    have hx : ∀ c ∈ x, isAuthorityChar c = true := by
      intro c hc
      rcases h with h | h
      · exact key c (ip6_all h c hc)
      · exact key c (ipFuture_all h c hc)
    exact List.forall_mem_append.mpr ⟨List.forall_mem_cons.mpr ⟨by decide, hx⟩, by decide⟩

theorem authority_all {s : Bytes} (h : Authority s) : ∀ c ∈ s, isAuthorityChar c = true := by
  obtain ⟨user, host, port, rfl, hu, hh, hp⟩ := h
  refine List.forall_mem_append.mpr ⟨List.forall_mem_append.mpr ⟨?_, host_all hh⟩, ?_⟩
  · rcases hu with rfl | ⟨u, rfl, hu⟩
    · exact fun _ h => nomatch h
    · exact List.forall_mem_append.mpr ⟨userInfo_all (q := isAuthorityChar) (by apply u8_all; decide +kernel) hu, by decide⟩
  · rcases hp with rfl | ⟨p, rfl, hp⟩
    · exact fun _ h => nomatch h
    · have key : ∀ c, isDigit c = true → isAuthorityChar c = true := by apply u8_all; decide +kernel
      exact List.forall_mem_cons.mpr ⟨by decide, fun c hc => key c (hp c hc)⟩

/-- The characters of a URI. -/
def isUriChar (c : UInt8) : Bool := isAuthorityChar c || (ascii "/?#").contains c

theorem query_all {s : Bytes} (h : Query s) : ∀ c ∈ s, isUriChar c = true :=
  chars_all h (by apply u8_all; decide +kernel) (by decide) (by apply u8_all; decide +kernel)

theorem path_all {s : Bytes} (h : Path s) : ∀ c ∈ s, isUriChar c = true :=
  chars_all h (by apply u8_all; decide +kernel) (by decide) (by apply u8_all; decide +kernel)

theorem scheme_all {s : Bytes} (h : Scheme s) : ∀ c ∈ s, isUriChar c = true := by
  have key : ∀ c, (isAlpha c || isDigit c || (ascii "+-.").contains c) = true → isUriChar c = true := by apply u8_all; decide +kernel
  intro c hc
  apply key
  rcases h.2 c hc with h | h | h <;> simp [h]

theorem uri_all {s : Bytes} (h : Uri s) : ∀ c ∈ s, isUriChar c = true := by
  obtain ⟨scheme, hier, query, fragment, rfl, hs, hh, hq, hf⟩ := h
  have key : ∀ c, isAuthorityChar c = true → isUriChar c = true := fun c h => by simp [isUriChar, h]
  refine List.forall_mem_append.mpr ⟨List.forall_mem_append.mpr ⟨List.forall_mem_append.mpr ⟨scheme_all hs,
    List.forall_mem_cons.mpr ⟨by decide, ?_⟩⟩, ?_⟩, ?_⟩
  · rcases hh with ⟨a, p, rfl, ha, hp, _⟩ | ⟨hp, _⟩
    · exact List.forall_mem_append.mpr ⟨List.forall_mem_cons.mpr ⟨by decide, List.forall_mem_cons.mpr ⟨by decide,
        fun c hc => key c (authority_all ha c hc)⟩⟩, path_all hp⟩
    · exact path_all hp
  · rcases hq with rfl | ⟨q, rfl, hq⟩
    · exact fun _ h => nomatch h
    · exact List.forall_mem_cons.mpr ⟨by decide, query_all hq⟩
  · rcases hf with rfl | ⟨q, rfl, hq⟩
    · exact fun _ h => nomatch h
    · exact List.forall_mem_cons.mpr ⟨by decide, query_all hq⟩

theorem authority_plain (b : Bytes) (h : Authority b) : (10 : UInt8) ∉ b ∧ (47 : UInt8) ∉ b :=
  ⟨fun g => absurd (authority_all h _ g) (by decide), fun g => absurd (authority_all h _ g) (by decide)⟩

theorem uri_oneLine (b : Bytes) (h : Uri b) : (10 : UInt8) ∉ b := fun g => absurd (uri_all h _ g) (by decide)

end Siwe
