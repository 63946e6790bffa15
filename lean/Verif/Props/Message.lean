import Verif.Lemmas.Prepare
import Verif.Examples.Toy
import Mathlib.Tactic.FinCases
/- Properties C09-C13: the sign-in message, its text, and the store of pending messages. -/
namespace Siwe
open Spec

/-! ### C09 -/

/-- C09: every message renders, and the text is the ERC-4361 text whose timestamps denote exactly the
message's issue and expiry nanosecond. -/
theorem C09_text_total (ε : Type) (m : SiweMessage) :
    ∃ txt, (m.text : Res ε Bytes) = .ok txt ∧ IsSiweText (shown m) txt :=
  message_text_ok ε m

/-- C09: every `u64` nanosecond has exactly one instant written by the formatter: it is a valid RFC 3339 UTC
timestamp and nothing else denotes it. -/
theorem C09_timestamp_exact (ε : Type) (t : UInt64) :
    ∃ txt, (rfc3339 t : Res ε Bytes) = .ok txt ∧ IsInstant t.toNat txt ∧
      ∀ t', IsInstant t' txt → t' = t.toNat := by
  obtain ⟨txt, c, h1, h2, h3, h4⟩ := rfc3339_spec ε t
  exact ⟨txt, h1, ⟨c, h2, h3, h4⟩, fun t' h => instant_unique h ⟨c, h2, h3, h4⟩⟩

/-- Non-vacuity of C09, on a leap day, on a fraction with trailing zeros, and at the last instant. -/
example : (rfc3339 1709207999100000000 : Res Empty Bytes) = .ok (ascii "2024-02-29T11:59:59.1Z") ∧
    (rfc3339 0 : Res Empty Bytes) = .ok (ascii "1970-01-01T00:00:00Z") ∧
    (rfc3339 18446744073709551615 : Res Empty Bytes) = .ok (ascii "2554-07-21T23:34:33.709551615Z") := by
  decide +kernel

/-! ### C10 -/

/-- C10: under one configuration, two sign-in messages for valid addresses with hexadecimal nonces and the same
text have the same address, nonce, issue time and expiry time. -/
theorem C10_text_injective_one_config (E : Env) (ε : Type) (s : Settings) (a a' : EthAddress)
    (n n' : Bytes) (t t' : UInt64) (txt : Bytes)
    (ha : EthAddress.new E a.str = .ok a) (ha' : EthAddress.new E a'.str = .ok a')
    (hn : ∀ c ∈ n, isHexDigit c = true) (hn' : ∀ c ∈ n', isHexDigit c = true)
    (h : (SiweMessage.new s t a n).text (ε := ε) = .ok txt)
    (h' : (SiweMessage.new s t' a' n').text (ε := ε) = .ok txt) :
    a = a' ∧ n = n' ∧ t = t' := by
  obtain ⟨x, hx, sx⟩ := message_text_ok ε (SiweMessage.new s t a n)
  obtain ⟨y, hy, sy⟩ := message_text_ok ε (SiweMessage.new s t' a' n')
  rw [h] at hx; rw [h'] at hy
  cases hx; cases hy
  have := siweText_unique_config sx sy rfl
    ((address_length (isAddress_of_new ha).1).trans (address_length (isAddress_of_new ha').1).symm)
    rfl rfl rfl rfl (hexDigits_oneLine hn) (hexDigits_oneLine hn')
  simp only [shown, SiweMessage.new, Shown.mk.injEq] at this
  obtain ⟨_, e1, _, _, _, _, e2, e3, _⟩ := this
  refine ⟨by cases a; cases a'; simp_all, e2, UInt64.toNat_inj.mp e3⟩

/-- C10: across configurations, when no field contains a line break the text determines every displayed field.
(Every accepted address is one line, see `C10_address_one_line`; nonces are hexadecimal.) -/
theorem C10_text_injective_one_line_partial (ε : Type) (m m' : SiweMessage) (txt : Bytes)
    (h : (m.text : Res ε Bytes) = .ok txt) (h' : (m'.text : Res ε Bytes) = .ok txt)
    (hd : OneLine m.domain) (ha : OneLine m.address) (hs : OneLine m.statement) (hu : OneLine m.uri)
    (hn : OneLine m.nonce)
    (hd' : OneLine m'.domain) (ha' : OneLine m'.address) (hs' : OneLine m'.statement) (hu' : OneLine m'.uri)
    (hn' : OneLine m'.nonce) :
    m.domain = m'.domain ∧ m.address = m'.address ∧ m.statement = m'.statement ∧ m.uri = m'.uri ∧
      m.version = m'.version ∧ m.chainId = m'.chainId ∧ m.nonce = m'.nonce ∧ m.issuedAt = m'.issuedAt ∧
      m.expirationTime = m'.expirationTime := by
  obtain ⟨x, hx, sx⟩ := message_text_ok ε m
  obtain ⟨y, hy, sy⟩ := message_text_ok ε m'
  rw [h] at hx; rw [h'] at hy
  cases hx; cases hy
  have := siweText_unique sx sy hd ha hs hu hn hd' ha' hs' hu' hn'
  simp only [shown, Shown.mk.injEq] at this
  obtain ⟨e1, e2, e3, e4, e5, e6, e7, e8, e9⟩ := this
  exact ⟨e1, e2, e3, e4, UInt8.toNat_inj.mp e5, UInt32.toNat_inj.mp e6, e7, UInt64.toNat_inj.mp e8,
    UInt64.toNat_inj.mp e9⟩

/-- C10: an accepted address is one line. -/
theorem C10_address_one_line (E : Env) (s : Bytes) (a : EthAddress) (h : EthAddress.new E s = .ok a) :
    OneLine a.str := address_oneLine (isAddress_of_new h).1

/-- The settings of the C10 counterexample: the configured URI runs on over the next lines ... -/
def ambiguousA (a2 : Bytes) : Settings :=
  { SettingsBuilder.new (ascii "d/x") (ascii "http://u/ wants you to sign in with your Ethereum account:\n" ++ a2
      ++ ascii "\n\nhello\n\nURI: http://v/") (ascii "salt") with statement := ascii "hi" }
/-- ... or the configured domain does. -/
def ambiguousB (a1 : Bytes) : Settings :=
  { SettingsBuilder.new (ascii "d/x wants you to sign in with your Ethereum account:\n" ++ a1
      ++ ascii "\n\nhi\n\nURI: http://u/") (ascii "http://v/") (ascii "salt") with statement := ascii "hello" }

/-- C10 without the one-line condition is false: for any two addresses there are two configurations whose
messages for these two addresses have the same text.  (`domain` and `uri` are only checked by the URL parser,
which ignores line feeds.) -/
theorem C10_line_breaks_are_ambiguous (a1 a2 : EthAddress) (n : Bytes) (t : UInt64) :
    (SiweMessage.new (ambiguousA a2.str) t a1 n).text (ε := Empty) =
      (SiweMessage.new (ambiguousB a1.str) t a2 n).text (ε := Empty) := by
  have e0 : ascii "http://u/ wants you to sign in with your Ethereum account:\n" =
      ascii "http://u/" ++ ascii " wants you to sign in with your Ethereum account:\n" := by decide
  have e1 : ascii "d/x wants you to sign in with your Ethereum account:\n" =
      ascii "d/x" ++ ascii " wants you to sign in with your Ethereum account:\n" := by decide
  have e2 : ascii "\n\nhello\n\nURI: http://v/" = ascii "\n\n" ++ ascii "hello" ++ ascii "\n\nURI: "
      ++ ascii "http://v/" := by decide
  have e3 : ascii "\n\nhi\n\nURI: http://u/" = ascii "\n\n" ++ ascii "hi" ++ ascii "\n\nURI: "
      ++ ascii "http://u/" := by decide
  unfold SiweMessage.text
  simp only [SiweMessage.new, ambiguousA, ambiguousB, SettingsBuilder.new, e0, e1, e2, e3, List.append_assoc]

/-- Both configurations of the counterexample pass `SettingsBuilder::build` for any URL parser that accepts the
four strings concerned with a host. -/
theorem C10_ambiguous_settings_accepted (E : Env) (a1 a2 : Bytes)
    (h : ∀ s, s ∈ [ascii "https://" ++ (ambiguousA a2).domain, (ambiguousA a2).uri,
      ascii "https://" ++ (ambiguousB a1).domain, (ambiguousB a1).uri] →
      ∃ host, E.urlParse s = some ⟨true, some host⟩) :
    SettingsBuilder.build E (ambiguousA a2) = .ok (ambiguousA a2) ∧
    SettingsBuilder.build E (ambiguousB a1) = .ok (ambiguousB a1) := by
  obtain ⟨h1, e1⟩ := h (ascii "https://" ++ (ambiguousA a2).domain) (by simp)
  obtain ⟨h2, e2⟩ := h (ambiguousA a2).uri (by simp)
  obtain ⟨h3, e3⟩ := h (ascii "https://" ++ (ambiguousB a1).domain) (by simp)
  obtain ⟨h4, e4⟩ := h (ambiguousB a1).uri (by simp)
  have es : ascii "https" ++ ascii "://" = ascii "https://" := by decide
  have v1 : validateSalt (ascii "salt") = .ok () := by decide
  have v3 : validateScheme (ascii "https") = .ok () := by decide
  have v4 : validateStatement (ascii "hi") = .ok () := by decide
  have v5 : validateStatement (ascii "hello") = .ok () := by decide
  have v6 : validateSignInExpiresIn (60 * 5 * 1000000000) = .ok () := by decide
  have v7 : validateSessionExpiresIn (30 * 60 * 1000000000) = .ok () := by decide
  have v8 : validateChainId 1 = .ok () := by decide
  have s1 : (ambiguousA a2).scheme = ascii "https" := rfl
  have s2 : (ambiguousB a1).scheme = ascii "https" := rfl
  constructor
  · have d1 : validateDomain E (ambiguousA a2).scheme (ambiguousA a2).domain = .ok () := by
      simp only [validateDomain, s1, es, e1]; rfl
    have d2 : validateUri E (ambiguousA a2).uri = .ok () := by simp only [validateUri, e2]; rfl
    unfold SettingsBuilder.build
    rw [d1, d2]
    simp only [ambiguousA, SettingsBuilder.new, v1, v3, v4, v6, v7, v8, Res.ok_bind]; rfl
  · have d1 : validateDomain E (ambiguousB a1).scheme (ambiguousB a1).domain = .ok () := by
      simp only [validateDomain, s2, es, e3]; rfl
    have d2 : validateUri E (ambiguousB a1).uri = .ok () := by simp only [validateUri, e4]; rfl
    unfold SettingsBuilder.build
    rw [d1, d2]
    simp only [ambiguousB, SettingsBuilder.new, v1, v3, v5, v6, v7, v8, Res.ok_bind]; rfl

/-- Non-vacuity: the toy URL parser accepts both configurations. -/
example (a1 a2 : Bytes) : SettingsBuilder.build Toy.env (ambiguousA a2) = .ok (ambiguousA a2) ∧
    SettingsBuilder.build Toy.env (ambiguousB a1) = .ok (ambiguousB a1) :=
  C10_ambiguous_settings_accepted Toy.env a1 a2 fun s hs => by
    refine ⟨s, ?_⟩
    have : s.isEmpty = false := by
      fin_cases hs <;> rfl
    simpa [Toy.env] using this

/-- Non-vacuity of C10: a message with a text, with one-line fields. -/
example : (SiweMessage.new (SettingsBuilder.new (ascii "example.com") (ascii "http://example.com") (ascii "salt"))
      1620328630000000000 ⟨ascii "0x99aBcdef99abcdef99aBcdef99abcdef99aBcdef"⟩
      (ascii "ee1ee5ead5b55fe8c8e9")).text (ε := Empty) =
    .ok (ascii "example.com wants you to sign in with your Ethereum account:\n0x99aBcdef99abcdef99aBcdef99abcdef99aBcdef\n\nSIWE Fields:\n\nURI: http://example.com\nVersion: 1\nChain ID: 1\nNonce: ee1ee5ead5b55fe8c8e9\nIssued At: 2021-05-06T19:17:10Z\nExpiration Time: 2021-05-06T19:22:10Z") := by
  decide +kernel

/-! ### C11 -/

/-- C11: what `prepare_login` returns: the configured fields, the requested address, a fresh nonce of 20 lowercase
hex digits, the current time and the configured lifetime. -/
theorem C11_prepared_message {E : Env} (l l' : LibState E) (now : UInt64) (a : EthAddress) (m : SiweMessage)
    (nonce : Bytes) (h : prepareLogin l now a = .ok (l', m, nonce)) :
    ∃ s, l.settings = some s ∧ m.scheme = s.scheme ∧ m.domain = s.domain ∧ m.statement = s.statement ∧
      m.uri = s.uri ∧ m.chainId = s.chainId ∧ m.version = 1 ∧ m.address = a.str ∧ m.nonce = nonce ∧
      nonce.length = 20 ∧ (∀ c ∈ nonce, (48 ≤ c ∧ c ≤ 57) ∨ (97 ≤ c ∧ c ≤ 102)) ∧
      m.issuedAt = now ∧
      m.expirationTime.toNat = min (now.toNat + s.signInExpiresIn.toNat) (2 ^ 64 - 1) := by
  obtain ⟨r, s, _, hs, rfl, rfl⟩ := prepareLogin_inv h
  refine ⟨s, hs, rfl, rfl, rfl, rfl, rfl, rfl, rfl, rfl, nonceOf_length E r, ?_, rfl, satAdd_toNat _ _⟩
  intro c hc
  have key : ∀ c : UInt8, isHexDigit c = true ∧ isUpperLetter c = false →
      (48 ≤ c ∧ c ≤ 57) ∨ (97 ≤ c ∧ c ≤ 102) := by apply u8_all; decide +kernel
  exact key c (nonceOf_hex E r c hc)

/-- C11: `siwe_prepare_login` answers `Ok` exactly when the address is valid and the canister has settings and
randomness; an invalid address gets `Err`, and missing settings or randomness a trap. -/
theorem C11_reply {E : Env} (st : State E) (now : UInt64) (addr : Bytes) :
    ((∃ r, (step st now (.prepareLogin addr)).2 = .prepared r) ↔
      IsAddress E.keccak addr ∧ st.lib.rng.isSome = true ∧ st.lib.settings.isSome = true) ∧
    ((∃ e, (step st now (.prepareLogin addr)).2 = .err e) ↔ ¬ IsAddress E.keccak addr) := by
  rcases siwePrepareLogin_cases st now addr with ⟨e, h1, h2⟩ | ⟨h1, h2, h3⟩ | ⟨bs, r, s, txt, h1, _, _, h2, h3, _, _, h4⟩
  · simp [step, commit, reply, h2, h1]
  · have hr : (step st now (.prepareLogin addr)).2 = .trap := by simp only [step, commit, h3]
    rw [hr]
    refine ⟨⟨by simp, ?_⟩, by simpa using h1⟩
    rintro ⟨_, h4, h5⟩
    rcases h2 with h2 | h2 <;> simp [h2] at h4 h5
  · simp [step, commit, reply, h4, h1, h2, h3]

/-- C11: the text returned by `siwe_prepare_login` shows the configured fields, the requested address, the
returned nonce, the current time and the configured lifetime. -/
theorem C11_reply_text {E : Env} (st : State E) (now : UInt64) (addr : Bytes) (r : PrepareLoginOkResponse)
    (h : (step st now (.prepareLogin addr)).2 = .prepared r) :
    ∃ s, st.lib.settings = some s ∧
      IsSiweText ⟨s.domain, addr, s.statement, s.uri, 1, s.chainId.toNat, r.nonce, now.toNat,
        min (now.toNat + s.signInExpiresIn.toNat) (2 ^ 64 - 1)⟩ r.siweMessage ∧
      r.nonce.length = 20 ∧ (∀ c ∈ r.nonce, isHexDigit c = true ∧ isUpperLetter c = false) := by
  rcases siwePrepareLogin_cases st now addr with ⟨e, h1, h2⟩ | ⟨h1, h2, h3⟩ |
    ⟨bs, g, s, txt, h1, _, _, h2, h3, _, h4, h5⟩
  · simp [step, commit, reply, h2] at h
  · simp [step, commit, h3] at h
  · simp only [step, commit, h5, reply, Reply.prepared.injEq] at h
    subst h
    refine ⟨s, h3, ?_, nonceOf_length E g, nonceOf_hex E g⟩
    simpa [shown, SiweMessage.new, satAdd_toNat] using h4

/-- Non-vacuity of C11: a configured and seeded canister issues a message. -/
example :
    let st : State Toy.env := { State.fresh Toy.env with
      lib := ⟨some (7 : Nat), some (SettingsBuilder.new (ascii "e.com") (ascii "http://e.com") (ascii "s")), []⟩ }
    (step st 5 (.prepareLogin (ascii "0x99aBcdef99abcdef99aBcdef99abcdef99aBcdef"))).2 =
      .prepared ⟨ascii "e.com wants you to sign in with your Ethereum account:\n0x99aBcdef99abcdef99aBcdef99abcdef99aBcdef\n\nSIWE Fields:\n\nURI: http://e.com\nVersion: 1\nChain ID: 1\nNonce: 00000000000000000007\nIssued At: 1970-01-01T00:00:00.000000005Z\nExpiration Time: 1970-01-01T00:05:00.000000005Z",
        ascii "00000000000000000007"⟩ := by
  decide +kernel

/-! ### C12 -/

/-- C12 is false of the code: a message is reported expired inside its validity period. -/
theorem C12_expired_inside_validity :
    ∃ (m : SiweMessage) (now : UInt64), m.issuedAt ≤ now ∧ now ≤ m.expirationTime ∧ m.isExpired now = true :=
  ⟨SiweMessage.new (SettingsBuilder.new (ascii "e.com") (ascii "http://e.com") (ascii "s")) 5
    ⟨ascii "0x99aBcdef99abcdef99aBcdef99abcdef99aBcdef"⟩ (ascii "00000000000000000007"), 6, by decide +kernel⟩

/-- C12: what `is_expired` computes, for every message and time: true at every time after issuance or after
expiry. -/
theorem C12_exact (m : SiweMessage) (now : UInt64) :
    m.isExpired now = true ↔ m.issuedAt.toNat < now.toNat ∨ m.expirationTime.toNat < now.toNat := by
  simp [SiweMessage.isExpired, UInt64.lt_iff_toNat_lt]

/-- C12, partial: `is_expired` agrees with "outside the validity period" exactly at the issue time itself and
after expiry (for messages, like all issued ones, whose expiry is not before their issue). -/
theorem C12_agreement_partial (m : SiweMessage) (now : UInt64) (hm : m.issuedAt ≤ m.expirationTime) :
    ((m.isExpired now = true ↔ ¬(m.issuedAt ≤ now ∧ now ≤ m.expirationTime)) ↔
      now = m.issuedAt ∨ m.expirationTime < now) := by
  rw [C12_exact, ← UInt64.toNat_inj]
  simp only [UInt64.lt_iff_toNat_lt, UInt64.le_iff_toNat_le] at *
  omega

/-- Non-vacuity of C12: issued messages do satisfy the hypothesis. -/
example (s : Settings) (t : UInt64) (a : EthAddress) (n : Bytes) :
    (SiweMessage.new s t a n).issuedAt ≤ (SiweMessage.new s t a n).expirationTime := by
  simp only [SiweMessage.new, UInt64.le_iff_toNat_le, satAdd_toNat]
  have := t.toNat_lt
  omega

/-! ### C13 -/

/-- C13: if two (address, nonce) pairs get the same storage key then they are the same pair, or the two stored
strings are a SHA-256 collision. -/
theorem C13_key_injective (E : Env) (ε : Type) (a a' : EthAddress) (n n' : Bytes) (k : Hash)
    (ha : EthAddress.new E a.str = .ok a) (ha' : EthAddress.new E a'.str = .ok a')
    (h : (siweMessageMapHash E a n : Res ε Hash) = .ok k)
    (h' : (siweMessageMapHash E a' n' : Res ε Hash) = .ok k) :
    (a = a' ∧ n = n') ∨
      ∃ bs bs', a.asBytes = .ok bs ∧ a'.asBytes = .ok bs' ∧
        Collision E.sha256 (pendingKey bs n) (pendingKey bs' n') := by
  obtain ⟨ds, bs, e1, _, s1, l1, a1, _⟩ := isAddress_bytes (isAddress_of_new ha).1
  obtain ⟨ds', bs', e2, _, s2, l2, a2, _⟩ := isAddress_bytes (isAddress_of_new ha').1
  rw [mapHash_eq ε a1 l1] at h
  rw [mapHash_eq ε a2 l2] at h'
  by_cases hk : pendingKey bs n = pendingKey bs' n'
  · left
    obtain ⟨hb, hn⟩ := pendingKey_inj l1 l2 hk
    subst hb
    have := address_asBytes_inj (isAddress_of_new ha).1 (isAddress_of_new ha').1 a1 a2
    exact ⟨by cases a; cases a'; simp_all, hn⟩
  · right
    refine ⟨bs, bs', a1, a2, hk, ?_⟩
    simp only [Res.ok.injEq] at h h'
    rw [h, h']

/-- C13: the stored strings of different (address, nonce) pairs differ, for nonces of any length. -/
theorem C13_preimage_injective (a a' n n' : Bytes) (ha : a.length = 20) (ha' : a'.length = 20)
    (h : mapKeyInput a n = mapKeyInput a' n') : a = a' ∧ n = n' := mapKeyInput_inj ha ha' h

theorem lookup_erase_self (m : SiweMessageMap) (k : Hash) : (SiweMessageMap.erase m k).lookup k = none := by
  rw [List.lookup_eq_none_iff]
  intro e he
  have := (List.mem_filter.mp he).2
  simp only [decide_eq_true_eq] at this
  simpa using fun h : k = e.1 => this h.symm

theorem lookup_erase_ne (m : SiweMessageMap) {k k' : Hash} (h : k' ≠ k) :
    (SiweMessageMap.erase m k).lookup k' = m.lookup k' := by
  induction m with
  | nil => rfl
  | cons e m ih =>
    simp only [SiweMessageMap.erase, List.filter_cons] at *
    obtain ⟨x, y⟩ := e
    simp only [List.lookup]
    split
    · simp only [List.lookup, ih]
    · next hx =>
      have : x = k := by simpa using hx
      subst this
      have : (k' == x) = false := by simpa using h
      rw [ih, this]

/-- C13: reading back a stored message. -/
theorem C13_insert_get (E : Env) (ε : Type) (map map' : SiweMessageMap) (m : SiweMessage) (a : EthAddress)
    (n : Bytes) (h : (map.insert E m a n : Res ε _) = .ok map') :
    (map'.get E a n : Res ε _) = .ok (some m) := by
  unfold SiweMessageMap.insert at h
  unfold SiweMessageMap.get
  cases hk : (siweMessageMapHash E a n : Res ε Hash) with
  | ok k =>
    simp only [hk, Res.ok_bind, Res.ok.injEq] at h ⊢
    subst h
    simp [List.lookup]
  | err e => simp [hk] at h
  | panic => simp [hk] at h

/-- C13: storing a message does not disturb any other (address, nonce), and cannot panic, barring a collision. -/
theorem C13_insert_other (E : Env) (ε : Type) (map map' : SiweMessageMap) (m : SiweMessage) (a a' : EthAddress)
    (n n' : Bytes) (ha : EthAddress.new E a.str = .ok a) (ha' : EthAddress.new E a'.str = .ok a')
    (hne : ¬(a = a' ∧ n = n')) (h : (map.insert E m a n : Res ε _) = .ok map') :
    (map'.get E a' n' : Res ε _) = map.get E a' n' ∨
      ∃ bs bs', a.asBytes = .ok bs ∧ a'.asBytes = .ok bs' ∧
        Collision E.sha256 (pendingKey bs n) (pendingKey bs' n') := by
  obtain ⟨bs, _, _, hk⟩ := mapHash_ok ε (isAddress_of_new ha).1 n
  obtain ⟨bs', _, _, hk'⟩ := mapHash_ok ε (isAddress_of_new ha').1 n'
  by_cases he : E.sha256 (mapKeyInput bs n) = E.sha256 (mapKeyInput bs' n')
  · right
    rw [← he] at hk'
    rcases C13_key_injective E ε a a' n n' _ ha ha' hk hk' with h | h
    · exact absurd h hne
    · exact h
  · left
    simp only [SiweMessageMap.insert, hk, Res.ok_bind, Res.ok.injEq] at h
    subst h
    have hb : (E.sha256 (mapKeyInput bs' n') == E.sha256 (mapKeyInput bs n)) = false := by
      simpa using fun h => he h.symm
    simp only [SiweMessageMap.get, hk', Res.ok_bind, List.lookup, hb]
    rw [lookup_erase_ne _ (fun h => he h.symm)]

/-- C13: after removal the pair is not found. -/
theorem C13_remove_get (E : Env) (ε : Type) (map map' : SiweMessageMap) (a : EthAddress) (n : Bytes)
    (h : (map.remove E a n : Res ε _) = .ok map') : (map'.get E a n : Res ε _) = .ok none := by
  unfold SiweMessageMap.remove at h
  unfold SiweMessageMap.get
  cases hk : (siweMessageMapHash E a n : Res ε Hash) with
  | ok k =>
    simp only [hk, Res.ok_bind, Res.ok.injEq] at h ⊢
    subst h
    exact lookup_erase_self _ _
  | err e => simp [hk] at h
  | panic => simp [hk] at h

/-- C13: removing a pair removes no other pair, barring a collision. -/
theorem C13_remove_other (E : Env) (ε : Type) (map map' : SiweMessageMap) (a a' : EthAddress)
    (n n' : Bytes) (ha : EthAddress.new E a.str = .ok a) (ha' : EthAddress.new E a'.str = .ok a')
    (hne : ¬(a = a' ∧ n = n')) (h : (map.remove E a n : Res ε _) = .ok map') :
    (map'.get E a' n' : Res ε _) = map.get E a' n' ∨
      ∃ bs bs', a.asBytes = .ok bs ∧ a'.asBytes = .ok bs' ∧
        Collision E.sha256 (pendingKey bs n) (pendingKey bs' n') := by
  obtain ⟨bs, _, _, hk⟩ := mapHash_ok ε (isAddress_of_new ha).1 n
  obtain ⟨bs', _, _, hk'⟩ := mapHash_ok ε (isAddress_of_new ha').1 n'
  by_cases he : E.sha256 (mapKeyInput bs n) = E.sha256 (mapKeyInput bs' n')
  · right
    rw [← he] at hk'
    rcases C13_key_injective E ε a a' n n' _ ha ha' hk hk' with h | h
    · exact absurd h hne
    · exact h
  · left
    simp only [SiweMessageMap.remove, hk, Res.ok_bind, Res.ok.injEq] at h
    subst h
    simp only [SiweMessageMap.get, hk', Res.ok_bind]
    rw [lookup_erase_ne _ (fun h => he h.symm)]

/-- C13: no operation on the store panics for a valid address. -/
theorem C13_no_panic (E : Env) (ε : Type) (a : EthAddress) (n : Bytes) (map : SiweMessageMap) (m : SiweMessage)
    (ha : EthAddress.new E a.str = .ok a) :
    (∃ map', (map.insert E m a n : Res ε _) = .ok map') ∧ (∃ r, (map.get E a n : Res ε _) = .ok r) ∧
    (∃ map', (map.remove E a n : Res ε _) = .ok map') := by
  obtain ⟨bs, _, _, hk⟩ := mapHash_ok ε (isAddress_of_new ha).1 n
  simp [SiweMessageMap.insert, SiweMessageMap.get, SiweMessageMap.remove, hk]

/-- Non-vacuity of C13: two addresses, storing under one and reading the other. -/
example :
    let a : EthAddress := ⟨ascii "0x99aBcdef99abcdef99aBcdef99abcdef99aBcdef"⟩
    EthAddress.new Toy.env a.str = .ok a ∧
    ∃ k, (siweMessageMapHash Toy.env a (ascii "n1") : Res Empty Hash) = .ok k ∧
      (siweMessageMapHash Toy.env a (ascii "n2") : Res Empty Hash) ≠ .ok k := by
  refine ⟨by decide +kernel, ?_⟩
  have h : ∃ bs, EthAddress.asBytes ⟨ascii "0x99aBcdef99abcdef99aBcdef99abcdef99aBcdef"⟩ = .ok bs ∧
      bs.length = 20 ∧ Toy.env.sha256 (pendingKey bs (ascii "n1")) ≠ Toy.env.sha256 (pendingKey bs (ascii "n2")) :=
    ⟨_, rfl, by decide +kernel, by decide +kernel⟩
  obtain ⟨bs, h1, h2, h3⟩ := h
  refine ⟨_, mapHash_eq Empty h1 h2 _, ?_⟩
  rw [mapHash_eq Empty h1 h2]
  simpa using fun h => h3 h.symm

end Siwe
