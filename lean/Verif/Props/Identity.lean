import Verif.Lemmas.Identity
import Verif.Lemmas.Settings
import Verif.Props.Encoding
import Verif.Model.Provider
/- Properties C22-C24 and C26: identities and delegation contents. -/
namespace Siwe
open Spec

/-- The URI, if the configuration puts it into identities. -/
noncomputable def identityUri (s : Settings) : Option Bytes :=
  open Classical in if UsesUri s then some s.uri else none

theorem seedInput_eq (s : Settings) (a : EthAddress) :
    seedInput s a = identityString s.salt a.str (identityUri s) := by
  unfold identityUri
  split
  · next h => exact seedInput_uses h a
  · next h => exact seedInput_without h a

theorem identityInput_uri (s : Settings) (addr : Bytes) : IdentityInput s addr (identityString s.salt addr (identityUri s)) := by
  unfold identityUri
  split
  · next h => exact .inl ⟨h, rfl⟩
  · next h => exact .inr ⟨h, rfl⟩

/-! ### C22 -/

/-- C22: two accepted addresses with the same public key under one configuration are the same address, or their
identity strings are a SHA-256 collision. -/
theorem C22_keys_differ (E : Env) (s : Settings) (a a' : EthAddress)
    (ha : EthAddress.new E a.str = .ok a) (ha' : EthAddress.new E a'.str = .ok a')
    (h : createUserCanisterPubkey E.canisterId (generateSeed E s a).bytes =
      createUserCanisterPubkey E.canisterId (generateSeed E s a').bytes) :
    a = a' ∨ ∃ x y, IdentityInput s a.str x ∧ IdentityInput s a'.str y ∧ Collision E.sha256 x y := by
  obtain ⟨_, hs⟩ := C25_key_injective _ _ _ _ E.canisterId_len E.canisterId_len (Hash.len _) (Hash.len _) h
  by_cases e : a = a'
  · exact .inl e
  · right
    have hs := Hash.ext' hs
    simp only [generateSeed, hashBytes, seedInput_eq] at hs
    refine ⟨_, _, identityInput_uri s _, identityInput_uri s _, ?_, hs⟩
    intro h
    apply e
    have := identityString_address_inj ((address_length (isAddress_of_new ha).1).trans
      (address_length (isAddress_of_new ha').1).symm) h
    cases a; cases a'; simp_all

/-- C22: likewise for principals, up to a SHA-224 collision of the two public keys. -/
theorem C22_principals_differ (E : Env) (s : Settings) (a a' : EthAddress)
    (ha : EthAddress.new E a.str = .ok a) (ha' : EthAddress.new E a'.str = .ok a')
    (h : principalOfKey E (createUserCanisterPubkey E.canisterId (generateSeed E s a).bytes) =
      principalOfKey E (createUserCanisterPubkey E.canisterId (generateSeed E s a').bytes)) :
    a = a' ∨
    Collision E.sha224 (createUserCanisterPubkey E.canisterId (generateSeed E s a).bytes)
      (createUserCanisterPubkey E.canisterId (generateSeed E s a').bytes) ∨
    ∃ x y, IdentityInput s a.str x ∧ IdentityInput s a'.str y ∧ Collision E.sha256 x y := by
  by_cases hk : createUserCanisterPubkey E.canisterId (generateSeed E s a).bytes =
      createUserCanisterPubkey E.canisterId (generateSeed E s a').bytes
  · rcases C22_keys_differ E s a a' ha ha' hk with h | h
    · exact .inl h
    · exact .inr (.inr h)
  · right; left
    refine ⟨hk, ?_⟩
    simp only [principalOfKey, List.append_cancel_right_eq] at h
    generalize E.sha224 (createUserCanisterPubkey E.canisterId (generateSeed E s a).bytes) = x at h ⊢
    generalize E.sha224 (createUserCanisterPubkey E.canisterId (generateSeed E s a').bytes) = y at h ⊢
    cases x; cases y; simp_all

/-- Two all-digit addresses: valid whatever the hash function is. -/
def addressOnes : EthAddress := ⟨ascii "0x1111111111111111111111111111111111111111"⟩
/-- See `addressOnes`. -/
def addressTwos : EthAddress := ⟨ascii "0x2222222222222222222222222222222222222222"⟩

theorem digits_valid (E : Env) (s : Bytes) (h : s.length = 42) (h0 : s.take 2 = [48, 120])
    (hd : ∀ c ∈ s.drop 2, 48 ≤ c ∧ c ≤ 57) : EthAddress.new E s = .ok ⟨s⟩ := by
  rw [ethAddress_new_ok_iff]
  refine ⟨⟨s.drop 2, by rw [← h0, List.take_append_drop], by simp [h], ?_, ?_⟩, rfl⟩
  · have key : ∀ c : UInt8, 48 ≤ c ∧ c ≤ 57 → isHexDigit c = true := by apply u8_all; decide +kernel
    exact fun c hc => key c (hd c hc)
  · intro i c hc
    have key : ∀ c : UInt8, 48 ≤ c ∧ c ≤ 57 → isUpperLetter c = false ∧ isLowerLetter c = false := by
      apply u8_all; decide +kernel
    have := key c (hd c (List.mem_of_getElem? hc))
    simp [this]

theorem addressOnes_valid (E : Env) : EthAddress.new E addressOnes.str = .ok addressOnes :=
  digits_valid E _ (by decide) (by decide) (by decide)
theorem addressTwos_valid (E : Env) : EthAddress.new E addressTwos.str = .ok addressTwos :=
  digits_valid E _ (by decide) (by decide) (by decide)

/-- Non-vacuity of C22: two different accepted addresses with different keys and principals. -/
example :
    let s := SettingsBuilder.new (ascii "a.com") (ascii "http://a.com") (ascii "s")
    EthAddress.new Toy.env addressOnes.str = .ok addressOnes ∧
    EthAddress.new Toy.env addressTwos.str = .ok addressTwos ∧
    principalOfKey Toy.env (createUserCanisterPubkey Toy.env.canisterId (generateSeed Toy.env s addressOnes).bytes) ≠
    principalOfKey Toy.env
      (createUserCanisterPubkey Toy.env.canisterId (generateSeed Toy.env s addressTwos).bytes) := by
  decide +kernel

/-! ### C23 -/

/-- C23, partial: with salts of at most 255 bytes the hashed string determines salt, address, whether the URI is
included, and the URI if it is. -/
theorem C23_seed_separates_partial (E : Env) (s s' : Settings) (a a' : EthAddress)
    (ha : EthAddress.new E a.str = .ok a) (ha' : EthAddress.new E a'.str = .ok a')
    (hs : s.salt.length ≤ 255) (hs' : s'.salt.length ≤ 255)
    (h : seedInput s a = seedInput s' a') :
    s.salt = s'.salt ∧ a = a' ∧ (UsesUri s ↔ UsesUri s') ∧ (UsesUri s → s.uri = s'.uri) := by
  rw [seedInput_eq, seedInput_eq] at h
  have l := address_length (isAddress_of_new ha).1
  have l' := address_length (isAddress_of_new ha').1
  obtain ⟨e1, e2, e3⟩ := identityString_inj hs hs' (by omega) (by omega) h
  refine ⟨e1, by cases a; cases a'; simp_all, ?_⟩
  unfold identityUri at e3
  by_cases h1 : UsesUri s <;> by_cases h2 : UsesUri s' <;> simp_all

/-- C23, partial: hence the seeds of different such configurations or addresses differ, or the two strings
are a SHA-256 collision. -/
theorem C23_seeds_differ_partial (E : Env) (s s' : Settings) (a a' : EthAddress)
    (ha : EthAddress.new E a.str = .ok a) (ha' : EthAddress.new E a'.str = .ok a')
    (hs : s.salt.length ≤ 255) (hs' : s'.salt.length ≤ 255)
    (h : generateSeed E s a = generateSeed E s' a') :
    (s.salt = s'.salt ∧ a = a' ∧ (UsesUri s ↔ UsesUri s') ∧ (UsesUri s → s.uri = s'.uri)) ∨
      ∃ x y, IdentityInput s a.str x ∧ IdentityInput s' a'.str y ∧ Collision E.sha256 x y := by
  by_cases e : seedInput s a = seedInput s' a'
  · exact .inl (C23_seed_separates_partial E s s' a a' ha ha' hs hs' e)
  · right
    refine ⟨_, _, identityInput_uri s _, identityInput_uri s' _, ?_, ?_⟩
    · rwa [← seedInput_eq, ← seedInput_eq]
    · rw [← seedInput_eq, ← seedInput_eq]; exact h

/-- C23, exactly and for salts and URIs of any length: if the first salt is not the longer one, the hashed strings are the same if and
only if salt, address, and URI if included are, or the second salt runs on through the first's address and into its URI, by a multiple of
256 bytes so that the length byte does not show it. -/
theorem C23_collides_iff (E : Env) (s s' : Settings) (a a' : EthAddress)
    (ha : EthAddress.new E a.str = .ok a) (ha' : EthAddress.new E a'.str = .ok a') (hs : s.salt.length ≤ s'.salt.length) :
    seedInput s a = seedInput s' a' ↔
      (s.salt = s'.salt ∧ a = a' ∧ (UsesUri s ↔ UsesUri s') ∧ (UsesUri s → s.uri = s'.uri)) ∨
      (UsesUri s ∧ ∃ x, s'.salt = s.salt ++ 42 :: a.str ++ UInt8.ofNat s.uri.length :: x ∧ 256 ∣ x.length + 44 ∧
        s.uri = x ++ 42 :: a'.str ++ uriPart (identityUri s')) := by
  have l := address_length (isAddress_of_new ha).1
  have l' := address_length (isAddress_of_new ha').1
  have h42 : UInt8.ofNat 42 = 42 := rfl
  rw [seedInput_eq, seedInput_eq]
  constructor
  · intro h
    by_cases hl : s.salt.length = s'.salt.length
    · left
      obtain ⟨e1, e2, e3⟩ := identityString_inj_of_length hl (by omega) h
      refine ⟨e1, by cases a; cases a'; simp_all, ?_⟩
      unfold identityUri at e3
      by_cases h1 : UsesUri s <;> by_cases h2 : UsesUri s' <;> simp_all
    · right
      rw [identityString_parts, identityString_parts, l, l', h42] at h
      generalize uriPart (identityUri s') = tail' at h ⊢
      simp only [List.cons_append, List.append_assoc, List.cons.injEq] at h
      obtain ⟨hb, h⟩ := h
      have hb := congrArg UInt8.toNat hb
      simp only [UInt8.toNat_ofNat'] at hb
      obtain ⟨y, hy⟩ : ∃ y, s'.salt = s.salt ++ y := by
        have := List.append_eq_append_iff.mp h
        rcases this with ⟨y, e, _⟩ | ⟨y, e, _⟩
        · exact ⟨y, e⟩
        · have := congrArg List.length e
          simp only [List.length_append] at this
          exact ⟨[], by rw [e, List.append_nil, List.eq_nil_of_length_eq_zero (by omega : y.length = 0), List.append_nil]⟩
      rw [hy, List.append_assoc, List.append_cancel_left_eq] at h
      have hlen : s'.salt.length = s.salt.length + y.length := by rw [hy, List.length_append]
      cases y with
      | nil => simp at hlen; omega
      | cons c y =>
        simp only [List.length_cons] at hlen
        simp only [List.cons_append, List.cons.injEq] at h
        obtain ⟨rfl, h⟩ := h
        obtain ⟨z, hz⟩ : ∃ z, y = a.str ++ z := by
          rcases List.append_eq_append_iff.mp h with ⟨z, e, _⟩ | ⟨z, e, _⟩
          · exact ⟨z, e⟩
          · have := congrArg List.length e
            simp only [List.length_append] at this
            omega
        subst hz
        simp only [List.length_append] at hlen
        rw [List.append_assoc, List.append_cancel_left_eq] at h
        cases z with
        | nil => simp at hlen; omega
        | cons c x =>
          by_cases hu : UsesUri s
          · simp only [identityUri, if_pos hu, uriPart, List.cons_append, List.cons.injEq] at h
            obtain ⟨rfl, h⟩ := h
            refine ⟨hu, x, by rw [hy]; simp, ?_, by rw [h]; simp⟩
            simp only [List.length_cons] at hlen
            omega
          · simp [identityUri, if_neg hu, uriPart] at h
  · rintro (⟨h1, rfl, h3, h4⟩ | ⟨hu, x, h1, ⟨k, h2⟩, h3⟩)
    · have : identityUri s = identityUri s' := by
        unfold identityUri
        by_cases hu : UsesUri s
        · rw [if_pos hu, if_pos (h3.mp hu), h4 hu]
        · rw [if_neg hu, if_neg fun g => hu (h3.mpr g)]
      rw [h1, this]
    · rw [identityString_parts, identityString_parts, l, l', h42]
      generalize uriPart (identityUri s') = tail' at h3 ⊢
      simp only [identityUri, if_pos hu, uriPart]
      have hb : UInt8.ofNat s.salt.length = UInt8.ofNat s'.salt.length := by
        apply UInt8.toNat.inj
        simp only [UInt8.toNat_ofNat']
        rw [h1]
        simp only [List.length_append, List.length_cons, l]
        omega
      rw [hb, h1]
      simp only [List.cons_append, List.append_assoc]
      congr 5
      rw [h3]
      simp only [List.append_assoc, List.cons_append]

/-- A URI of 100 bytes. -/
def longUriTail : Bytes := ascii "http://b.com/" ++ List.replicate 87 120
/-- A URI of 212 bytes. -/
def longUriHead : Bytes := ascii "http://a.com/" ++ List.replicate 199 120

/-- First configuration of the C23 counterexample: salt `s`, and a URI of 356 bytes. -/
def wrapA : Settings :=
  { SettingsBuilder.new (ascii "a.com") (longUriHead ++ 42 :: addressTwos.str ++ 100 :: longUriTail) (ascii "s") with
    runtimeFeatures := some [.includeUriInSeed] }
/-- Second configuration: a salt of 257 bytes and a URI of 100 bytes. -/
def wrapB : Settings :=
  { SettingsBuilder.new (ascii "a.com") longUriTail (ascii "s" ++ 42 :: addressOnes.str ++ 100 :: longUriHead) with
    runtimeFeatures := some [.includeUriInSeed] }

/-- C23 without the length bound is false: with a salt of 257 bytes the length byte wraps around, and two valid
configurations give two different addresses the same seed, for every hash function. -/
theorem C23_long_salt_same_identity (E : Env) :
    wrapA.salt ≠ wrapB.salt ∧ addressOnes ≠ addressTwos ∧
    generateSeed E wrapA addressOnes = generateSeed E wrapB addressTwos := by
  refine ⟨by decide +kernel, by decide, ?_⟩
  have : seedInput wrapA addressOnes = seedInput wrapB addressTwos := by decide +kernel
  simp only [generateSeed, this]

/-- Non-vacuity of `C23_collides_iff`: the counterexample is of its second kind. -/
example : wrapA.salt.length ≤ wrapB.salt.length ∧ seedInput wrapA addressOnes = seedInput wrapB addressTwos ∧
    wrapA.salt ≠ wrapB.salt ∧ EthAddress.new Toy.env addressOnes.str = .ok addressOnes ∧
    EthAddress.new Toy.env addressTwos.str = .ok addressTwos := by
  decide +kernel

/-- Both configurations of the counterexample are accepted, by any URL parser that finds hosts in the three URLs. -/
theorem C23_long_salt_accepted (E : Env) (h : ∀ u ∈ [ascii "https://a.com", wrapA.uri, wrapB.uri],
    ∃ host, E.urlParse u = some ⟨true, some host⟩) :
    ValidSettings E wrapA ∧ ValidSettings E wrapB := by
  obtain ⟨h1, e1⟩ := h (ascii "https://a.com") (by simp)
  obtain ⟨h2, e2⟩ := h wrapA.uri (by simp)
  obtain ⟨h3, e3⟩ := h wrapB.uri (by simp)
  have es : ascii "https" ++ ascii "://" ++ ascii "a.com" = ascii "https://a.com" := by decide
  constructor <;> intro r hr <;> simp only [requirements, List.mem_cons, List.not_mem_nil, or_false] at hr
  · rcases hr with rfl | rfl | rfl | rfl | rfl | rfl | rfl | rfl | rfl | rfl | rfl | rfl
    · exact ⟨h1, (congrArg E.urlParse es).trans e1⟩
    · exact ⟨_, h2, e2⟩
    · show wrapA.salt ≠ []; decide +kernel
    · show ∀ c ∈ wrapA.salt, 33 ≤ c.toNat ∧ c.toNat ≤ 126; decide +kernel
    · show wrapA.chainId ≠ 0; decide +kernel
    · right; rfl
    · show ¬ 10 ∈ wrapA.statement; decide +kernel
    · show wrapA.signInExpiresIn ≠ 0; decide +kernel
    · show wrapA.sessionExpiresIn ≠ 0; decide +kernel
    all_goals simp [wrapA, SettingsBuilder.new]
  · rcases hr with rfl | rfl | rfl | rfl | rfl | rfl | rfl | rfl | rfl | rfl | rfl | rfl
    · exact ⟨h1, (congrArg E.urlParse es).trans e1⟩
    · exact ⟨_, h3, e3⟩
    · show wrapB.salt ≠ []; decide +kernel
    · show ∀ c ∈ wrapB.salt, 33 ≤ c.toNat ∧ c.toNat ≤ 126; decide +kernel
    · show wrapB.chainId ≠ 0; decide +kernel
    · right; rfl
    · show ¬ 10 ∈ wrapB.statement; decide +kernel
    · show wrapB.signInExpiresIn ≠ 0; decide +kernel
    · show wrapB.sessionExpiresIn ≠ 0; decide +kernel
    all_goals simp [wrapB, SettingsBuilder.new]

/-- Non-vacuity of C23: the toy parser accepts both; and short salts with different URIs separate. -/
example : (∀ u ∈ [ascii "https://a.com", wrapA.uri, wrapB.uri],
      ∃ host, Toy.env.urlParse u = some ⟨true, some host⟩) ∧
    generateSeed Toy.env { SettingsBuilder.new (ascii "a.com") (ascii "http://a.com") (ascii "s") with
        runtimeFeatures := some [.includeUriInSeed] } addressOnes ≠
      generateSeed Toy.env (SettingsBuilder.new (ascii "a.com") (ascii "http://a.com") (ascii "s")) addressOnes := by
  refine ⟨?_, by decide +kernel⟩
  intro u hu
  refine ⟨u, ?_⟩
  have hne : u.isEmpty = false := by
    simp only [List.mem_cons, List.not_mem_nil, or_false] at hu
    rcases hu with rfl | rfl | rfl <;> decide +kernel
  simpa [Toy.env] using hne

/-! ### C24 -/

/-- C24: without the feature the identity of an address depends on the salt only. -/
theorem C24_without_feature (E : Env) (s s' : Settings) (a : EthAddress) (h : ¬ UsesUri s) (h' : ¬ UsesUri s')
    (hs : s.salt = s'.salt) :
    createUserCanisterPubkey E.canisterId (generateSeed E s a).bytes =
      createUserCanisterPubkey E.canisterId (generateSeed E s' a).bytes := by
  simp only [generateSeed, seedInput_without h, seedInput_without h', hs]

/-- C24: with the feature the identity depends on salt and URI only. -/
theorem C24_with_feature (E : Env) (s s' : Settings) (a : EthAddress) (h : UsesUri s) (h' : UsesUri s')
    (hs : s.salt = s'.salt) (hu : s.uri = s'.uri) :
    createUserCanisterPubkey E.canisterId (generateSeed E s a).bytes =
      createUserCanisterPubkey E.canisterId (generateSeed E s' a).bytes := by
  simp only [generateSeed, seedInput_uses h, seedInput_uses h', hs, hu]

/-- C24: with the feature, different URIs of any length (same salt, same address) give different identities, or
the two identity strings are a SHA-256 collision. -/
theorem C24_uri_matters (E : Env) (s s' : Settings) (a : EthAddress) (h : UsesUri s) (h' : UsesUri s')
    (hs : s.salt = s'.salt)
    (hk : createUserCanisterPubkey E.canisterId (generateSeed E s a).bytes =
      createUserCanisterPubkey E.canisterId (generateSeed E s' a).bytes) :
    s.uri = s'.uri ∨
      Collision E.sha256 (identityString s.salt a.str (some s.uri)) (identityString s'.salt a.str (some s'.uri)) := by
  obtain ⟨_, he⟩ := C25_key_injective _ _ _ _ E.canisterId_len E.canisterId_len (Hash.len _) (Hash.len _) hk
  have he := Hash.ext' he
  simp only [generateSeed, hashBytes, seedInput_uses h, seedInput_uses h'] at he
  by_cases e : identityString s.salt a.str (some s.uri) = identityString s'.salt a.str (some s'.uri)
  · left
    rw [hs] at e
    simp only [identityString, List.cons_append, List.append_assoc, List.cons.injEq,
      List.append_cancel_left_eq, true_and] at e
    exact e.2
  · exact .inr ⟨e, he⟩

/-- Non-vacuity of C24: the feature on and off. -/
example : UsesUri wrapA ∧ ¬ UsesUri (SettingsBuilder.new [] [] []) :=
  ⟨⟨_, rfl, by simp⟩, by rintro ⟨fs, h, _⟩; simp [SettingsBuilder.new] at h⟩

/-! ### C26 -/

/-- C26: `create_delegation` succeeds exactly for a non-empty session key that parses as DER and a non-zero
expiration, and the delegation then holds exactly these and the configured targets. -/
theorem C26_create (E : Env) (s : Settings) (key : Bytes) (expiration : UInt64) (d : Delegation) :
    createDelegation E s key expiration = .ok d ↔
      key ≠ [] ∧ E.derOk key = true ∧ expiration ≠ 0 ∧ d = ⟨key, expiration, s.targets⟩ := by
  unfold createDelegation
  constructor
  · intro h
    split at h
    · simp at h
    · split at h
      · simp at h
      · split at h
        · simp at h
        · next h1 h2 h3 => simp_all
  · rintro ⟨h1, h2, h3, rfl⟩
    simp [h1, h2, h3]

/-- C26: the errors, in order of precedence. -/
theorem C26_errors (E : Env) (s : Settings) (key : Bytes) (expiration : UInt64) (e : DelegationError) :
    createDelegation E s key expiration = .err e ↔
      (key = [] ∧ e = .sessionKeyEmpty) ∨ (key ≠ [] ∧ E.derOk key = false ∧ e = .sessionKeyNotDer) ∨
      (key ≠ [] ∧ E.derOk key = true ∧ expiration = 0 ∧ e = .invalidExpiration) := by
  unfold createDelegation
  by_cases h1 : key = []
  · subst h1; simp [@eq_comm _ e]
  · have h1' : key.isEmpty = false := List.isEmpty_eq_false_iff.mpr h1
    cases h2 : E.derOk key
    · simp [h1, h1', @eq_comm _ e]
    · by_cases h3 : expiration = 0
      · simp [h1, h1', h3, @eq_comm _ e]
      · simp [h1, h1', h3]

/-- C26: a delegation returned by `siwe_get_delegation` has exactly the requested session key and expiration and
the configured targets. -/
theorem C26_get_delegation {E : Env} (st : State E) (now : UInt64) (cert : Option Bytes) (addr key : Bytes)
    (expiration : UInt64) (d : SignedDelegation)
    (h : (step st now (.getDelegation cert addr key expiration)).2 = .delegation d) :
    ∃ s, st.lib.settings = some s ∧ d.delegation = ⟨key, expiration, s.targets⟩ ∧ key ≠ [] ∧ expiration ≠ 0 := by
  simp only [step] at h
  cases hr : siweGetDelegation st now cert addr key expiration with
  | err e => simp [hr, reply] at h
  | panic => simp [hr, reply] at h
  | ok x =>
    simp only [hr, reply, Reply.delegation.injEq] at h
    subst h
    unfold siweGetDelegation at hr
    cases cert with
    | none => simp at hr
    | some c =>
      simp only at hr
      cases ha : EthAddress.new E addr with
      | err e => simp [ha] at hr
      | panic => simp [ha] at hr
      | ok a =>
        simp only [ha, Res.mapErr_ok, Res.ok_bind] at hr
        cases hs : st.lib.settings with
        | none => simp [hs] at hr
        | some s =>
          simp only [hs] at hr
          cases hc : createDelegation E s key expiration with
          | err e => simp [hc] at hr
          | panic => simp [hc] at hr
          | ok del =>
            obtain ⟨h1, _, h3, rfl⟩ := (C26_create E s key expiration del).1 hc
            simp only [hc, Res.mapErr_ok, Res.ok_bind] at hr
            obtain ⟨dh, h4⟩ := C33_total ProviderError E ⟨key, expiration, s.targets⟩
            simp only [h4, Res.ok_bind] at hr
            cases hw : witness E st.sigMap now (generateSeed E s a) dh with
            | err e => simp [hw] at hr
            | panic => simp [hw] at hr
            | ok w =>
              simp only [hw, Res.mapErr_ok, Res.ok_bind, Res.ok.injEq] at hr
              subst hr
              exact ⟨s, rfl, rfl, h1, h3⟩

/-- Non-vacuity of C26: accepted and rejected keys under the toy parser. -/
example : createDelegation Toy.env (SettingsBuilder.new [] [] []) [48, 1] 7 = .ok ⟨[48, 1], 7, none⟩ ∧
    createDelegation Toy.env (SettingsBuilder.new [] [] []) [1] 7 = .err .sessionKeyNotDer := by decide

end Siwe
