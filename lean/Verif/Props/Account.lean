import Verif.Spec.Account
import Verif.Props.Requests
import Verif.Props.LoginHistory
/-
C123: what the owner of an account is promised.
-/
namespace Siwe
open Spec

theorem steady_key {E : Env} {h : History} {i : SettingsInput} (hst : SteadyIdentities i (trace E h)) {b a : List Event} {e : Event}
    {addr key nonce : Bytes} {ld : LoginDetails} (ht : trace E h = b ++ e :: a) (hl : e.LogsIn addr key nonce ld) :
    IsAddress E.keccak addr ∧ ld.userCanisterPubkey = keyOf E i addr := by
  obtain ⟨h1, h2, e1, e2, e3, e4⟩ := traceFrom_split ht
  obtain ⟨⟨sig, c1⟩, c2⟩ := hl
  rw [c1, c2] at e3
  obtain ⟨ha, _, _, _, _, _, _, _, s, _, _, _, _, _, _, g5, _, _, _, _, _, _, _, g11⟩ := login_success (h := h1) e3.symm
  refine ⟨ha, g11.trans ?_⟩
  obtain ⟨b', e', a', j, q1, q2, q3, q4, q5⟩ := g5
  have hsame := hst e' (by rw [ht, show b = trace E h1 from e2, q1]; simp) j q3 q4
  have := seed_identityOf q5 addr
  unfold userKey at this
  rw [this]; unfold keyOf; rw [hsame addr]

/-- C123: whoever makes a request that the IC accepts as coming from an account's principal, the account's wallet has signed for it, a message
issued no longer ago than sessions last; or hashes collide. -/
theorem C123_owner_signed (E : Env) (h : History) (i : SettingsInput) (hst : SteadyIdentities i (trace E h)) (x : Nat)
    (hx : SessionsLast h x) (valid : Bytes → Bytes → Bytes → Prop) (hc : ChecksCertificates E h valid) (now : UInt64) (r : Request)
    (ha : Accepted E valid now r) (addr : Bytes) (haddr : IsAddress E.keccak addr) (hs : r.sender = principalOf E i addr) :
    SignedInFor E (trace E h) addr x now r ∨ AccountCollision E i h addr r := by
  by_cases hkey : keyOf E i addr = r.key
  swap
  · refine .inr (.inr (.inl ⟨hkey, ?_⟩))
    rw [ha.1, principalOf, principalOfKey, principalOfKey] at hs
    have := (List.append_inj' hs rfl).1
    cases h1' : E.sha224 (keyOf E i addr)
    cases h2' : E.sha224 r.key
    rw [h1', h2'] at this
    cases this
    rfl
  have hread := C25_key_reads_back E.canisterId (E.sha256 (identityOf i addr)).bytes E.canisterId_len (Hash.len _)
  change readCanisterKey (keyOf E i addr) = _ at hread
  rw [hkey] at hread
  rcases C81_requests_come_from_logins E h valid hc now r _ hread ha with ⟨d, rest, a, k, h1, h2, h3, h4, _⟩ | hcol
  swap
  · exact .inr (.inl hcol)
  obtain ⟨before, e, after, sig, nonce, ld, s, p, f1, f2, f3, f4, f5, f6, f7, issue, f8, a', nonce', text, f9, f10, f11, f12⟩ := h2
  have hl : e.LogsIn a d.delegation.pubkey nonce ld := ⟨⟨sig, f2⟩, f3⟩
  obtain ⟨g1, g2⟩ := steady_key hst f1 hl
  have hid : identityOf i a = identityOf i addr ∨ Collision E.sha256 (identityOf i a) (identityOf i addr) := by
    rw [hread, g2, keyOf, C25_key_reads_back E.canisterId _ E.canisterId_len (Hash.len _)] at f4
    have f4 := Hash.ext' (Prod.mk.inj (Option.some.inj f4)).2
    by_cases he : identityOf i a = identityOf i addr
    · exact .inl he
    · exact .inr ⟨he, f4⟩
  have hmem : e ∈ trace E h := by rw [f1]; simp
  rcases hid with hid | hid
  swap
  · exact .inr (.inr (.inr (.inl ⟨e, hmem, a, _, nonce, ld, hl, hid⟩)))
  have : a = addr := identityString_address_inj ((address_length g1).trans (address_length haddr).symm) hid
  subst this
  rcases f10 with ⟨rfl, rfl⟩ | hcol
  · refine .inl ⟨before, e, after, issue, sig, _, nonce', text, ld, d, rest, s, p, f1, f8, f9, ?_, f11, f2, f3, h1, rfl, f5, fun ts hts =>
      h4 ts (f7.trans hts)⟩
    obtain ⟨b, e', a'', j, w1, _, w3, _, w5⟩ := f5
    have := hx (e'.time, e'.call) (by
      rw [← traceFrom_timesCalls (State.fresh E) h]
      refine List.mem_map.mpr ⟨e', ?_, rfl⟩
      show e' ∈ trace E h
      rw [f1, w1]; simp) j w3
    rw [← w5.session] at this
    rw [f6] at h3
    omega
  · exact .inr (.inr (.inr (.inr ⟨issue, by rw [f1]; simp [f8], e, hmem, a', nonce', text, _, nonce, ld, f9, hl, hcol⟩)))

/-- C123: a session is over when its time is: if nothing was issued to the address for as long as sessions last, no request is accepted as
coming from its principal; or hashes collide. -/
theorem C123_session_over (E : Env) (h : History) (i : SettingsInput) (hst : SteadyIdentities i (trace E h)) (x : Nat)
    (hx : SessionsLast h x) (valid : Bytes → Bytes → Bytes → Prop) (hc : ChecksCertificates E h valid) (now : UInt64) (r : Request)
    (ha : Accepted E valid now r) (addr : Bytes) (haddr : IsAddress E.keccak addr) (hs : r.sender = principalOf E i addr)
    (hold : ∀ e ∈ trace E h, ∀ nonce text, e.Issues addr nonce text → e.time.toNat + x < now.toNat) : AccountCollision E i h addr r := by
  rcases C123_owner_signed E h i hst x hx valid hc now r ha addr haddr hs with hh | hh
  · obtain ⟨before, e, after, issue, sig, session, nonce, text, ld, d, rest, s, p, f1, f2, f3, f4, _⟩ := hh
    have := hold issue (by rw [f1]; simp [f2]) nonce text f3
    omega
  · exact hh

/-- C123: an account whose wallet never signed one of the canister's messages has no requests accepted in its name. -/
theorem C123_never_signed (E : Env) (h : History) (i : SettingsInput) (hst : SteadyIdentities i (trace E h))
    (valid : Bytes → Bytes → Bytes → Prop) (hc : ChecksCertificates E h valid) (now : UInt64) (r : Request)
    (ha : Accepted E valid now r) (addr : Bytes) (haddr : IsAddress E.keccak addr) (hs : r.sender = principalOf E i addr)
    (hno : ∀ e ∈ trace E h, ∀ nonce text, e.Issues addr nonce text → ∀ e' ∈ trace E h, ∀ sig key n, e'.call = .login sig addr key n →
      ¬Signs E sig text addr) : AccountCollision E i h addr r := by
  obtain ⟨x, hx⟩ : ∃ x, SessionsLast h x := ⟨2 ^ 64, fun y _ j _ => Nat.le_of_lt (UInt64.toNat_lt _)⟩
  rcases C123_owner_signed E h i hst x hx valid hc now r ha addr haddr hs with hh | hh
  · obtain ⟨before, e, after, issue, sig, session, nonce, text, ld, d, rest, s, p, f1, f2, f3, f4, f5, f6, _⟩ := hh
    exact absurd f5 (hno issue (by rw [f1]; simp [f2]) nonce text f3 e (by rw [f1]; simp) sig session nonce f6)
  · exact hh

/-- Non-vacuity: after the example's login a request is accepted as coming from the address's principal, thirty minutes later at most. -/
example : SteadyIdentities Ex.input (trace Toy.env Ex.refused) ∧ SessionsLast Ex.refused 1800000000000 ∧
    ChecksCertificates Toy.env Ex.refused Ex.valid ∧ IsAddress Toy.env.keccak Ex.alice ∧
    ∃ sd, Accepted Toy.env Ex.valid Ex.expiration
      ⟨[5], principalOf Toy.env Ex.input Ex.alice, [3], Ex.details.userCanisterPubkey, [sd], [1]⟩ := by
  refine ⟨Ex.refused_steady, ?_, Ex.accepted.1, Ex.aliceOk _, ?_⟩
  · intro x hx j hj
    simp only [Ex.refused, Ex.loggedIn, Ex.prepared, List.cons_append, List.nil_append, List.append_assoc, List.mem_cons,
      List.not_mem_nil, or_false] at hx
    rcases hx with rfl | rfl | rfl | rfl | rfl | rfl <;> rcases hj with hj | hj <;> cases hj
    decide
  · obtain ⟨sd, h, _⟩ := Ex.accepted.2
    rw [show principalOf Toy.env Ex.input Ex.alice = Ex.alicePrincipal by decide +kernel]
    exact ⟨sd, h⟩

end Siwe
