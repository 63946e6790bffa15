import Verif.Spec.Request
import Verif.Props.EndToEnd
import Verif.Props.TestCanister
/- Properties C81 and C82: requests the IC accepts in a user's name, and what an app canister learns about their sender. -/
namespace Siwe
open Spec

theorem verifies_iff {E : Env} {c cd cert key : Bytes} {sd : SignedDelegation} :
    Verifies E c cd cert key sd ↔ ∃ m, IsDelegationMessage E sd.delegation m ∧ CanisterSigned E c cd cert key m sd.signature := by
  constructor
  · rintro ⟨seed, t, dh, a1, a2, a3, a4, ⟨mh, a5, rfl⟩, a6⟩
    exact ⟨_, ⟨mh, a5, rfl⟩, seed, t, a1, a2, a3, a4, a6⟩
  · rintro ⟨_, ⟨mh, a5, rfl⟩, seed, t, a1, a2, a3, a4, a6⟩
    exact ⟨seed, t, _, a1, a2, a3, a4, ⟨mh, a5, rfl⟩, a6⟩

/-- The settings in force at a login of the current module. -/
theorem inForce_before {E : Env} {es b a : List Event} {e : Event} {s : Settings} {p : ProviderSettings} {ld : LoginDetails}
    (h : InForce E es s p) (he : es = b ++ e :: a) (hm : SameModule a) (hr : e.reply = .loggedIn ld) : InForce E b s p := by
  obtain ⟨b0, e0, a0, i, w1, w2, w3, w4, w5⟩ := h
  rw [he] at w1
  have hne : e0.Reinstalls := ⟨i, w3, w4⟩
  rcases List.append_eq_append_iff.mp w1 with ⟨c, c1, c2⟩ | ⟨c, c1, c2⟩
  · cases c with
    | nil =>
      simp only [List.nil_append, List.cons.injEq] at c2
      rw [← c2.1, hr] at w4; cases w4
    | cons c0 c =>
      simp only [List.cons_append, List.cons.injEq] at c2
      exact absurd hne (hm e0 (by rw [c2.2]; simp))
  · cases c with
    | nil =>
      simp only [List.nil_append, List.cons.injEq] at c2
      rw [c2.1, hr] at w4; cases w4
    | cons c0 c =>
      simp only [List.cons_append, List.cons.injEq] at c2
      exact ⟨b0, e0, c, i, by rw [c1, c2.1], fun y hy => w2 y (by rw [c2.2]; simp [hy]), w3, w4, w5⟩

theorem entitled_of_login {E : Env} {h : History} {before after : List Event} {e : Event} {addr key' nonce key : Bytes} {ld : LoginDetails}
    (ht : trace E h = before ++ e :: after) (hl : e.LogsIn addr key' nonce ld)
    (hk : readCanisterKey ld.userCanisterPubkey = readCanisterKey key) {s : Settings} {p : ProviderSettings} (hs : InForce E before s p) :
    Entitled E (trace E h) key addr ⟨key', ld.expiration, s.targets⟩ := by
  obtain ⟨h1, h2, e1, e2, e3, e4⟩ := traceFrom_split ht
  obtain ⟨⟨sig, c1⟩, c2⟩ := hl
  rw [c1, c2] at e3
  obtain ⟨_, _, b, i, a, addr', nonce', text, s', _, _, g1, _, g3, g4, g5, _, _, g8, _, g10, _⟩ := login_success (h := h1) e3.symm
  have e2 : before = trace E h1 := e2
  rw [e2] at hs
  have : s' = s := by
    have q1 := (inForce_state g5).1
    rw [(inForce_state hs).1] at q1
    exact (Option.some.inj q1).symm
  subst this
  exact ⟨before, e, after, sig, nonce, ld, s', p, ht, c1, c2, hk, e2 ▸ hs, rfl, rfl, i, by rw [e2, g1]; simp, addr', nonce', text, g3, g4,
    g8, g10⟩

/-! ### C81 -/

/-- C81: whatever message a canister signature of the provider vouches for, it is the message of a delegation that a login
granted to its session key, or there is a collision. -/
theorem C81_signs_only_grants (E : Env) (h : History) (cert key m sig : Bytes)
    (hv : CanisterSigned E E.canisterId (stateAfter E h).certifiedData cert key m sig) :
    (∃ addr d, Entitled E (trace E h) key addr d ∧ IsDelegationMessage E d m) ∨ SignatureCollision E h key m sig := by
  obtain ⟨seed, t, a1, a2, a3, a4, a6⟩ := hv
  rcases certified_origin E h with h0 | ⟨h1, h2, g1, g2, g3⟩
  · rw [h0] at a4
    have := congrArg List.length a4
    rw [Hash.len] at this
    cases this
  rw [g3] at a4
  rcases reveals_transfer E (reveals_of_lookup a6) _ (full_certifiedTree (stateAfter E h1).sigMap) (Hash.ext' a4) with hrev |
    ⟨x, y, hx, hy, hc⟩
  · obtain ⟨_, s', d', b1, b2, hh⟩ := reveals_certifiedTree hrev
    have b1 := Hash.ext' b1
    have b2 := Hash.ext' b2
    subst b1; subst b2
    obtain ⟨x, hx, x1, x2⟩ := (inv_stateAfter E h1).sigs.covered _ _ hh
    obtain ⟨s, hs, b, e, a, addr, key', nonce, ld, f1, f2, f3, f4, f5, ⟨⟨sd', q1, q2⟩, q3⟩, f7⟩ := entry_from_login hx
    rw [x1] at q2; rw [x2] at q3
    have htr : trace E h = b ++ e :: (a ++ traceFrom (stateAfter E h1) h2) := by
      rw [g1, trace, traceFrom_append]
      show trace E h1 ++ _ = _
      rw [f1]; simp [stateAfter]
    have hmem : e ∈ trace E h := by rw [htr]; simp
    have hk : readCanisterKey ld.userCanisterPubkey = some (E.canisterId, sd'.bytes) := by
      rw [f5, userKey, isSeed_unique q1 (isSeed_generate E s addr)]
      exact C25_key_reads_back E.canisterId _ E.canisterId_len (Hash.len _)
    by_cases hse : seed = sd'.bytes
    · subst hse
      obtain ⟨mh, q3, q4⟩ := q3
      by_cases hm : delegationMessage mh = m
      · left
        exact ⟨addr, _, entitled_of_login htr f3 (hk.trans a1.symm) (inForce_before (settings_inForce hs) f1 f2 f3.2), mh, q3, hm.symm⟩
      · exact .inr (.inr (.inr ⟨b, e, _, addr, key', nonce, ld, s, _, _, htr, f3,
          inForce_before (settings_inForce hs) f1 f2 f3.2, ⟨mh, q3, rfl⟩, hm, q4.symm⟩))
    · exact .inr (.inr (.inl ⟨e, hmem, addr, key', nonce, ld, sd'.bytes, seed, f3, hk, a1, fun z => hse z.symm, q2.symm⟩))
  · exact .inr (.inl ⟨cert, t, h1, x, y, a2, ⟨h2, g1.symm⟩, hx, hy, hc⟩)

theorem trace_prefix {E : Env} {h1 h : History} (hp : h1 <+: h) : ∃ l, trace E h = trace E h1 ++ l := by
  obtain ⟨h2, rfl⟩ := hp
  exact ⟨_, traceFrom_append _ _ _⟩

theorem entitled_mono {E : Env} {h1 h : History} (hp : h1 <+: h) {key addr : Bytes} {d : Delegation}
    (he : Entitled E (trace E h1) key addr d) : Entitled E (trace E h) key addr d := by
  obtain ⟨l, hl⟩ := trace_prefix (E := E) hp
  obtain ⟨b, e, a, sig, nonce, ld, s, p, g⟩ := he
  exact ⟨b, e, a ++ l, sig, nonce, ld, s, p, by rw [hl, g.1]; simp, g.2⟩

theorem signatureCollision_mono {E : Env} {h1 h : History} (hp : h1 <+: h) {key m sig : Bytes}
    (hc : SignatureCollision E h1 key m sig) : SignatureCollision E h key m sig := by
  obtain ⟨l, hl⟩ := trace_prefix (E := E) hp
  have sub : ∀ e ∈ trace E h1, e ∈ trace E h := fun e he => by rw [hl]; exact List.mem_append_left _ he
  rcases hc with ⟨cert, t, h0, x, y, q1, q2, q3⟩ | ⟨e, he, q⟩ | ⟨b, e, a, addr, key', nonce, ld, s, p, m', q0, q⟩
  · exact .inl ⟨cert, t, h0, x, y, q1, q2.trans hp, q3⟩
  · exact .inr (.inl ⟨e, sub e he, q⟩)
  · exact .inr (.inr ⟨b, e, a ++ l, addr, key', nonce, ld, s, p, m', by rw [hl, q0]; simp, q⟩)

theorem not_request {E : Env} {d : Delegation} {id : Bytes} : ¬IsDelegationMessage E d (requestMessage id) := by
  rintro ⟨mh, _, h⟩
  simp [requestMessage, delegationMessage] at h

/-- C81: a request the IC accepts under a key of the provider's canister carries a delegation that a login granted: an address's wallet
signed a text the canister had issued, for a session key that the rest of the chain and the request are signed with; the request is
made at most the session's length after the text was issued, to a canister among the configured targets.  Or the request exhibits a
collision. -/
theorem C81_requests_come_from_logins (E : Env) (h : History) (valid : Bytes → Bytes → Bytes → Prop) (hc : ChecksCertificates E h valid)
    (now : UInt64) (r : Request) (seed : Bytes) (hk : readCanisterKey r.key = some (E.canisterId, seed)) (ha : Accepted E valid now r) :
    (∃ d rest addr k, r.chain = d :: rest ∧ Entitled E (trace E h) r.key addr d.delegation ∧ now.toNat ≤ d.delegation.expiration.toNat ∧
      (∀ ts, d.delegation.targets = some ts → r.canister ∈ ts) ∧
      Leads E valid d.delegation.pubkey rest k ∧ valid k (requestMessage r.requestId) r.signature) ∨ RequestCollision E h r := by
  obtain ⟨_, ⟨k, hl, hv⟩, hadm⟩ := ha
  generalize hch : r.chain = chain at hl hadm
  cases hl with
  | here =>
    obtain ⟨h1, cert, hp, hs⟩ := hc _ _ _ _ hk hv
    rcases C81_signs_only_grants E h1 cert _ _ _ hs with ⟨_, d, _, hm⟩ | hcol
    · exact absurd hm not_request
    · exact .inr (.inl (signatureCollision_mono hp hcol))
  | next _ m _ d ds hm hvd hl =>
    obtain ⟨h1, cert, hp, hs⟩ := hc _ _ _ _ hk hvd
    have hhead : d ∈ r.chain.head? := by rw [hch]; rfl
    obtain ⟨l, hl'⟩ := trace_prefix (E := E) hp
    rcases C51_only_logins_verify E h1 cert r.key d (verifies_iff.mpr ⟨m, hm, hs⟩) with
      ⟨b, e, a, addr, key', nonce, ld, s, p, g1, g2, g3, g4, g5, g6⟩ | ⟨t, h0, x, y, q1, q2, q3⟩ | ⟨e, he, q⟩ |
      ⟨b, e, a, addr, key', nonce, ld, s, p, x, y, q0, q⟩
    · left
      have hent := entitled_mono hp (entitled_of_login g1 g3 g4 g5)
      rw [← g6] at hent
      have := hadm d (by simp)
      exact ⟨d, ds, addr, k, rfl, hent, this.1, this.2, hl, hv⟩
    · exact .inr (.inr ⟨d, hhead, .inl ⟨m, hm, .inl ⟨cert, t, h0, x, y, q1, q2.trans hp, q3⟩⟩⟩)
    · exact .inr (.inr ⟨d, hhead, .inl ⟨m, hm, .inr (.inl ⟨e, by rw [hl']; exact List.mem_append_left _ he, q⟩)⟩⟩)
    · exact .inr (.inr ⟨d, hhead, .inr ⟨b, e, a ++ l, addr, key', nonce, ld, s, p, x, y, by rw [hl', q0]; simp, q⟩⟩)

/-- C81: conversely, with a delegation that `siwe_get_delegation` returned after a login, every request signed with the session key is
accepted as one of the login's principal, to any canister the configured targets allow and until the expiration that the login
returned, if the signature check accepts signatures that verify against the certified data (and see C29 for the proviso on refused
logins). -/
theorem C81_session_is_accepted (E : Env) (h : History) (now : UInt64) (cert addr key : Bytes) (sd : SignedDelegation)
    (before after : List Event) (e : Event) (nonce : Bytes) (ld : LoginDetails)
    (hr : (step (stateAfter E h) now (.getDelegation (some cert) addr key ld.expiration)).2 = .delegation sd)
    (hcert : cert.length < 2 ^ 64)
    (ht : trace E h = before ++ e :: after) (hm : SameModule after) (hl : e.LogsIn addr key nonce ld)
    (hharm : RefusalsHarmless (trace E h)) (valid : Bytes → Bytes → Bytes → Prop)
    (hvalid : ∀ k m sig, CanisterSigned E E.canisterId (stateAfter E h).certifiedData cert k m sig → valid k m sig) :
    ∃ s p, InForce E (trace E h) s p ∧
      ∀ (t : UInt64) (id canister sig : Bytes), valid key (requestMessage id) sig → t.toNat ≤ ld.expiration.toNat →
        (∀ ts, s.targets = some ts → canister ∈ ts) →
        Accepted E valid t ⟨id, principalOfKey E ld.userCanisterPubkey, canister, ld.userCanisterPubkey, [sd], sig⟩ := by
  have hv := C29_verifies_partial E h now cert addr key ld.expiration sd before after e key nonce ld hr hcert ht hm hl hharm
  have hdr := C52_decision E h now (some cert) addr key ld.expiration
  rw [hr] at hdr
  cases hdr with
  | success _ s sh dh w _ g1 g2 g3 g4 g5 g6 g7 g8 g9 g10 g11 =>
    refine ⟨s, _, settings_inForce g2, fun t id canister sig hs hle hts => ⟨rfl, ⟨key, ?_, hs⟩, ?_⟩⟩
    · obtain ⟨m, h1, h2⟩ := verifies_iff.mp hv
      have := Leads.next (E := E) (valid := valid) ld.userCanisterPubkey m sd.delegation.pubkey sd [] h1 (hvalid _ _ _ h2) (.here _)
      rwa [show sd.delegation.pubkey = key by rw [g10]; rfl] at this
    · intro d hd
      rw [List.mem_singleton] at hd
      subst hd
      rw [g10]
      exact ⟨hle, hts⟩

/-- A signature check: the canister's signatures against its certified data after the example, and one byte as the session key's. -/
def Ex.valid (k m sig : Bytes) : Prop :=
  CanisterSigned Toy.env Toy.env.canisterId (stateAfter Toy.env Ex.refused).certifiedData [7] k m sig ∨ k = Ex.key ∧ sig = [1]

/-- Non-vacuity: the check is one the first theorem speaks about, and after the example's login the user's request of canister `[3]` at the
last moment is accepted. -/
theorem Ex.accepted : ChecksCertificates Toy.env Ex.refused Ex.valid ∧
    ∃ sd, Accepted Toy.env Ex.valid Ex.expiration ⟨[5], Ex.alicePrincipal, [3], Ex.details.userCanisterPubkey, [sd], [1]⟩ ∧
      readCanisterKey Ex.details.userCanisterPubkey =
        some (Toy.env.canisterId, (Toy.env.sha256 (identityString (ascii "s") Ex.alice none)).bytes) := by
  constructor
  · rintro key seed m sig hk (h | ⟨rfl, _⟩)
    · exact ⟨Ex.refused, [7], List.prefix_rfl, h⟩
    · revert hk; rw [show readCanisterKey Ex.key = none by decide +kernel]; exact nofun
  · obtain ⟨sd, hsd, hk, _⟩ := Ex.refused_verifies
    have hm : SameModule [(⟨200, .login Ex.bobSig Ex.bob [1] (Ex.nonce 4), .err (.login (.delegation .sessionKeyNotDer))⟩ : Event)] := by
      intro e he; rw [List.mem_singleton] at he; subst he; simp [Event.Reinstalls]
    have hl : Event.LogsIn ⟨100, .login Ex.aliceSig Ex.alice Ex.key (Ex.nonce 3), .loggedIn Ex.details⟩ Ex.alice Ex.key
      (Ex.nonce 3) Ex.details := ⟨⟨_, rfl⟩, rfl⟩
    obtain ⟨s, p, hs, h⟩ := C81_session_is_accepted Toy.env Ex.refused 300 [7] Ex.alice Ex.key sd _ _ _ (Ex.nonce 3) Ex.details hsd
      (by decide) Ex.refused_trace hm hl hk Ex.valid (fun k m sig h => .inl h)
    have hts : s.targets = none := by
      have := (inForce_state hs).1
      have h2 : ((stateAfter Toy.env Ex.refused).lib.settings.bind Settings.targets) = none := by decide +kernel
      rw [this] at h2
      exact h2
    have hp : Ex.alicePrincipal = principalOfKey Toy.env Ex.details.userCanisterPubkey := by decide +kernel
    rw [hp]
    exact ⟨sd, h _ _ _ _ (.inr ⟨rfl, rfl⟩) (Nat.le_refl _) (fun ts h => by rw [hts] at h; cases h), by decide +kernel⟩

/-! ### C82 -/

/-- C82: if the IC accepts a call of the app canister under a key of the provider's canister and `whoami` tells the sender an address,
then it is the address whose wallet signed for the session the call is made with; or there is a collision of hashes: in the request, of
two users' identities, or of the request's key and a user's. -/
theorem C82_app_learns_the_signer (E : Env) (toText : Bytes → Bytes) (h : History) (i : SettingsInput)
    (hst : SteadyIdentities i (trace E h)) (now : UInt64) (derText : Bytes)
    (call : Bytes → Bytes → CallResult) (hcall : Reaches E h now derText call) (text : Bytes) (t : TestCanister)
    (hi : testInit E text = .ok t) (hp : E.principalFromText text = some E.canisterId)
    (valid : Bytes → Bytes → Bytes → Prop) (hc : ChecksCertificates E h valid)
    (r : Request) (seed : Bytes) (hk : readCanisterKey r.key = some (E.canisterId, seed)) (ha : Accepted E valid now r)
    (who address : Bytes) (hw : whoami toText t r.sender call = .ok (who, address)) :
    (∃ d rest, r.chain = d :: rest ∧ Entitled E (trace E h) r.key address d.delegation) ∨
    RequestCollision E h r ∨ LoginsCollide E i (trace E h) ∨
    ∃ e ∈ trace E h, ∃ a k n d, e.LogsIn a k n d ∧ Collision E.sha224 d.userCanisterPubkey r.key := by
  rcases C81_requests_come_from_logins E h valid hc now r seed hk ha with ⟨d, rest, addr, k, h1, h2, _⟩ | hcol
  swap
  · exact .inr (.inl hcol)
  obtain ⟨_, b, e, a, key', nonce', ld', g1, g2, g3, g4⟩ := C71_whoami_is_the_caller E toText h now derText call hcall text t hi hp _ _ _ hw
  have hmem : e ∈ trace E h := by rw [g1]; simp
  by_cases hkey : ld'.userCanisterPubkey = r.key
  swap
  · refine .inr (.inr (.inr ⟨e, hmem, address, key', nonce', ld', g3, hkey, ?_⟩))
    rw [ha.1, principalOfKey, principalOfKey] at g4
    have := (List.append_inj' g4 rfl).1
    cases h1' : E.sha224 ld'.userCanisterPubkey
    cases h2' : E.sha224 r.key
    rw [h1', h2'] at this
    cases this
    rfl
  -- the keys of both logins
  have keys : ∀ (b a : List Event) (e : Event) (addr key nonce : Bytes) (ld : LoginDetails), trace E h = b ++ e :: a →
      e.LogsIn addr key nonce ld → IsAddress E.keccak addr ∧ ld.userCanisterPubkey = keyOf E i addr := by
    intro b a e addr key nonce ld ht hl
    obtain ⟨h1, h2, e1, e2, e3, e4⟩ := traceFrom_split ht
    obtain ⟨⟨sig, c1⟩, c2⟩ := hl
    rw [c1, c2] at e3
    obtain ⟨ha, _, _, _, _, _, _, _, s, _, _, _, _, _, _, g5, _, _, _, _, _, _, _, g11⟩ := login_success (h := h1) e3.symm
    refine ⟨ha, g11.trans ?_⟩
    obtain ⟨b', e', a', j, q1, q2, q3, q4, q5⟩ := g5
    have hsame := hst e' (by rw [ht, show b = trace E h1 from e2, q1]; simp) j q3 q4
    have := seed_identityOf q5 addr
    unfold userKey at this
    rw [this]; unfold keyOf; rw [hsame addr]
  have h2' := h2
  obtain ⟨b2, e2, a2, sig2, nonce2, ld2, s2, p2, f1, f2, f3, f4, _⟩ := h2
  have k1 := keys _ _ _ _ _ _ _ g1 g3
  have k2 := keys _ _ _ _ _ _ _ f1 ⟨⟨sig2, f2⟩, f3⟩
  rw [← hkey, k1.2, k2.2] at f4
  unfold keyOf at f4
  rw [C25_key_reads_back E.canisterId _ E.canisterId_len (Hash.len _), C25_key_reads_back E.canisterId _ E.canisterId_len (Hash.len _)] at f4
  have f4 := Hash.ext' (Prod.mk.inj (Option.some.inj f4)).2
  by_cases heq : identityOf i addr = identityOf i address
  · have : addr = address := identityString_address_inj
      ((address_length k2.1).trans (address_length k1.1).symm) heq
    subst this
    exact .inl ⟨d, rest, h1, h2'⟩
  · exact .inr (.inr (.inl ⟨e2, by rw [f1]; simp, e, hmem, addr, address, _, _, _, _, _, _, ⟨⟨sig2, f2⟩, f3⟩, g3, .inl ⟨heq, f4⟩⟩))

/-- Calls that reach the provider after the example's login and refused login. -/
def Ex.callRefused (target p : Bytes) : CallResult :=
  if target = Toy.env.canisterId then ((step (stateAfter Toy.env Ex.refused) 300 (.getAddress p)).2).asCallResult [] else .failed

/-- The identities of the example are steady. -/
theorem Ex.refused_steady : SteadyIdentities Ex.input (trace Toy.env Ex.refused) := by
  intro e he j hj hd addr
  have hops : ∀ x ∈ Ex.refused, ∀ j, (x.2 = .install j ∨ x.2 = .upgrade j) → j = Ex.input := by
    intro x hx j hj
    simp only [Ex.refused, Ex.loggedIn, Ex.prepared, List.cons_append, List.nil_append, List.append_assoc, List.mem_cons,
      List.not_mem_nil, or_false] at hx
    rcases hx with rfl | rfl | rfl | rfl | rfl | rfl <;> rcases hj with hj | hj <;> first | cases hj; rfl | cases hj
  have : (e.time, e.call) ∈ Ex.refused := by
    obtain ⟨b, a, hba⟩ := List.append_of_mem he
    obtain ⟨h1, h2, e1, _⟩ := traceFrom_split hba
    rw [e1]; simp
  rw [hops _ this j hj]

/-- Non-vacuity: the identities of the example are steady, and the app canister tells the sender of the accepted request the address. -/
example : SteadyIdentities Ex.input (trace Toy.env Ex.refused) ∧ Reaches Toy.env Ex.refused 300 [] Ex.callRefused ∧
    whoami id (some Toy.env.canisterId) Ex.alicePrincipal Ex.callRefused = .ok (Ex.alicePrincipal, Ex.alice) := by
  refine ⟨Ex.refused_steady, ⟨fun p => .inr ?_⟩, by decide +kernel⟩
  rw [Ex.callRefused, if_pos rfl]

end Siwe
