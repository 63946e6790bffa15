import Verif.Spec.Reconfigured
import Verif.Props.OneAddress
import Verif.Props.Account
/- C82, C117 and C123 through changes of the configuration: salts, URIs and features may change with every installation and upgrade. -/
namespace Siwe
open Spec

/-- The keys of two logins lead to one address. -/
theorem same_seed {E : Env} {h : History} (hs : ShortSalts (trace E h)) {e e' : Event} (he : e ∈ trace E h) (he' : e' ∈ trace E h)
    {a k n a' k' n' : Bytes} {d d' : LoginDetails} (hl : e.LogsIn a k n d) (hl' : e'.LogsIn a' k' n' d')
    (hk : readCanisterKey d.userCanisterPubkey = readCanisterKey d'.userCanisterPubkey) : a = a' ∨ CollideAcross E (trace E h) := by
  refine C133_one_address E h hs e e' he he' a k n a' k' n' d d' hl hl' ?_
  obtain ⟨i, _, _, h2, _⟩ := login_under he hl
  obtain ⟨i', _, _, h4, _⟩ := login_under he' hl'
  rw [h2, h4] at hk ⊢
  unfold keyOf at hk ⊢
  rw [C25_key_reads_back E.canisterId _ E.canisterId_len (Hash.len _), C25_key_reads_back E.canisterId _ E.canisterId_len (Hash.len _)] at hk
  rw [(Prod.mk.inj (Option.some.inj hk)).2]

/-- C82, whatever happens to the configuration: if the IC accepts a call of the app canister under a key of the provider's canister and `whoami` tells the
sender an address, then it is the address whose wallet signed for the session the call is made with; or hashes collide. -/
theorem C82_through_reconfigurations (E : Env) (toText : Bytes → Bytes) (h : History) (hss : ShortSalts (trace E h)) (now : UInt64) (derText : Bytes)
    (call : Bytes → Bytes → CallResult) (hcall : Reaches E h now derText call) (text : Bytes) (t : TestCanister)
    (hi : testInit E text = .ok t) (hp : E.principalFromText text = some E.canisterId)
    (valid : Bytes → Bytes → Bytes → Prop) (hc : ChecksCertificates E h valid)
    (r : Request) (seed : Bytes) (hk : readCanisterKey r.key = some (E.canisterId, seed)) (ha : Accepted E valid now r)
    (who address : Bytes) (hw : whoami toText t r.sender call = .ok (who, address)) :
    (∃ d rest, r.chain = d :: rest ∧ Entitled E (trace E h) r.key address d.delegation) ∨
    RequestCollision E h r ∨ CollideAcross E (trace E h) ∨
    ∃ e ∈ trace E h, ∃ a k n d, e.LogsIn a k n d ∧ Collision E.sha224 d.userCanisterPubkey r.key := by
  rcases C81_requests_come_from_logins E h valid hc now r seed hk ha with ⟨d, rest, addr, k, h1, h2, _⟩ | hcol
  swap
  · exact .inr (.inl hcol)
  obtain ⟨_, b, e, a, key', nonce', ld', g1, g2, g3, g4⟩ := C71_whoami_is_the_caller E toText h now derText call hcall text t hi hp _ _ _ hw
  have hmem : e ∈ trace E h := by rw [g1]; simp
  by_cases hkey : ld'.userCanisterPubkey = r.key
  swap
  · refine .inr (.inr (.inr ⟨e, hmem, address, key', nonce', ld', g3, hkey, ?_⟩))
    rw [ha.1, principalOfKey, principalOfKey] at g4
    have := (List.append_inj' g4 rfl).1
    cases h1' : E.sha224 ld'.userCanisterPubkey
    cases h2' : E.sha224 r.key
    rw [h1', h2'] at this
    cases this
    rfl
  have h2' := h2
  obtain ⟨b2, e2, a2, sig2, nonce2, ld2, s2, p2, f1, f2, f3, f4, _⟩ := h2
  rw [← hkey] at f4
  rcases same_seed hss (by rw [f1]; simp) hmem ⟨⟨sig2, f2⟩, f3⟩ g3 f4 with rfl | hcol
  · exact .inl ⟨d, rest, h1, h2'⟩
  · exact .inr (.inr (.inl hcol))

/-- C117, whatever happens to the configuration: an app canister that asks the provider who the sender of a request is, signed with the identity the page shows, is
told the account the page shows, now or at any later time. -/
theorem C117_through_reconfigurations (E : Env) (K : SessionKeys) (toText : Bytes → Bytes) (hs : List Happening) (i : Identity)
    (account : Bytes) (hi : (worldAfter E K hs).client.ctx.identity = some i)
    (ha : (worldAfter E K hs).client.ctx.identityAddress = some account)
    (h : History) (hh : (worldAfter E K hs).calls <+: h) (hss : ShortSalts (trace E h))
    (now : UInt64) (derText : Bytes) (call : Bytes → Bytes → CallResult) (hcall : Reaches E h now derText call)
    (text : Bytes) (t : TestCanister) (ht : testInit E text = .ok t) (hp : E.principalFromText text = some E.canisterId)
    (who address : Bytes) (hw : whoami toText t (principalOfKey E i.chain.publicKey) call = .ok (who, address)) :
    address = account ∨ CollideAcross E (trace E h) := by
  obtain ⟨e, he, nonce, d, hl, hk⟩ := displayed_login hi ha hh
  obtain ⟨_, b', e', a', key', nonce', d', g1, _, g3, g4⟩ :=
    C71_whoami_is_the_caller E toText h now derText call hcall text t ht hp _ _ _ hw
  exact C133_one_address E h hss e' e (by rw [g1]; simp) he _ _ _ _ _ _ d' d g3 hl (by rw [g4, hk])

/-- C117: and it is told, through all changes of the configuration that keep the mappings, unless the canister is installed anew after the page's login. -/
theorem C117_is_told_through_upgrades (E : Env) (K : SessionKeys) (toText : Bytes → Bytes) (hs : List Happening) (i : Identity)
    (account : Bytes) (hi : (worldAfter E K hs).client.ctx.identity = some i)
    (ha : (worldAfter E K hs).client.ctx.identityAddress = some account)
    (h : History) (hh : (worldAfter E K hs).calls <+: h) (hss : ShortSalts (trace E h)) (hst : AlwaysMapped (trace E h))
    (hn : ∀ b e a nonce d, trace E h = b ++ e :: a → e.LogsIn account (K i.session) nonce d → ∀ y ∈ a, ¬y.Installs)
    (now : UInt64) (derText : Bytes) (call : Bytes → Bytes → CallResult) (hcall : Reaches E h now derText call)
    (hgo : call E.canisterId (principalOfKey E i.chain.publicKey) ≠ .failed)
    (text : Bytes) (t : TestCanister) (ht : testInit E text = .ok t) (hp : E.principalFromText text = some E.canisterId) :
    whoami toText t (principalOfKey E i.chain.publicKey) call = .ok (toText (principalOfKey E i.chain.publicKey), account) ∨
      CollideAcross E (trace E h) := by
  obtain ⟨e, he, nonce, d, hl, hk⟩ := displayed_login hi ha hh
  obtain ⟨b, a, hba⟩ := List.append_of_mem he
  have nof : ∀ es rest, trace E h = es ++ rest → ¬HasFeature es .disablePrincipalToEthMapping := by
    rintro es rest hes ⟨j, ⟨b, x, a, q1, _, q3, q4⟩, q5⟩
    exact (hst x (by rw [hes, q1]; simp) j q3 q4).2 q5
  have hans := C72_get_address E h now (principalOfKey E i.chain.publicKey)
  have hgo' := (C71_whoami_answers E toText h now derText call hcall text t ht hp _ hgo).1
  generalize hr : (step (stateAfter E h) now (.getAddress (principalOfKey E i.chain.publicKey))).2 = r at hans
  cases hans with
  | disabled hf => exact absurd hf (nof _ [] (by simp))
  | tooLong _ hlen => simp [principalOfKey, Hash28.len] at hlen
  | found x _ hx =>
    rw [hgo' x hr]
    obtain ⟨b', e', key', nonce', d', ⟨a', q1, ⟨_, _, _, _, d'', q2, q3⟩, _⟩, q5⟩ := hx
    have hd : d'' = d' := Reply.loggedIn.inj (q2.2.symm.trans q5.2)
    subst hd
    rcases C133_one_address E h hss e' e (by rw [q1]; simp) he _ _ _ _ _ _ _ _ q5 hl (by rw [q3, hk]) with rfl | hc
    · exact .inl rfl
    · exact .inr hc
  | none _ _ hno =>
    obtain ⟨b', e', hlc⟩ := exists_lastCounted (counts := CountsForPrincipal E (principalOfKey E i.chain.publicKey)) (b := b) (e := e)
      (a := a) ⟨nof b (e :: a) hba, account, _, nonce, d, hl, by rw [hk]⟩ (hn b e a nonce d hba hl)
    rw [← hba] at hlc
    have hlc' := hlc
    obtain ⟨_, _, ⟨_, x, k, n, d', hx, _⟩, _⟩ := hlc'
    exact absurd ⟨b', e', k, n, d', hlc, hx⟩ (hno x)

/-- C123, whatever happens to the configuration: whoever makes a request that the IC accepts as coming from the principal that an account has under some
configuration `i`, earlier, present or future, the account's wallet has signed for it, a message issued no longer ago than sessions last; or hashes collide. -/
theorem C123_through_reconfigurations (E : Env) (h : History) (hss : ShortSalts (trace E h)) (i : SettingsInput) (hsi : i.salt.length ≤ 255) (x : Nat)
    (hx : SessionsLast h x) (valid : Bytes → Bytes → Bytes → Prop) (hc : ChecksCertificates E h valid) (now : UInt64) (r : Request)
    (ha : Accepted E valid now r) (addr : Bytes) (haddr : IsAddress E.keccak addr) (hs : r.sender = principalOf E i addr) :
    SignedInFor E (trace E h) addr x now r ∨ ReconfiguredCollision E i h addr r := by
  by_cases hkey : keyOf E i addr = r.key
  swap
  · refine .inr (.inr (.inl ⟨hkey, ?_⟩))
    rw [ha.1, principalOf, principalOfKey, principalOfKey] at hs
    have := (List.append_inj' hs rfl).1
    cases h1' : E.sha224 (keyOf E i addr)
    cases h2' : E.sha224 r.key
    rw [h1', h2'] at this
    cases this
    rfl
  have hread := C25_key_reads_back E.canisterId (E.sha256 (identityOf i addr)).bytes E.canisterId_len (Hash.len _)
  change readCanisterKey (keyOf E i addr) = _ at hread
  rw [hkey] at hread
  rcases C81_requests_come_from_logins E h valid hc now r _ hread ha with ⟨d, rest, a, k, h1, h2, h3, h4, _⟩ | hcol
  swap
  · exact .inr (.inl hcol)
  obtain ⟨before, e, after, sig, nonce, ld, s, p, f1, f2, f3, f4, f5, f6, f7, issue, f8, a', nonce', text, f9, f10, f11, f12⟩ := h2
  have hl : e.LogsIn a d.delegation.pubkey nonce ld := ⟨⟨sig, f2⟩, f3⟩
  have hmem : e ∈ trace E h := by rw [f1]; simp
  obtain ⟨j, u, g1, g2, y, hy, hyc, hyr⟩ := login_under hmem hl
  have hid : identityOf j a = identityOf i addr ∨ Collision E.sha256 (identityOf j a) (identityOf i addr) := by
    rw [hread, g2, keyOf, C25_key_reads_back E.canisterId _ E.canisterId_len (Hash.len _)] at f4
    have f4 := Hash.ext' (Prod.mk.inj (Option.some.inj f4)).2
    by_cases he : identityOf j a = identityOf i addr
    · exact .inl he
    · exact .inr ⟨he, f4⟩
  rcases hid with hid | hid
  swap
  · exact .inr (.inr (.inr (.inl ⟨j, a, ld, u, hid⟩)))
  have l1 := address_length g1
  have l2 := address_length haddr
  have : a = addr := (identityString_inj (hss y hy j hyc hyr) hsi (by omega) (by omega) hid).2.1
  subst this
  rcases f10 with ⟨rfl, rfl⟩ | hcol
  · refine .inl ⟨before, e, after, issue, sig, _, nonce', text, ld, d, rest, s, p, f1, f8, f9, ?_, f11, f2, f3, h1, rfl, f5, fun ts hts =>
      h4 ts (f7.trans hts)⟩
    obtain ⟨b, e', a'', j, w1, _, w3, _, w5⟩ := f5
    have := hx (e'.time, e'.call) (by
      rw [← traceFrom_timesCalls (State.fresh E) h]
      refine List.mem_map.mpr ⟨e', ?_, rfl⟩
      show e' ∈ trace E h
      rw [f1, w1]; simp) j w3
    rw [← w5.session] at this
    rw [f6] at h3
    omega
  · exact .inr (.inr (.inr (.inr ⟨issue, by rw [f1]; simp [f8], e, hmem, a', nonce', text, _, nonce, ld, f9, hl, hcol⟩)))

/-- C123: an address whose wallet never signed an issued message: nobody acts for it, under whatever configuration. -/
theorem C123_never_signed_reconfigured (E : Env) (h : History) (hss : ShortSalts (trace E h)) (i : SettingsInput) (hsi : i.salt.length ≤ 255)
    (valid : Bytes → Bytes → Bytes → Prop) (hc : ChecksCertificates E h valid) (now : UInt64) (r : Request)
    (ha : Accepted E valid now r) (addr : Bytes) (haddr : IsAddress E.keccak addr) (hs : r.sender = principalOf E i addr)
    (hno : ∀ e ∈ trace E h, ∀ nonce text, e.Issues addr nonce text → ∀ e' ∈ trace E h, ∀ sig key n, e'.call = .login sig addr key n →
      ¬Signs E sig text addr) : ReconfiguredCollision E i h addr r := by
  obtain ⟨x, hx⟩ : ∃ x, SessionsLast h x := ⟨2 ^ 64, fun y _ j _ => Nat.le_of_lt (UInt64.toNat_lt _)⟩
  rcases C123_through_reconfigurations E h hss i hsi x hx valid hc now r ha addr haddr hs with hh | hh
  · obtain ⟨before, e, after, issue, sig, session, nonce, text, ld, d, rest, s, p, f1, f2, f3, f4, f5, f6, _⟩ := hh
    exact absurd f5 (hno issue (by rw [f1]; simp [f2]) nonce text f3 e (by rw [f1]; simp) sig session nonce f6)
  · exact hh

/-- Alice logged in, and then the salt was changed. -/
def Ex.saltChanged : History := Ex.refused ++ [(310, .upgrade Ex.otherSalt)]

def Ex.callSaltChanged (target p : Bytes) : CallResult :=
  if target = Toy.env.canisterId then ((step (stateAfter Toy.env Ex.saltChanged) 320 (.getAddress p)).2).asCallResult [] else .failed

/-- Non-vacuity, for C82 and C123: after the salt was changed a request with Alice's old identity is still accepted, and the app canister is told Alice's address. -/
example : ShortSalts (trace Toy.env Ex.saltChanged) ∧ ¬SteadyIdentities Ex.input (trace Toy.env Ex.saltChanged) ∧ SessionsLast Ex.saltChanged 1800000000000 ∧
    ChecksCertificates Toy.env Ex.saltChanged Ex.valid ∧ IsAddress Toy.env.keccak Ex.alice ∧ Reaches Toy.env Ex.saltChanged 320 [] Ex.callSaltChanged ∧
    whoami id (some Toy.env.canisterId) Ex.alicePrincipal Ex.callSaltChanged = .ok (Ex.alicePrincipal, Ex.alice) ∧
    ∃ sd, Accepted Toy.env Ex.valid Ex.expiration ⟨[5], principalOf Toy.env Ex.input Ex.alice, [3], Ex.details.userCanisterPubkey, [sd], [1]⟩ := by
  refine ⟨(Ex.keptAndShort_spec (by decide +kernel)).2, ?_, ?_, ?_, Ex.aliceOk _, ⟨fun p => .inr (by rw [Ex.callSaltChanged, if_pos rfl])⟩, by decide +kernel, ?_⟩
  · intro hst
    have hlast : trace Toy.env Ex.saltChanged = trace Toy.env Ex.refused ++ [⟨310, .upgrade Ex.otherSalt, (step (stateAfter Toy.env Ex.refused) 310 (.upgrade Ex.otherSalt)).2⟩] :=
      traceFrom_snoc _ _ _ _
    have := hst ⟨310, .upgrade Ex.otherSalt, (step (stateAfter Toy.env Ex.refused) 310 (.upgrade Ex.otherSalt)).2⟩ (by rw [hlast]; simp) Ex.otherSalt (.inr rfl)
      (by decide +kernel) Ex.alice
    exact absurd this (by decide +kernel)
  · intro x hx j hj
    simp only [Ex.saltChanged, Ex.refused, Ex.loggedIn, Ex.prepared, List.cons_append, List.nil_append, List.append_assoc, List.mem_cons,
      List.not_mem_nil, or_false] at hx
    rcases hx with rfl | rfl | rfl | rfl | rfl | rfl | rfl <;> rcases hj with hj | hj <;> cases hj <;> decide
  · intro key seed m sig hk hv
    obtain ⟨h1, cert, hpre, hsig⟩ := Ex.accepted.1 key seed m sig hk hv
    exact ⟨h1, cert, hpre.trans ⟨_, rfl⟩, hsig⟩
  · obtain ⟨sd, h, _⟩ := Ex.accepted.2
    rw [show principalOf Toy.env Ex.input Ex.alice = Ex.alicePrincipal by decide +kernel]
    exact ⟨sd, h⟩

/-- The canister's calls after the example's login in the page, and a change of the salt. -/
def Ex.appCallsResalted : History := (worldAfter Toy.env Ex.keys Ex.signIn).calls ++ [(200, .upgrade Ex.otherSalt)]

def Ex.callAppResalted (target p : Bytes) : CallResult :=
  if target = Toy.env.canisterId then ((step (stateAfter Toy.env Ex.appCallsResalted) 300 (.getAddress p)).2).asCallResult [] else .failed

/-- Non-vacuity, for C117. -/
example : (worldAfter Toy.env Ex.keys Ex.signIn).client.ctx.identity = some Ex.identity ∧
    (worldAfter Toy.env Ex.keys Ex.signIn).client.ctx.identityAddress = some Ex.alice ∧
    (worldAfter Toy.env Ex.keys Ex.signIn).calls <+: Ex.appCallsResalted ∧ AlwaysMapped (trace Toy.env Ex.appCallsResalted) ∧
    ShortSalts (trace Toy.env Ex.appCallsResalted) ∧ Reaches Toy.env Ex.appCallsResalted 300 [] Ex.callAppResalted ∧
    (∀ b e a nonce d, trace Toy.env Ex.appCallsResalted = b ++ e :: a → e.LogsIn Ex.alice (Ex.keys Ex.identity.session) nonce d →
      ∀ y ∈ a, ¬y.Installs) ∧
    whoami id (some Toy.env.canisterId) (principalOfKey Toy.env Ex.identity.chain.publicKey) Ex.callAppResalted =
      .ok (principalOfKey Toy.env Ex.identity.chain.publicKey, Ex.alice) := by
  have hk := Ex.keptAndShort_spec (E := Toy.env) (h := Ex.appCallsResalted) (by decide +kernel)
  refine ⟨Ex.signIn_identity, by decide +kernel, ⟨_, rfl⟩, hk.1, hk.2, ⟨fun p => .inr (by rw [Ex.callAppResalted, if_pos rfl])⟩, ?_, by decide +kernel⟩
  intro b e a nonce d hb hl y hy hins
  cases b with
  | nil =>
    have h1 : (trace Toy.env Ex.appCallsResalted).head?.map (·.call) = some (.install Ex.input) := by decide +kernel
    rw [hb] at h1
    obtain ⟨⟨_, c⟩, _⟩ := hl
    simp [c] at h1
  | cons x b =>
    have h2 : (trace Toy.env Ex.appCallsResalted).tail.all (fun e => match e.call with | .install _ => false | _ => true) = true := by
      decide +kernel
    rw [hb] at h2
    have h3 := List.all_eq_true.mp h2 y (by simp [hy])
    obtain ⟨j, c, _⟩ := hins
    rw [c] at h3
    cases h3

end Siwe
