import Verif.Props.Requests
import Verif.Props.MappingAnswers
import Verif.Props.Client
/- Property C117: the app in the browser and the app's canister know the same user. -/
namespace Siwe
open Spec

/-- The key of a login's identity. -/
theorem login_keyOf {E : Env} {h : History} {i : SettingsInput} (hst : SteadyIdentities i (trace E h)) {e : Event} (he : e ∈ trace E h)
    {addr key nonce : Bytes} {ld : LoginDetails} (hl : e.LogsIn addr key nonce ld) :
    IsAddress E.keccak addr ∧ ld.userCanisterPubkey = keyOf E i addr := by
  obtain ⟨b, a, ht⟩ := List.append_of_mem he
  obtain ⟨h1, h2, e1, e2, e3, e4⟩ := traceFrom_split ht
  obtain ⟨⟨sig, c1⟩, c2⟩ := hl
  rw [c1, c2] at e3
  obtain ⟨ha, _, _, _, _, _, _, _, s, _, _, _, _, _, _, g5, _, _, _, _, _, _, _, g11⟩ := login_success (h := h1) e3.symm
  refine ⟨ha, g11.trans ?_⟩
  obtain ⟨b', e', a', j, q1, q2, q3, q4, q5⟩ := g5
  have hsame := hst e' (by rw [ht, show b = trace E h1 from e2, q1]; simp) j q3 q4
  have := seed_identityOf q5 addr
  unfold userKey at this
  rw [this]; unfold keyOf; rw [hsame addr]

/-- Two logins with the same principal are of the same address, or their identities collide. -/
theorem same_principal {E : Env} {h : History} {i : SettingsInput} (hst : SteadyIdentities i (trace E h)) {e e' : Event}
    (he : e ∈ trace E h) (he' : e' ∈ trace E h) {a k n a' k' n' : Bytes} {d d' : LoginDetails} (hl : e.LogsIn a k n d)
    (hl' : e'.LogsIn a' k' n' d') (hp : principalOfKey E d.userCanisterPubkey = principalOfKey E d'.userCanisterPubkey) :
    a = a' ∨ LoginsCollide E i (trace E h) := by
  obtain ⟨h1, h2⟩ := login_keyOf hst he hl
  obtain ⟨h3, h4⟩ := login_keyOf hst he' hl'
  by_cases hi : identityOf i a = identityOf i a'
  · exact .inl (identityString_address_inj ((address_length h1).trans (address_length h3).symm) hi)
  refine .inr ⟨e, he, e', he', a, a', k, k', n, n', d, d', hl, hl', ?_⟩
  rw [h2, h4, principalOfKey, principalOfKey] at hp
  have hp := (List.append_inj' hp rfl).1
  by_cases hk : keyOf E i a = keyOf E i a'
  · left
    refine ⟨hi, ?_⟩
    have hk' := congrArg readCanisterKey hk
    unfold keyOf at hk'
    rw [C25_key_reads_back E.canisterId _ E.canisterId_len (Hash.len _),
      C25_key_reads_back E.canisterId _ E.canisterId_len (Hash.len _)] at hk'
    exact Hash.ext' (Prod.mk.inj (Option.some.inj hk')).2
  · right
    refine ⟨hk, ?_⟩
    cases h1' : E.sha224 (keyOf E i a)
    cases h2' : E.sha224 (keyOf E i a')
    rw [h1', h2'] at hp
    cases hp
    rfl

/-- Where an event counts and the canister was not installed anew since, some event is the last that counts. -/
theorem exists_lastCounted {counts : List Event → Event → Prop} {b a : List Event} {e : Event} (hc : counts b e)
    (hn : ∀ y ∈ a, ¬y.Installs) : ∃ b' e', LastCounted counts (b ++ e :: a) b' e' := by
  obtain ⟨r, rfl⟩ : ∃ r : List Event, a = r.reverse := ⟨a.reverse, by simp⟩
  induction r with
  | nil => exact ⟨b, e, [], rfl, hc, by simp, by simp⟩
  | cons x r ih =>
    rw [List.reverse_cons] at hn ⊢
    generalize r.reverse = a at ih hn
    by_cases hx : counts (b ++ e :: a) x
    · exact ⟨_, x, by
        rw [← List.cons_append, ← List.append_assoc, lastCounted_snoc]
        exact .inl ⟨rfl, rfl, hx⟩⟩
    · obtain ⟨b', e', h⟩ := ih fun y hy => hn y (by simp [hy])
      exact ⟨b', e', by
        rw [← List.cons_append, ← List.append_assoc, lastCounted_snoc]
        exact .inr ⟨hn x (by simp), hx, h⟩⟩

/-- The login the displayed identity comes from, in any later history of the canister. -/
theorem displayed_login {E : Env} {K : SessionKeys} {hs : List Happening} {i : Identity} {account : Bytes}
    (hi : (worldAfter E K hs).client.ctx.identity = some i) (ha : (worldAfter E K hs).client.ctx.identityAddress = some account)
    {h : History} (hh : (worldAfter E K hs).calls <+: h) :
    ∃ e ∈ trace E h, ∃ nonce d, e.LogsIn account (K i.session) nonce d ∧ d.userCanisterPubkey = i.chain.publicKey := by
  obtain ⟨_, _, _, _, account', d, sd, g1, _, _, g4, ⟨e, he, nonce, hl⟩, _⟩ := displayed_given hi
  rw [ha] at g1
  cases g1
  obtain ⟨l, hl'⟩ := trace_prefix (E := E) hh
  exact ⟨e, by rw [hl']; exact List.mem_append_left _ he, nonce, d, hl, by rw [g4]; rfl⟩

/-- C117: an app canister that asks the provider who the sender of a request is, signed with the identity the page shows, is told
the account the page shows: now or at any later time, whatever else happens meanwhile, as long as the way identities are derived is not
changed.  The alternative exhibits two logins whose identities collide. -/
theorem C117_told_the_account_shown (E : Env) (K : SessionKeys) (toText : Bytes → Bytes) (hs : List Happening) (i : Identity)
    (account : Bytes) (hi : (worldAfter E K hs).client.ctx.identity = some i)
    (ha : (worldAfter E K hs).client.ctx.identityAddress = some account)
    (h : History) (hh : (worldAfter E K hs).calls <+: h) (si : SettingsInput) (hst : SteadyIdentities si (trace E h))
    (now : UInt64) (derText : Bytes) (call : Bytes → Bytes → CallResult) (hcall : Reaches E h now derText call)
    (text : Bytes) (t : TestCanister) (ht : testInit E text = .ok t) (hp : E.principalFromText text = some E.canisterId)
    (who address : Bytes) (hw : whoami toText t (principalOfKey E i.chain.publicKey) call = .ok (who, address)) :
    address = account ∨ LoginsCollide E si (trace E h) := by
  obtain ⟨e, he, nonce, d, hl, hk⟩ := displayed_login hi ha hh
  obtain ⟨_, b', e', a', key', nonce', d', g1, _, g3, g4⟩ :=
    C71_whoami_is_the_caller E toText h now derText call hcall text t ht hp _ _ _ hw
  exact same_principal hst (by rw [g1]; simp) he g3 hl (by rw [g4, hk])

/-- C117: and it is told, if the addresses of principals are kept and the canister is not installed anew after the page's login. -/
theorem C117_is_told (E : Env) (K : SessionKeys) (toText : Bytes → Bytes) (hs : List Happening) (i : Identity)
    (account : Bytes) (hi : (worldAfter E K hs).client.ctx.identity = some i)
    (ha : (worldAfter E K hs).client.ctx.identityAddress = some account)
    (h : History) (hh : (worldAfter E K hs).calls <+: h) (si : SettingsInput) (hst : Steady si (trace E h))
    (hn : ∀ b e a nonce d, trace E h = b ++ e :: a → e.LogsIn account (K i.session) nonce d → ∀ y ∈ a, ¬y.Installs)
    (now : UInt64) (derText : Bytes) (call : Bytes → Bytes → CallResult) (hcall : Reaches E h now derText call)
    (hgo : call E.canisterId (principalOfKey E i.chain.publicKey) ≠ .failed)
    (text : Bytes) (t : TestCanister) (ht : testInit E text = .ok t) (hp : E.principalFromText text = some E.canisterId) :
    whoami toText t (principalOfKey E i.chain.publicKey) call = .ok (toText (principalOfKey E i.chain.publicKey), account) ∨
      LoginsCollide E si (trace E h) := by
  have hst' : SteadyIdentities si (trace E h) := fun e he j hj hd => (hst e he j hj hd).1
  obtain ⟨e, he, nonce, d, hl, hk⟩ := displayed_login hi ha hh
  obtain ⟨b, a, hba⟩ := List.append_of_mem he
  have nof : ∀ es rest, trace E h = es ++ rest → ¬HasFeature es .disablePrincipalToEthMapping := by
    rintro es rest hes ⟨j, ⟨b, x, a, q1, _, q3, q4⟩, q5⟩
    exact (hst x (by rw [hes, q1]; simp) j q3 q4).2.2 q5
  have hans := C72_get_address E h now (principalOfKey E i.chain.publicKey)
  have hgo' := (C71_whoami_answers E toText h now derText call hcall text t ht hp _ hgo).1
  generalize hr : (step (stateAfter E h) now (.getAddress (principalOfKey E i.chain.publicKey))).2 = r at hans
  cases hans with
  | disabled hf => exact absurd hf (nof _ [] (by simp))
  | tooLong _ hlen => simp [principalOfKey, Hash28.len] at hlen
  | found x _ hx =>
    rw [hgo' x hr]
    obtain ⟨b', e', key', nonce', d', ⟨a', q1, ⟨_, _, _, _, d'', q2, q3⟩, _⟩, q5⟩ := hx
    have hd : d'' = d' := Reply.loggedIn.inj (q2.2.symm.trans q5.2)
    subst hd
    rcases same_principal hst' (by rw [q1]; simp) he q5 hl (by rw [q3, hk]) with rfl | hc
    · exact .inl rfl
    · exact .inr hc
  | none _ _ hno =>
    obtain ⟨b', e', hlc⟩ := exists_lastCounted (counts := CountsForPrincipal E (principalOfKey E i.chain.publicKey)) (b := b) (e := e)
      (a := a) ⟨nof b (e :: a) hba, account, _, nonce, d, hl, by rw [hk]⟩ (hn b e a nonce d hba hl)
    rw [← hba] at hlc
    have hlc' := hlc
    obtain ⟨_, _, ⟨_, x, k, n, d', hx, _⟩, _⟩ := hlc'
    exact absurd ⟨b', e', k, n, d', hlc, hx⟩ (hno x)

/-- C117: until the session ends, the Internet Computer accepts every request signed with the session's key, as one of the principal of the
displayed identity, to the targets of its delegation: for a check of signatures that accepts the canister's on the strength of the
certificate the page was given with its delegation, provided the replica that gave it had executed the login and the module was not
replaced in between (and see C29 for the proviso on refused logins). -/
theorem C117_requests_accepted (E : Env) (K : SessionKeys) (hs : List Happening) (i : Identity)
    (hi : (worldAfter E K hs).client.ctx.identity = some i) :
    ∃ calls later cert account d, (worldAfter E K hs).client.ctx.identityAddress = some account ∧
      (worldAfter E K hs).calls = calls ++ later ∧ d.userCanisterPubkey = i.chain.publicKey ∧
      ((∀ j t c k, Happening.lagging j t c k ∉ hs) → ∃ e ∈ trace E calls, ∃ nonce, e.LogsIn account (K i.session) nonce d) ∧
      ∀ b e a nonce, trace E calls = b ++ e :: a → e.LogsIn account (K i.session) nonce d → cert.length < 2 ^ 64 →
        SameModule a → RefusalsHarmless (trace E calls) →
        ∀ valid : Bytes → Bytes → Bytes → Prop,
          (∀ k m sig, CanisterSigned E E.canisterId (stateAfter E calls).certifiedData cert k m sig → valid k m sig) →
          ∀ (t : UInt64) (id canister rsig : Bytes), valid (K i.session) (requestMessage id) rsig →
            t.toNat ≤ i.chain.delegation.expiration.toNat → (∀ ts, i.chain.delegation.targets = some ts → canister ∈ ts) →
            Accepted E valid t ⟨id, principalOfKey E i.chain.publicKey, canister, i.chain.publicKey,
              [⟨i.chain.delegation, i.chain.signature⟩], rsig⟩ := by
  obtain ⟨calls, later, t, cert, account, d, sd, g1, g2, g3, g4, g5, g6⟩ := displayed_given hi
  have hdr := C52_decision E calls t cert account (K i.session) d.expiration
  rw [g3] at hdr
  have hsd : (⟨i.chain.delegation, i.chain.signature⟩ : SignedDelegation) = sd := by rw [g4]; rfl
  have hk : i.chain.publicKey = d.userCanisterPubkey := by rw [g4]; rfl
  cases hdr with
  | success c s _ _ _ _ _ k2 _ _ _ _ _ _ _ k10 _ =>
    refine ⟨calls, later, c, account, d, g1, g2, hk.symm, fun hn => ?_, ?_⟩
    · obtain ⟨_, _, q⟩ := g6 hn
      exact q
    · intro b e a nonce hb hl hc hm hh valid hv t' id canister rsig hsig hle hts
      obtain ⟨s', p', hs', hacc⟩ := C81_session_is_accepted E calls t c account (K i.session) sd b a e nonce d g3 hc hb hm hl hh valid hv
      have hds : i.chain.delegation = sd.delegation := by rw [← hsd]
      have hse : s' = s := by
        have q1 := (inForce_state hs').1
        rw [k2] at q1
        exact (Option.some.inj q1).symm
      rw [hsd, hk]
      refine hacc t' id canister rsig hsig ?_ ?_
      · rw [hds, k10] at hle; exact hle
      · intro ts h; exact hts ts (by rw [hds, k10]; rw [hse] at h; exact h)

/-- The canister's calls after the example's login in the page, and another user's. -/
def Ex.appCalls : History := (worldAfter Toy.env Ex.keys Ex.signIn).calls ++ [(200, .prepareLogin Ex.bob)]

/-- The app canister's calls then. -/
def Ex.callApp (target p : Bytes) : CallResult :=
  if target = Toy.env.canisterId then ((step (stateAfter Toy.env Ex.appCalls) 300 (.getAddress p)).2).asCallResult [] else .failed

/-- A check of signatures: the canister's against what it had certified when it gave the page its delegation, and one byte as the session
key's. -/
def Ex.validPage (k m sig : Bytes) : Prop :=
  CanisterSigned Toy.env Toy.env.canisterId (stateAfter Toy.env ((worldAfter Toy.env Ex.keys Ex.signIn).calls.take 4)).certifiedData [9] k m sig ∨
    k = Ex.keys 0 ∧ sig = [1]

/-- Non-vacuity: the example's page shows alice, later calls are steady and reach the provider, and the app canister is told alice's
address. -/
example : (worldAfter Toy.env Ex.keys Ex.signIn).client.ctx.identity = some Ex.identity ∧
    (worldAfter Toy.env Ex.keys Ex.signIn).client.ctx.identityAddress = some Ex.alice ∧
    (worldAfter Toy.env Ex.keys Ex.signIn).calls <+: Ex.appCalls ∧ Steady Ex.input (trace Toy.env Ex.appCalls) ∧
    (∀ b e a nonce d, trace Toy.env Ex.appCalls = b ++ e :: a → e.LogsIn Ex.alice (Ex.keys Ex.identity.session) nonce d →
      ∀ y ∈ a, ¬y.Installs) ∧
    Reaches Toy.env Ex.appCalls 300 [] Ex.callApp ∧
    whoami id (some Toy.env.canisterId) (principalOfKey Toy.env Ex.identity.chain.publicKey) Ex.callApp =
      .ok (principalOfKey Toy.env Ex.identity.chain.publicKey, Ex.alice) := by
  have hops : ∀ e ∈ trace Toy.env Ex.appCalls, ∀ j, e.call = .install j ∨ e.call = .upgrade j → j = Ex.input := by
    intro e he j hj
    have h1 : e.call ∈ Ex.appCalls.map (·.2) := by rw [← trace_calls Toy.env Ex.appCalls]; exact List.mem_map_of_mem he
    have h2 : (Ex.appCalls.map (·.2)).all (fun | .install j => decide (j = Ex.input) | .upgrade _ => false | _ => true) = true := by
      decide +kernel
    have h3 := List.all_eq_true.mp h2 _ h1
    rcases hj with hj | hj <;> rw [hj] at h3
    · exact of_decide_eq_true h3
    · cases h3
  refine ⟨Ex.signIn_identity, by decide +kernel, ⟨_, rfl⟩, ?_, ?_, ⟨fun p => .inr ?_⟩, by decide +kernel⟩
  · intro e he j hj _
    rw [hops e he j hj]
    exact ⟨fun _ => rfl, by unfold KeepsMappings; decide⟩
  · intro b e a nonce d hb hl y hy hins
    cases b with
    | nil =>
      have h1 : (trace Toy.env Ex.appCalls).head?.map (·.call) = some (.install Ex.input) := by decide +kernel
      rw [hb] at h1
      obtain ⟨⟨_, c⟩, _⟩ := hl
      simp [c] at h1
    | cons x b =>
      have h2 : (trace Toy.env Ex.appCalls).tail.all (fun e => match e.call with | .install _ => false | _ => true) = true := by
        decide +kernel
      rw [hb] at h2
      have h3 := List.all_eq_true.mp h2 y (by simp [hy])
      obtain ⟨j, c, _⟩ := hins
      rw [c] at h3
      cases h3
  · rw [Ex.callApp, if_pos rfl]

/-- Non-vacuity: and a request of canister `[3]` signed with the page's identity is accepted at the session's last moment. -/
theorem Ex.pageAccepted : Accepted Toy.env Ex.validPage Ex.identity.chain.delegation.expiration
    ⟨[5], principalOfKey Toy.env Ex.identity.chain.publicKey, [3], Ex.identity.chain.publicKey,
      [⟨Ex.identity.chain.delegation, Ex.identity.chain.signature⟩], [1]⟩ := by
  have hd : (step (stateAfter Toy.env ((worldAfter Toy.env Ex.keys Ex.signIn).calls.take 4)) 110
      (.getDelegation (some [9]) Ex.alice (Ex.keys 0) 1800000000005)).2 =
        .delegation ⟨Ex.identity.chain.delegation, Ex.identity.chain.signature⟩ := by decide +kernel
  have hcalls : (worldAfter Toy.env Ex.keys Ex.signIn).calls.take 4 = (worldAfter Toy.env Ex.keys Ex.signIn).calls.take 3 ++
      [(100, .login Ex.aliceSig Ex.alice (Ex.keys 0) (Ex.nonce 3))] := by decide +kernel
  have hlog : ∃ ld, (step (stateAfter Toy.env ((worldAfter Toy.env Ex.keys Ex.signIn).calls.take 3)) 100
        (.login Ex.aliceSig Ex.alice (Ex.keys 0) (Ex.nonce 3))).2 = .loggedIn ld ∧ ld.expiration = 1800000000005 ∧
      ld.userCanisterPubkey = Ex.identity.chain.publicKey :=
    ⟨⟨1800000000005, Ex.identity.chain.publicKey⟩, by decide +kernel, by decide +kernel, by decide +kernel⟩
  obtain ⟨ld, h1, h2, h3⟩ := hlog
  have hsplit : trace Toy.env ((worldAfter Toy.env Ex.keys Ex.signIn).calls.take 4) =
      trace Toy.env ((worldAfter Toy.env Ex.keys Ex.signIn).calls.take 3) ++
        ⟨100, .login Ex.aliceSig Ex.alice (Ex.keys 0) (Ex.nonce 3), .loggedIn ld⟩ :: [] := by
    rw [hcalls, ← h1]; exact traceFrom_snoc _ _ _ _
  obtain ⟨s, p, hs, hacc⟩ := C81_session_is_accepted Toy.env _ 110 [9] Ex.alice (Ex.keys 0) _ _ [] _ (Ex.nonce 3) ld (by rw [h2]; exact hd) (by decide)
    hsplit (fun _ h => by cases h) ⟨⟨_, rfl⟩, rfl⟩ (refusalsHarmless_of_none (by decide +kernel)) Ex.validPage (fun _ _ _ h => .inl h)
  rw [← h3]
  refine hacc _ _ _ _ (.inr ⟨rfl, rfl⟩) (by rw [h2]; decide +kernel) ?_
  intro ts h
  have h4 : ((stateAfter Toy.env ((worldAfter Toy.env Ex.keys Ex.signIn).calls.take 4)).lib.settings.bind Settings.targets) = none := by
    decide +kernel
  rw [(inForce_state hs).1] at h4
  exact absurd (h4.symm.trans h) (by simp)

end Siwe
