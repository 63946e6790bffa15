import Verif.Lemmas.Der
import Verif.Props.Wallet
import Verif.Props.Client
/- Properties C103 and C104: which session keys are accepted, and signing in with the keys the library makes. -/
namespace Siwe
open Spec Secp WeierstrassCurve.Affine Client

/-- C103: a login succeeds exactly if a message issued to the address awaits it, the owner of the address signed that text, and the
session key is a nonempty sequence of ASN.1 values. -/
theorem C103_login_iff (E : Env) (texts : Nat → Bytes → Bool) (hD : UsesDer E texts) (h : History) (now : UInt64)
    (sig addr key nonce : Bytes) :
    (∃ r, (step (stateAfter E h) now (.login sig addr key nonce)).2 = .loggedIn r) ↔
      IsAddress E.keccak addr ∧ HexString 130 sig ∧
      (∃ t text, Awaits E (trace E h) now addr nonce t text ∧ Signs E sig text addr) ∧ IsDer texts key := by
  rw [C91_success_iff, hD, Der.fromDer_iff]
  unfold IsDer
  constructor
  · rintro ⟨h1, h2, h3, h4, h5⟩; exact ⟨h1, h2, h3, h5⟩
  · rintro ⟨h1, h2, h3, h4⟩; exact ⟨h1, h2, h3, h4.1, h4⟩

/-- C103: a login that is right in everything else, with a key that is not such a sequence, is answered with the error for
session keys that are empty or not DER. -/
theorem C103_refused (E : Env) (texts : Nat → Bytes → Bool) (hD : UsesDer E texts) (h : History) (now : UInt64)
    (sig addr key nonce text : Bytes) (t : UInt64) (ha : IsAddress E.keccak addr) (hw : Awaits E (trace E h) now addr nonce t text)
    (hsig : HexString 130 sig) (hs : Signs E sig text addr) (hk : ¬IsDer texts key) :
    (step (stateAfter E h) now (.login sig addr key nonce)).2 =
      .err (.login (.delegation (if key = [] then .sessionKeyEmpty else .sessionKeyNotDer))) := by
  symm
  apply C91_only_answer
  refine .badKey t text _ ha hsig hw hs ?_
  split
  · rename_i hk0; exact .empty hk0
  · rename_i hk0
    refine .notDer hk0 ?_
    cases hc : E.derOk key
    · rfl
    · rw [hD] at hc
      exact absurd ((Der.fromDer_iff _ _).1 hc) hk

/-- C103: every public key in the form of RFC 5280 is such a sequence. -/
theorem C103_public_keys (texts : Nat → Bytes → Bool) (key : Bytes) (h : IsPublicKey (fun t b => texts t b = true) key) :
    IsDer texts key := by
  refine ⟨?_, Der.publicKey_values h⟩
  obtain ⟨len, body, _, _, rfl⟩ := Der.publicKey_parts h
  simp

/-- C103: so are the public keys of the session identities an app may use, Ed25519 and ECDSA on P-256. -/
theorem C103_app_keys (texts : Nat → Bytes → Bool) (key : Bytes) (h : IsEd25519Key key ∨ IsP256Key key) : IsDer texts key := by
  rcases h with h | h
  · exact C103_public_keys texts key (Der.ed25519_publicKey _ h)
  · exact C103_public_keys texts key (Der.p256_publicKey _ h)

/-- C103: a public key of which bytes are missing at the end is refused. -/
theorem C103_truncated (texts : Nat → Bytes → Bool) (key lost : Bytes) (hl : lost ≠ [])
    (h : IsPublicKey (fun t b => texts t b = true) (key ++ lost)) : ¬IsDer texts key := by
  rintro ⟨h0, hv⟩
  obtain ⟨len, body, h1, h2, h3⟩ := Der.publicKey_parts h
  exact hl (Der.values_prefix h1 h2 hv h0 h3)

/-- C103: a public key followed by more bytes is accepted exactly if they are further ASN.1 values. -/
theorem C103_trailing (texts : Nat → Bytes → Bool) (key more : Bytes) (h : IsPublicKey (fun t b => texts t b = true) key) :
    IsDer texts (key ++ more) ↔ more = [] ∨ IsDer texts more := by
  obtain ⟨len, body, h1, h2, h3⟩ := Der.publicKey_parts h
  constructor
  · rintro ⟨_, hv⟩
    rw [h3] at hv
    have := Der.values_head h1 h2 hv
    by_cases hm : more = []
    · exact .inl hm
    · exact .inr ⟨hm, this⟩
  · rintro (rfl | ⟨_, hm⟩)
    · rw [List.append_nil]; exact C103_public_keys texts key h
    · refine ⟨?_, Der.values_append (Der.publicKey_values h) hm⟩
      rw [h3]; simp

/-- C104: in a page whose wallet holds the private key of the account `a`, where nothing is in progress and no message is at hand,
`login()` signs the user in, with the Ed25519 key the library has made: the canister issues a message, the wallet signs it,
other users' calls `h1` and `h2` come in between but nothing expires.  Then the promise resolves, the state says "success" and
shows `a`, and the displayed identity verifies (provided no login refused for its session key pruned signatures since, see
C29).  The alternatives exhibit a SHA-256 collision with another call. -/
theorem C104_login_signs_in (E : Env) (hS : UsesSecp256k1 E) (texts : Nat → Bytes → Bool) (hD : UsesDer E texts)
    (K : SessionKeys) (hK : ∀ n, IsEd25519Key (K n)) (w : World) (x : Wallet) (priv : Nat) (a sig cert : Bytes) (l l' : List Bytes)
    (t0 t1 t2 : UInt64) (h1 h2 : History) (p : PrepareLoginOkResponse)
    (hmsg : w.client.ctx.prepareLoginOkResponse = none) (hprep : w.client.ctx.prepareLoginStatus ≠ .preparing)
    (hlog : w.client.ctx.loginStatus ≠ .loggingIn) (hwal : HasWallet w.client x)
    (hpriv : IsPrivateKey priv) (haddr : IsAddressOf E (priv • generator) a)
    (hp : (step (stateAfter E w.calls) t0 (.prepareLogin a)).2 = .prepared p)
    (hsigns : WalletSigns E priv p.siweMessage sig) (full : History)
    (hfull : full = w.calls ++ [(t0, .prepareLogin a)] ++ h1 ++
      [(t1, .login sig a (K w.client.generated) p.nonce)] ++ h2)
    (hm1 : SameModule (traceFrom (stateAfter E (w.calls ++ [(t0, .prepareLogin a)])) h1))
    (hm2 : SameModule (traceFrom (stateAfter E (w.calls ++ [(t0, .prepareLogin a)] ++ h1 ++
      [(t1, .login sig a (K w.client.generated) p.nonce)])) h2))
    (ho : ∀ e ∈ traceFrom (stateAfter E (w.calls ++ [(t0, .prepareLogin a)])) h1, ¬e.Concerns a p.nonce)
    (hf1 : ∀ y ∈ w.calls ++ h1, ∀ sig' a' nonce', y.2 ≠ .login sig' a' (K w.client.generated) nonce')
    (hf2 : ∀ y ∈ h2, ∀ sig' a' nonce', y.2 ≠ .login sig' a' (K w.client.generated) nonce')
    (hx2 : ∀ y ∈ h2, y.1.toNat ≤ t2.toNat) (ht2 : t2.toNat < min (t1.toNat + minute) (2 ^ 64 - 1))
    (hc : cert.length < 2 ^ 64) (hharm : RefusalsHarmless (trace E full)) :
    ∃ s, (stateAfter E w.calls).lib.settings = some s ∧
    ((∀ y ∈ h1, y.1.toNat < min (t0.toNat + s.signInExpiresIn.toNat) (2 ^ 64 - 1)) →
      t1.toNat < min (t0.toNat + s.signInExpiresIn.toNat) (2 ^ 64 - 1) →
    (∃ w' i, w' = w.run E K (loginFetch w.client.tasks.length a l l' t0 ++ others h1 ++ loginSign w.client.tasks.length sig t1 ++
        others h2 ++ loginFinish w.client.tasks.length t2 cert) ∧
      w'.client.tasks[w.client.tasks.length]? = some (.loggedIn i) ∧ w'.client.ctx.loginStatus = .success ∧
      w'.client.ctx.identityAddress = some a ∧ w'.client.ctx.identity = some i ∧
      i.chain.delegation.pubkey = K w.client.generated ∧ i.chain.delegation.targets = s.targets ∧
      i.chain.delegation.expiration.toNat = min (t0.toNat + s.sessionExpiresIn.toNat) (2 ^ 64 - 1) ∧
      Verifies E E.canisterId (stateAfter E full).certifiedData cert i.chain.publicKey
        ⟨i.chain.delegation, i.chain.signature⟩) ∨
    (∃ y ∈ trace E full, ∃ a' key' nonce' d' s' d, y.LogsIn a' key' nonce' d' ∧
      InForce E (trace E full) s' (stateAfter E full).settings ∧ d.toNat = min (t0.toNat + s.sessionExpiresIn.toNat) (2 ^ 64 - 1) ∧
      GrantCollision E s' a (K w.client.generated) d a' key' d'.expiration) ∨
    ∃ e ∈ traceFrom (stateAfter E (w.calls ++ [(t0, .prepareLogin a)])) h1, ∃ a' nonce', e.Concerns a' nonce' ∧
      KeyCollision E a p.nonce a' nonce') := by
  have hsig := walletSigns_hex hsigns
  have hder := C103_app_keys texts _ (.inl (hK w.client.generated))
  obtain ⟨s, hs, H⟩ := C63_login_signs_in E K w x a sig cert l l' t0 t1 t2 h1 h2 p hmsg hprep hlog hwal hp hsig
    ((C99_accepted_iff E hS sig _ a hsig).2 ⟨priv, hpriv, hsigns, haddr⟩) hder.1
    (by rw [hD]; exact (Der.fromDer_iff _ _).2 hder) full hfull hm1 hm2 ho hf1 hf2 hx2 ht2 hc hharm
  refine ⟨s, hs, fun k1 k2 => ?_⟩
  rcases H k1 k2 with ⟨w', i, q1, q2, q3, q4, q5, _, q7, q8, q9, _, q11⟩ | H
  · exact .inl ⟨w', i, q1, q2, q3, q4, q5, q7, q8, q9, q11⟩
  · exact .inr H

/-! ### Non-vacuity -/

/-- The example environment with the real signature functions and the real parser of session keys (any texts and dates). -/
def Ex.keyEnv : Env := { Ex.secpEnv with derOk := Der.fromDer fun _ _ => true }

/-- An Ed25519 key: all bytes of the point are `n`. -/
def Ex.edKey (n : Nat) : Bytes :=
  [0x30, 0x2a, 0x30, 0x05, 0x06, 0x03, 0x2b, 0x65, 0x70, 0x03, 0x21, 0x00] ++ List.replicate 32 (UInt8.ofNat n)

/-- A P-256 key. -/
def Ex.p256Key : Bytes :=
  [0x30, 0x59, 0x30, 0x13, 0x06, 0x07, 0x2a, 0x86, 0x48, 0xce, 0x3d, 0x02, 0x01, 0x06, 0x08, 0x2a,
    0x86, 0x48, 0xce, 0x3d, 0x03, 0x01, 0x07, 0x03, 0x42, 0x00] ++ List.replicate 65 4

theorem Ex.keyDer : UsesDer Ex.keyEnv fun _ _ => true := rfl

theorem Ex.edKey_is (n : Nat) : IsEd25519Key (Ex.edKey n) := ⟨List.replicate 32 (UInt8.ofNat n), by simp, rfl⟩

/-- Keys that are accepted and keys that are not: a cut one, one with a byte too many, the empty one and a text; a key with a
further value is accepted. -/
example : IsEd25519Key (Ex.edKey 7) ∧ IsP256Key Ex.p256Key ∧
    IsDer (fun _ _ => true) (Ex.edKey 7) ∧ IsDer (fun _ _ => true) Ex.p256Key ∧ IsDer (fun _ _ => true) (Ex.edKey 7 ++ [5, 0]) ∧
    ¬IsDer (fun _ _ => true) (Ex.edKey 7).dropLast ∧ ¬IsDer (fun _ _ => true) (Ex.edKey 7 ++ [0]) ∧ ¬IsDer (fun _ _ => true) [] ∧
    ¬IsDer (fun _ _ => true) (ascii "key") := by
  have h : ∀ bs, IsDer (fun _ _ => true) bs ↔ Der.fromDer (fun _ _ => true) bs = true := fun bs => (Der.fromDer_iff _ bs).symm
  simp only [h]
  exact ⟨Ex.edKey_is 7, ⟨List.replicate 65 4, by simp, rfl⟩, by decide +kernel, by decide +kernel, by decide +kernel,
    by decide +kernel, by decide +kernel, by decide +kernel, by decide +kernel⟩

/-- Lengths of two and three bytes: a long RSA-like key is a public key. -/
example : ∃ key, IsPublicKey (fun _ _ => True) key ∧ key.length = 290 := by
  refine ⟨[0x30, 0x82, 0x01, 0x1e, 0x30, 0x0d, 0x06, 0x09, 0x2a, 0x86, 0x48, 0x86, 0xf7, 0x0d, 0x01, 0x01, 0x01, 0x05, 0x00,
    0x03, 0x82, 0x01, 0x0b, 0x00] ++ List.replicate 266 1, ⟨0x2a, [0x86, 0x48, 0x86, 0xf7, 0x0d, 0x01, 0x01, 0x01], [0x05, 0x00],
    List.replicate 266 1, [0x06, 0x09, 0x2a, 0x86, 0x48, 0x86, 0xf7, 0x0d, 0x01, 0x01, 0x01],
    [0x30, 0x0d, 0x06, 0x09, 0x2a, 0x86, 0x48, 0x86, 0xf7, 0x0d, 0x01, 0x01, 0x01, 0x05, 0x00],
    [0x03, 0x82, 0x01, 0x0b, 0x00] ++ List.replicate 266 1, by simp, ?_, .inl ⟨by decide, rfl⟩, .inl ⟨by decide, rfl⟩,
    .inr ⟨by decide +kernel, [0x01, 0x0b], by decide, by decide +kernel, rfl⟩,
    .inr ⟨by decide +kernel, [0x01, 0x1e], by decide, by decide +kernel, rfl⟩, by decide +kernel⟩, by decide +kernel⟩
  exact .cons 0 5 [5] [0] [] [] (.low 5 (by decide)) (.short 0 (by decide))
    (fun _ => ⟨fun h => absurd h (by decide), fun h => absurd h (by decide), fun h => absurd h (by decide),
      fun h => absurd h (by decide)⟩) (fun _ h => absurd h (by decide)) .nil

/-- Non-vacuity of C103 and C104: in the example page, the owner of a private key gets a message, and the wallet signs it; the
hypotheses of C104 are met without other calls, and those of `C103_refused` with a cut key. -/
example : ∃ a sig p full, IsAddressOf Ex.keyEnv (0xdeadbeef • generator) a ∧
    (step (stateAfter Ex.keyEnv (worldAfter Ex.keyEnv Ex.edKey Ex.page).calls) 5 (.prepareLogin a)).2 = .prepared p ∧
    WalletSigns Ex.keyEnv 0xdeadbeef p.siweMessage sig ∧
    full = (worldAfter Ex.keyEnv Ex.edKey Ex.page).calls ++ [(5, .prepareLogin a)] ++ [] ++
      [(9, .login sig a (Ex.edKey (worldAfter Ex.keyEnv Ex.edKey Ex.page).client.generated) p.nonce)] ++ [] ∧
    RefusalsHarmless (trace Ex.keyEnv full) ∧
    (worldAfter Ex.keyEnv Ex.edKey Ex.page).client.ctx.prepareLoginOkResponse = none ∧
    (worldAfter Ex.keyEnv Ex.edKey Ex.page).client.ctx.prepareLoginStatus ≠ .preparing ∧
    (worldAfter Ex.keyEnv Ex.edKey Ex.page).client.ctx.loginStatus ≠ .loggingIn ∧
    HasWallet (worldAfter Ex.keyEnv Ex.edKey Ex.page).client 7 ∧
    (∀ y ∈ (worldAfter Ex.keyEnv Ex.edKey Ex.page).calls, ∀ sig' a' nonce', y.2 ≠ .login sig' a'
      (Ex.edKey (worldAfter Ex.keyEnv Ex.edKey Ex.page).client.generated) nonce') ∧
    (∃ t text, Awaits Ex.keyEnv (trace Ex.keyEnv (Ex.start ++ [(5, .prepareLogin a)])) 9 a p.nonce t text ∧ Signs Ex.keyEnv sig text a) ∧
    ¬IsDer (fun _ _ => true) (Ex.edKey 7).dropLast := by
  have hw : (worldAfter Ex.keyEnv Ex.edKey Ex.page).calls = Ex.start := rfl
  rw [hw]
  have hS : UsesSecp256k1 Ex.keyEnv := ⟨rfl, rfl⟩
  obtain ⟨⟨addr, h1, h2⟩, hall⟩ := C99_every_key Ex.keyEnv _ Ex.privateKey
  obtain ⟨p, hp⟩ := ((C11_reply (stateAfter Ex.keyEnv Ex.start) 5 addr).1.2 ⟨h1, by decide +kernel, by decide +kernel⟩)
  obtain ⟨sig, hs⟩ := hall p.siweMessage
  have hd := C103_app_keys (fun _ _ => true) _ (.inl (Ex.edKey_is (worldAfter Ex.keyEnv Ex.edKey Ex.page).client.generated))
  generalize Ex.edKey (worldAfter Ex.keyEnv Ex.edKey Ex.page).client.generated = key at hd ⊢
  have hsig := (C99_accepted_iff _ hS sig p.siweMessage addr (walletSigns_hex hs)).2 ⟨_, Ex.privateKey, hs, h2⟩
  have hr : ∃ r, (step (stateAfter Ex.keyEnv (Ex.start ++ [(5, .prepareLogin addr)])) 9 (.login sig addr key p.nonce)).2 = .loggedIn r := by
    obtain ⟨s, e, H⟩ := C99_wallet_signs_in Ex.keyEnv hS Ex.start [] 5 9 _ addr sig key p Ex.privateKey h2 hp hs
      hd.1 ((Der.fromDer_iff _ _).2 hd) (fun _ h => nomatch h) (fun _ h => nomatch h) (by simp [Ex.start])
    have hmin : (9 : UInt64).toNat < min ((5 : UInt64).toNat + s.signInExpiresIn.toNat) (2 ^ 64 - 1) := by
      have : (match (stateAfter Ex.keyEnv Ex.start).lib.settings with | some s => decide (100 < s.signInExpiresIn.toNat) | none => false) = true := by
        decide +kernel
      rw [e] at this
      have := of_decide_eq_true this
      have h9 : (9 : UInt64).toNat = 9 := rfl
      omega
    rcases H (fun _ h => nomatch h) hmin with ⟨r, hr, _⟩ | ⟨_, h, _⟩
    · exact ⟨r, by simpa using hr⟩
    · exact nomatch h
  refine ⟨addr, sig, p, _, h2, hp, hs, rfl, ?_, by decide, by decide, by decide, by decide, by simp [Ex.start], ?_, ?_⟩
  · obtain ⟨r, hr⟩ := hr
    apply refusalsHarmless_of_none
    have e : trace Ex.keyEnv (Ex.start ++ [(5, .prepareLogin addr)] ++ [(9, .login sig addr key p.nonce)]) =
        trace Ex.keyEnv Ex.start ++ [⟨5, .prepareLogin addr, (step (stateAfter Ex.keyEnv Ex.start) 5 (.prepareLogin addr)).2⟩] ++
        [⟨9, .login sig addr key p.nonce, (step (stateAfter Ex.keyEnv (Ex.start ++ [(5, .prepareLogin addr)])) 9
          (.login sig addr key p.nonce)).2⟩] := by
      unfold trace
      rw [traceFrom_append, traceFrom_append]
      rfl
    rw [List.append_nil, List.append_nil, e, hr, hp, List.all_append, List.all_append]
    refine Bool.and_eq_true_iff.2 ⟨Bool.and_eq_true_iff.2 ⟨?_, rfl⟩, rfl⟩
    decide +kernel
  · exact ((C91_success_iff ..).1 hr).2.2.1
  · rw [IsDer, ← Der.fromDer_iff]; decide +kernel

end Siwe
