import Verif.Lemmas.Conversation
import Verif.Props.SessionKeys
import Verif.Props.Requests
import Verif.Props.Texts
import Verif.Props.Apps
/- Properties C111 and C112: the whole, as deployed, between the bytes sent to it and the requests the Internet Computer accepts. -/
namespace Siwe
open Spec Secp WeierstrassCurve.Affine StableBTree Candid Wire

theorem runBytes_replies {E : Env} (c : Canister E) (ms : List (UInt64 × RawMessage)) :
    (runBytes c ms).2 = (exchanges c ms).map (·.reply) := by
  induction ms generalizing c with
  | nil => rfl
  | cons m ms ih => exact congrArg ((stepBytes c m.1 m.2).2 :: ·) (ih (stepBytes c m.1 m.2).1)

/-- C111: whatever bytes are sent to the canister, the calls among them are those of one history, and no others; and the replies are those
of the exchanges, in order. -/
theorem C111_understood (E : Env) (ms : List (UInt64 × RawMessage)) :
    (∃ h, Understood (conversation E ms) (trace E h) ∧ ∀ es, Understood (conversation E ms) es → es = trace E h) ∧
    (runBytes (Canister.fresh E) ms).2 = (conversation E ms).map (·.reply) :=
  ⟨⟨_, conversation_understood E ms, fun _ h => understood_unique h (conversation_understood E ms)⟩, runBytes_replies _ ms⟩

/-- C111: whatever bytes were sent to the deployed canister, if the Internet Computer accepts a request under a key of the canister, then
the canister issued a text to an address, the wallet that holds the address's private key signed this text, and the signature came back
in a login for the session key at which the request's delegations start; the request is made before the session has ended, which is the
configured time after the text was issued, and to a canister among the configured targets; and the session key signed the rest.  Or
the request or two calls exhibit a collision of hashes. -/
theorem C111_only_the_owner (E : Env) (hS : UsesSecp256k1 E) (ms : List (UInt64 × RawMessage)) (h : History)
    (hh : Understood (conversation E ms) (trace E h)) (valid : Bytes → Bytes → Bytes → Prop)
    (hc : ∀ key seed m sig, readCanisterKey key = some (E.canisterId, seed) → valid key m sig →
      ∃ ms1 certificate, ms1 <+: ms ∧ CanisterSigned E E.canisterId (deployed E ms1).certifiedData certificate key m sig)
    (now : UInt64) (r : Request) (seed : Bytes) (hk : readCanisterKey r.key = some (E.canisterId, seed)) (ha : Accepted E valid now r) :
    (∃ a i b e c addr nonce text priv sig key ld s p es d rest k,
      conversation E ms = a ++ i :: b ++ e :: c ∧ i.Issues addr nonce text ∧
      IsPrivateKey priv ∧ IsAddressOf E (priv • generator) addr ∧ WalletSigns E priv text sig ∧
      e.LogsIn sig addr key nonce ld ∧ readCanisterKey ld.userCanisterPubkey = readCanisterKey r.key ∧
      Understood (a ++ i :: b) es ∧ InForce E es s p ∧
      now.toNat ≤ min (i.time.toNat + s.sessionExpiresIn.toNat) (2 ^ 64 - 1) ∧
      (∀ ts, s.targets = some ts → r.canister ∈ ts) ∧
      r.chain = d :: rest ∧ d.delegation.pubkey = key ∧ Leads E valid key rest k ∧ valid k (requestMessage r.requestId) r.signature) ∨
    RequestCollision E h r ∨
    ∃ i ∈ conversation E ms, ∃ e ∈ conversation E ms, ∃ addr nonce text sig addr' key nonce' ld,
      i.Issues addr nonce text ∧ e.LogsIn sig addr' key nonce' ld ∧ KeyCollision E addr' nonce' addr nonce := by
  have htr := understood_unique hh (conversation_understood E ms)
  have hh' : h = callsOf ms := by
    have := congrArg (List.map fun e : Event => (e.time, e.call)) htr
    simpa only [trace_times_calls] using this
  subst hh'
  have hc' : ChecksCertificates E (callsOf ms) valid := by
    intro key seed m sig h1 h2
    obtain ⟨ms1, cert, ⟨l, rfl⟩, h3⟩ := hc key seed m sig h1 h2
    refine ⟨callsOf ms1, cert, ⟨callsOf l, (callsOf_append ms1 l).symm⟩, ?_⟩
    rw [← (deployed_same E ms1).2.2.2.1]
    exact h3
  rcases C81_requests_come_from_logins E _ valid hc' now r seed hk ha with ⟨d, rest, addr, k, h1, hent, h2, h3, h4, h5⟩ | hcol
  swap
  · exact .inr (.inl hcol)
  obtain ⟨before, e, after, sig, nonce, ld, s, p, g1, g2, g3, g4, g5, g6, g7, i, hi, addr', nonce', text, g8, g9, g10, g11⟩ := hent
  obtain ⟨xa, xe, xc, q1, q2, q3, q4, q5, q6⟩ := understood_split hh _ _ _ g1
  obtain ⟨b1, b2, rfl⟩ := List.append_of_mem hi
  obtain ⟨ya, yi, yb, r1, r2, r3, r4, r5, r6⟩ := understood_split q2 _ _ _ rfl
  rw [g2] at q4
  rw [g3] at q6
  rw [g8.1] at r4
  rw [g8.2] at r6
  rcases g9 with ⟨rfl, rfl⟩ | g9
  · obtain ⟨h0, h00, e1, e2, e3, e4⟩ := traceFrom_split g1
    rw [g2, g3] at e3
    have hsig := ((C91_success_iff E h0 e.time sig addr' d.delegation.pubkey nonce').1 ⟨ld, e3.symm⟩).2.1
    obtain ⟨priv, w1, w2, w3⟩ := (C99_accepted_iff E hS sig text addr' hsig).1 g10
    refine .inl ⟨ya, yi, yb, xe, xc, addr', nonce', text, priv, sig, _, ld, s, p, _, d, rest, k, by rw [q1, r1], ⟨r4, r6⟩, w1, w3, w2,
      ⟨q4, q6⟩, g4, r1 ▸ q2, g5, ?_, ?_, h1, rfl, h4, h5⟩
    · rw [r5, ← g11, ← g6]; exact h2
    · rw [← g7]; exact h3
  · exact .inr (.inr ⟨yi, by rw [q1, r1]; simp, xe, by rw [q1]; simp, addr', nonce', text, sig, addr, _, nonce, ld, ⟨r4, r6⟩, ⟨q4, q6⟩, g9⟩)

/-! ### C112 -/

/-- C112: whatever bytes were sent to the deployed canister before and in between, the owner of a private key signs in.  They ask for the
message to sign (`m0`), their wallet signs the text, and they log in (`m1`) before the message expires, with an Ed25519 or P-256 session
key nobody else used; other messages in between are welcome, unless they concern this address and nonce or install the canister anew.
The login succeeds.  Less than a minute later, after any further messages, they ask for the delegation (`m2`), get it, and the Internet
Computer accepts every request signed with the session key, as one of the principal of the key the login returned, to the
configured targets, until the session ends (provided no login refused for its session key pruned signatures since, see C29).  The
alternatives exhibit a SHA-256 collision with another call. -/
theorem C112_signing_in_works (E : Env) (hS : UsesSecp256k1 E) (texts : Nat → Bytes → Bool) (hD : UsesDer E texts)
    (ms0 ms1 : List (UInt64 × RawMessage)) (t0 t1 : UInt64) (m0 m1 : RawMessage) (es0 es1 : List Event) (priv : Nat)
    (addr sig key : Bytes) (p : PrepareLoginOkResponse) (hpriv : IsPrivateKey priv) (haddr : IsAddressOf E (priv • generator) addr)
    (hkey : IsEd25519Key key ∨ IsP256Key key)
    (hm0 : Requests m0 (.prepareLogin addr)) (hp : (stepBytes (deployed E ms0) t0 m0).2 = .prepared p)
    (hsigns : WalletSigns E priv p.siweMessage sig) (hm1 : Requests m1 (.login sig addr key p.nonce))
    (h0 : Understood (conversation E ms0) es0) (h1 : Understood (exchanges (deployed E (ms0 ++ [(t0, m0)])) ms1) es1)
    (hmod : SameModule es1) (ho : ∀ e ∈ es1, ¬e.Concerns addr p.nonce)
    (hfresh : ∀ e ∈ es0 ++ es1, ∀ sig' addr' nonce', e.call ≠ .login sig' addr' key nonce') :
    ∃ s ps, InForce E es0 s ps ∧
    ((∀ e ∈ es1, e.time.toNat < min (t0.toNat + s.signInExpiresIn.toNat) (2 ^ 64 - 1)) →
      t1.toNat < min (t0.toNat + s.signInExpiresIn.toNat) (2 ^ 64 - 1) →
    (∃ ld, (stepBytes (deployed E (ms0 ++ [(t0, m0)] ++ ms1)) t1 m1).2 = .loggedIn ld ∧
      ld.expiration.toNat = min (t0.toNat + s.sessionExpiresIn.toNat) (2 ^ 64 - 1) ∧
      ∀ (ms2 : List (UInt64 × RawMessage)) (es2 es : List Event) (t2 : UInt64) (m2 : RawMessage) (cert : Bytes)
        (ms : List (UInt64 × RawMessage)), ms = ms0 ++ [(t0, m0)] ++ ms1 ++ [(t1, m1)] ++ ms2 →
        Understood (exchanges (deployed E (ms0 ++ [(t0, m0)] ++ ms1 ++ [(t1, m1)])) ms2) es2 → SameModule es2 →
        (∀ e ∈ es2, ∀ sig' addr' nonce', e.call ≠ .login sig' addr' key nonce') →
        (∀ e ∈ es2, e.time.toNat ≤ t2.toNat) → t2.toNat < min (t1.toNat + minute) (2 ^ 64 - 1) →
        cert.length < 2 ^ 64 → Understood (conversation E ms) es → RefusalsHarmless es →
        Requests m2 (.getDelegation (some cert) addr key ld.expiration) →
        (∃ sd, (stepBytes (deployed E ms) t2 m2).2 = .delegation sd ∧ sd.delegation = ⟨key, ld.expiration, s.targets⟩ ∧
          ∀ valid : Bytes → Bytes → Bytes → Prop,
            (∀ k m sig, CanisterSigned E E.canisterId (deployed E ms).certifiedData cert k m sig → valid k m sig) →
            ∀ (t : UInt64) (id canister rsig : Bytes), valid key (requestMessage id) rsig → t.toNat ≤ ld.expiration.toNat →
              (∀ ts, s.targets = some ts → canister ∈ ts) →
              Accepted E valid t ⟨id, principalOfKey E ld.userCanisterPubkey, canister, ld.userCanisterPubkey, [sd], rsig⟩) ∨
        ∃ x ∈ es, ∃ addr' key' nonce' d' s' ps', x.LogsIn addr' key' nonce' d' ∧ InForce E es s' ps' ∧
          GrantCollision E s' addr key ld.expiration addr' key' d'.expiration) ∨
    ∃ e ∈ es1, ∃ addr' nonce', e.Concerns addr' nonce' ∧ KeyCollision E addr p.nonce addr' nonce') := by
  obtain rfl := understood_unique h0 (conversation_understood E ms0)
  have c0 : callsOf (ms0 ++ [(t0, m0)]) = callsOf ms0 ++ [(t0, .prepareLogin addr)] := by rw [callsOf_append, callsOf_one hm0]
  obtain rfl : es1 = traceFrom (stateAfter E (callsOf ms0 ++ [(t0, .prepareLogin addr)])) (callsOf ms1) := by
    have := understood_unique h1 (deployed_exchanges E _ ms1)
    rwa [c0] at this
  have c1 : callsOf (ms0 ++ [(t0, m0)] ++ ms1) = callsOf ms0 ++ [(t0, .prepareLogin addr)] ++ callsOf ms1 := by
    rw [callsOf_append, c0]
  have c2 : callsOf (ms0 ++ [(t0, m0)] ++ ms1 ++ [(t1, m1)]) =
      callsOf ms0 ++ [(t0, .prepareLogin addr)] ++ callsOf ms1 ++ [(t1, .login sig addr key p.nonce)] := by
    rw [callsOf_append, c1, callsOf_one hm1]
  rw [(stepBytes_same (deployed_same E ms0) t0 m0 _ hm0).1] at hp
  have hsig := walletSigns_hex hsigns
  have hder := C103_app_keys texts _ hkey
  have cut : ∀ {s : State E} {l : History} {x : UInt64 × Op}, x ∈ l → ∃ e ∈ traceFrom s l, e.time = x.1 ∧ e.call = x.2 := by
    intro s l x hx
    rw [← traceFrom_times_calls s l] at hx
    obtain ⟨e, he, rfl⟩ := List.mem_map.1 hx
    exact ⟨e, he, rfl, rfl⟩
  obtain ⟨s, hs, H⟩ := C53_sign_in_works E (callsOf ms0) (callsOf ms1) t0 t1 addr sig key p hp hsig
    ((C99_accepted_iff E hS sig _ addr hsig).2 ⟨priv, hpriv, hsigns, haddr⟩) hder.1
    (by rw [hD]; exact (Der.fromDer_iff _ _).2 hder) hmod ho
    (by
      intro x hx sig' addr' nonce' e'
      rcases List.mem_append.1 hx with hx | hx
      · obtain ⟨e, he, _, h2⟩ := cut (s := State.fresh E) hx
        exact hfresh e (List.mem_append_left _ he) sig' addr' nonce' (h2.trans e')
      · obtain ⟨e, he, _, h2⟩ := cut hx
        exact hfresh e (List.mem_append_right _ he) sig' addr' nonce' (h2.trans e'))
  refine ⟨s, _, settings_inForce hs, fun k1 k2 => ?_⟩
  have k1' : ∀ x ∈ callsOf ms1, x.1.toNat < min (t0.toNat + s.signInExpiresIn.toNat) (2 ^ 64 - 1) := by
    intro x hx
    obtain ⟨e, he, h2, _⟩ := cut hx
    rw [← h2]
    exact k1 e he
  rcases H k1' k2 with ⟨ld, g1, g2, g3⟩ | H
  swap
  · exact .inr H
  refine .inl ⟨ld, ?_, g2, ?_⟩
  · rw [← c1] at g1
    rw [(stepBytes_same (deployed_same E _) t1 m1 _ hm1).1]
    exact g1
  intro ms2 es2 es t2 m2 cert ms hms u2 n1 n2 n3 n4 n5 u3 n6 hm2
  obtain rfl : es2 = traceFrom (stateAfter E (callsOf ms0 ++ [(t0, .prepareLogin addr)] ++ callsOf ms1 ++
      [(t1, .login sig addr key p.nonce)])) (callsOf ms2) := by
    have := understood_unique u2 (deployed_exchanges E _ ms2)
    rwa [c2] at this
  have cf : callsOf ms = callsOf ms0 ++ [(t0, .prepareLogin addr)] ++ callsOf ms1 ++ [(t1, .login sig addr key p.nonce)] ++ callsOf ms2 := by
    rw [hms, callsOf_append, c2]
  obtain rfl := understood_unique u3 (conversation_understood E ms)
  rcases g3 (callsOf ms2) t2 cert (callsOf ms) cf n1
    (by
      intro x hx sig' addr' nonce' e'
      obtain ⟨e, he, _, h2⟩ := cut hx
      exact n2 e he sig' addr' nonce' (h2.trans e'))
    (by
      intro x hx
      obtain ⟨e, he, h2, _⟩ := cut hx
      rw [← h2]
      exact n3 e he) n4 n5 n6 with ⟨sd, q1, q2, q3⟩ | ⟨x, hx, addr', key', nonce', d', s', q1, q2, q3⟩
  · refine .inl ⟨sd, ?_, q2, ?_⟩
    · rw [(stepBytes_same (deployed_same E _) t2 m2 _ hm2).1]
      exact q1
    · intro valid hvalid t id canister rsig hv hle hts
      obtain ⟨m, v1, v2⟩ := verifies_iff.mp q3
      rw [← (deployed_same E ms).2.2.2.1] at v2
      refine ⟨rfl, ⟨key, ?_, hv⟩, ?_⟩
      · have := Leads.next (E := E) (valid := valid) ld.userCanisterPubkey m sd.delegation.pubkey sd [] v1 (hvalid _ _ _ v2) (.here _)
        rwa [show sd.delegation.pubkey = key by rw [q2]] at this
      · intro d hd
        rw [List.mem_singleton] at hd
        subst hd
        rw [q2]
        exact ⟨hle, hts⟩
  · exact .inr ⟨x, hx, addr', key', nonce', d', s', _, q1, q2, q3⟩

/-- C112: and the answers arrive: whatever bytes were sent to the deployed canister, when it answers the next call the answer, if it
fits, can be written as bytes, and whichever bytes it is written as, the reader of the published interface, the client too, reads what
the canister answered. -/
theorem C112_answers (E : Env) (ms : List (UInt64 × RawMessage)) (now : UInt64) (m : RawMessage) (f : Function) (vs : List Val)
    (caller : Bytes) (cert : Option Bytes) (op : Op) (ha : Asks f vs caller cert op) (hm : Requests m op)
    (hr : (stepBytes (deployed E ms) now m).2 ≠ .trap) (derText : Bytes) (hd : IsUtf8 derText) :
    ∃ v, replyVal derText f (stepBytes (deployed E ms) now m).2 = some v ∧
      (ReplySmall derText (stepBytes (deployed E ms) now m).2 → ∃ bs, IsMessage bs [(f.method.result, v)]) ∧
      ∀ bs, IsMessage bs [(f.method.result, v)] →
        ∀ p : Method, p ∈ Did.methods ∨ p ∈ Js.methods → p.name = f.method.name →
          ∃ w, readReply p.result bs = some w ∧ Says f derText (stepBytes (deployed E ms) now m).2 w := by
  have e : (stepBytes (deployed E ms) now m).2 = (stepRaw (runRaw (State.fresh E) ms).1 now m).2 := by
    rw [(stepBytes_same (deployed_same E ms) now m op hm).1]
    simp only [stepRaw, (C107_requests m op).2 hm, runRaw_callsOf]
    rfl
  rw [e] at hr ⊢
  exact C108_conversation E ms now m f vs caller cert op ha hm hr derText hd

/-! ### Non-vacuity -/

/-- A call whose arguments fit can be sent. -/
theorem sends (f : Function) (vs : List Val) (caller : Bytes) (cert : Option Bytes) (op : Op) (ha : Asks f vs caller cert op)
    (hf : ∀ v ∈ vs, Fits v) : ∃ m, Requests m op := by
  have hm : f.method ∈ Did.methods := by cases f <;> decide +kernel
  obtain ⟨⟨bs, hbs⟩, _⟩ := C107_calls f.method hm vs (by cases ha <;> rfl)
    (by cases ha <;> simp [Function.method, text_typed, blob_typed, nat64_typed]) hf caller cert
  exact ⟨_, .call f caller cert bs vs [] op (by rw [List.append_nil]; exact hbs) ha⟩

/-- Text that is short enough. -/
theorem text_ascii {b : Bytes} (h : ∀ c ∈ b, UInt8.toNat c < 128) (hl : b.length < 1000) : Text b :=
  ⟨utf8_ascii b h, Nat.lt_of_lt_of_le hl (by decide)⟩

theorem text_hex {n : Nat} {b : Bytes} (h : HexString n b) (hn : n < 900) : Text b := by
  obtain ⟨ds, rfl, h1, h2⟩ := h
  refine text_ascii (fun c hc => ?_) (by simp; omega)
  rcases List.mem_append.1 hc with hc | hc
  · rcases List.mem_cons.1 hc with rfl | hc
    · decide
    · rw [List.mem_singleton.1 hc]; decide
  · exact hexDigit_ascii c (h2 c hc)

/-- The example: installed with the example's configuration, in bytes, and seeded. -/
def Ex.sent (bs : Bytes) : List (UInt64 × RawMessage) := [(1, .install bs), (2, .rngSeeded [1, 2, 3])]

/-- The calls these are. -/
def Ex.sentCalls : History :=
  [(1, .install ⟨Ex.config.domain, Ex.config.uri, Ex.config.salt, none, Ex.config.scheme, Ex.config.statement, Ex.config.signInExpiresIn,
    Ex.config.sessionExpiresIn, Ex.config.targets, Ex.config.runtimeFeatures⟩), (2, .rngSeeded [1, 2, 3])]

theorem Ex.sent_exists : ∃ bs, callsOf (Ex.sent bs) = Ex.sentCalls := by
  obtain ⟨bs, hbs⟩ := (C107_configuration Ex.config).1 (by
    refine ⟨text_of (by decide +kernel), text_of (by decide +kernel), text_of (by decide +kernel), ?_, ?_, ?_, ?_⟩ <;>
      intro x hx <;> cases hx
    · exact text_of (by decide +kernel)
    · decide)
  refine ⟨bs, ?_⟩
  have h1 := ((C107_configuration Ex.config).2 bs hbs _ rfl).1
  have h2 : receiveRaw (.rngSeeded [1, 2, 3]) = some (.rngSeeded [1, 2, 3]) := rfl
  simp only [callsOf, Ex.sent, List.filterMap_cons, h1, h2, List.filterMap_nil, Option.map_some]
  rfl

theorem Ex.sentCalls_settings : ∃ s, (stateAfter Ex.keyEnv Ex.sentCalls).lib.settings = some s ∧ s.signInExpiresIn.toNat = 300000000000 ∧
    s.sessionExpiresIn.toNat = 7 ∧ s.targets = none := by
  have : (match (stateAfter Ex.keyEnv Ex.sentCalls).lib.settings with
    | some s => decide (s.signInExpiresIn.toNat = 300000000000 ∧ s.sessionExpiresIn.toNat = 7 ∧ s.targets = none)
    | none => false) = true := by decide +kernel
  cases h : (stateAfter Ex.keyEnv Ex.sentCalls).lib.settings with
  | none => rw [h] at this; cases this
  | some s => rw [h] at this; exact ⟨s, rfl, of_decide_eq_true this⟩

/-- C112 and C111, the example: everything is bytes.  The owner of the private key 0xdeadbeef asks for the message, signs it, logs in and
gets the delegation; the Internet Computer, which checks the certificates of the canister's signatures, accepts a request signed with the
session key, until the session ends. -/
theorem Ex.owner_signs_in : ∃ bs m0 m1 m2 addr sig p ld sd seed,
    let ms := Ex.sent bs ++ [(5, m0)] ++ [] ++ [(9, m1)] ++ []
    let valid := fun k m s => CanisterSigned Ex.keyEnv Ex.keyEnv.canisterId (deployed Ex.keyEnv ms).certifiedData [7] k m s ∨
      (k = Ex.edKey 7 ∧ s = [1])
    IsAddressOf Ex.keyEnv (0xdeadbeef • generator) addr ∧
    Requests m0 (.prepareLogin addr) ∧ (stepBytes (deployed Ex.keyEnv (Ex.sent bs)) 5 m0).2 = .prepared p ∧
    WalletSigns Ex.keyEnv 0xdeadbeef p.siweMessage sig ∧
    Requests m1 (.login sig addr (Ex.edKey 7) p.nonce) ∧
    (stepBytes (deployed Ex.keyEnv (Ex.sent bs ++ [(5, m0)] ++ [])) 9 m1).2 = .loggedIn ld ∧
    Requests m2 (.getDelegation (some [7]) addr (Ex.edKey 7) ld.expiration) ∧
    (stepBytes (deployed Ex.keyEnv ms) 10 m2).2 = .delegation sd ∧
    readCanisterKey ld.userCanisterPubkey = some (Ex.keyEnv.canisterId, seed) ∧
    (∀ key seed m s, readCanisterKey key = some (Ex.keyEnv.canisterId, seed) → valid key m s →
      ∃ ms1 certificate, ms1 <+: ms ∧
        CanisterSigned Ex.keyEnv Ex.keyEnv.canisterId (deployed Ex.keyEnv ms1).certifiedData certificate key m s) ∧
    Accepted Ex.keyEnv valid 12 ⟨[9], principalOfKey Ex.keyEnv ld.userCanisterPubkey, [3], ld.userCanisterPubkey, [sd], [1]⟩ := by
  obtain ⟨bs, hbs⟩ := Ex.sent_exists
  have hS : UsesSecp256k1 Ex.keyEnv := ⟨rfl, rfl⟩
  obtain ⟨⟨addr, ha1, ha2⟩, hall⟩ := C99_every_key Ex.keyEnv _ Ex.privateKey
  have tA : Text addr := ⟨utf8_address ha1, by rw [address_length ha1]; decide⟩
  obtain ⟨p, hp⟩ := ((C11_reply (stateAfter Ex.keyEnv Ex.sentCalls) 5 addr).1.2 ⟨ha1, by decide +kernel, by decide +kernel⟩)
  obtain ⟨sig, hs⟩ := hall p.siweMessage
  have tS : Text sig := text_hex (walletSigns_hex hs) (by decide)
  have tN : Text p.nonce := by
    obtain ⟨_, _, _, h1, h2⟩ := C11_reply_text _ 5 addr p hp
    exact text_ascii (fun c hc => hexDigit_ascii c (h2 c hc).1) (by omega)
  have tK : (Ex.edKey 7).length < 2 ^ 64 := by decide
  obtain ⟨m0, hm0⟩ := sends _ _ [4] none _ (.prepareLogin addr _ _) (by simp; exact .text _ tA.1 tA.2)
  obtain ⟨m1, hm1⟩ := sends _ _ [4] none _ (.login sig addr (Ex.edKey 7) p.nonce _ _)
    (by simp; exact ⟨.text _ tS.1 tS.2, .text _ tA.1 tA.2, blob_fits tK, .text _ tN.1 tN.2⟩)
  have c0 : callsOf (Ex.sent bs ++ [(5, m0)]) = Ex.sentCalls ++ [(5, .prepareLogin addr)] := by
    rw [callsOf_append, hbs, callsOf_one hm0]
  have hp' : (stepBytes (deployed Ex.keyEnv (Ex.sent bs)) 5 m0).2 = .prepared p := by
    rw [(stepBytes_same (deployed_same Ex.keyEnv _) 5 m0 _ hm0).1, hbs]
    exact hp
  have hu0 := conversation_understood Ex.keyEnv (Ex.sent bs)
  rw [hbs] at hu0
  obtain ⟨s, ps, hin, H⟩ := C112_signing_in_works Ex.keyEnv hS _ Ex.keyDer (Ex.sent bs) [] 5 9 m0 m1 _ [] _ addr sig (Ex.edKey 7) p
    Ex.privateKey ha2 (.inl (Ex.edKey_is 7)) hm0 hp' hs hm1 hu0 .nil (fun _ h => nomatch h) (fun _ h => nomatch h) (by
      intro e he sig' addr' nonce' hc
      have : (e.time, e.call) ∈ Ex.sentCalls := by
        rw [← trace_times_calls Ex.keyEnv Ex.sentCalls]
        exact List.mem_map.2 ⟨e, by simpa using he, rfl⟩
      rw [hc] at this
      simp [Ex.sentCalls] at this)
  obtain ⟨s0, hs0, q1, q2, q3⟩ := Ex.sentCalls_settings
  have es : s = s0 := by
    have := (inForce_state hin).1
    rw [hs0] at this
    exact (Option.some.inj this).symm
  subst es
  have n9 : (9 : UInt64).toNat = 9 := rfl
  have n5 : (5 : UInt64).toNat = 5 := rfl
  rcases H (fun _ h => nomatch h) (by rw [q1]; decide) with ⟨ld, hl, hx, H2⟩ | ⟨_, h, _⟩
  swap
  · exact nomatch h
  have hx' : ld.expiration = 12 := by
    rw [q2] at hx
    exact UInt64.toNat_inj.1 hx
  obtain ⟨m2, hm2⟩ := sends _ _ [4] (some [7]) _ (.getDelegation addr (Ex.edKey 7) ld.expiration _ _)
    (by simp; exact ⟨.text _ tA.1 tA.2, blob_fits tK, .nat64 _⟩)
  have c2 : callsOf (Ex.sent bs ++ [(5, m0)] ++ [] ++ [(9, m1)] ++ []) =
      Ex.sentCalls ++ [(5, .prepareLogin addr)] ++ [(9, .login sig addr (Ex.edKey 7) p.nonce)] := by
    rw [List.append_nil, List.append_nil, callsOf_append, c0, callsOf_one hm1]
  have hl' : (step (stateAfter Ex.keyEnv (Ex.sentCalls ++ [(5, .prepareLogin addr)])) 9 (.login sig addr (Ex.edKey 7) p.nonce)).2 =
      .loggedIn ld := by
    rw [List.append_nil, (stepBytes_same (deployed_same Ex.keyEnv _) 9 m1 _ hm1).1, c0] at hl
    exact hl
  have etr : trace Ex.keyEnv (Ex.sentCalls ++ [(5, .prepareLogin addr)] ++ [(9, .login sig addr (Ex.edKey 7) p.nonce)]) =
      trace Ex.keyEnv Ex.sentCalls ++ [⟨5, .prepareLogin addr, .prepared p⟩] ++
      [⟨9, .login sig addr (Ex.edKey 7) p.nonce, .loggedIn ld⟩] := by
    rw [← hl', ← hp]
    unfold trace
    rw [traceFrom_append, traceFrom_append]
    rfl
  have hu := conversation_understood Ex.keyEnv (Ex.sent bs ++ [(5, m0)] ++ [] ++ [(9, m1)] ++ [])
  rw [c2] at hu
  have hplain : (trace Ex.keyEnv Ex.sentCalls).all (fun e => match e.reply with | .done => true | _ => false) = true := by decide +kernel
  rcases H2 [] [] _ 10 m2 [7] _ rfl .nil (fun _ h => nomatch h) (fun _ h => nomatch h) (fun _ h => nomatch h) (by decide) (by decide) hu
    (by
      apply refusalsHarmless_of_none
      rw [etr, List.all_append, List.all_append]
      refine Bool.and_eq_true_iff.2 ⟨Bool.and_eq_true_iff.2 ⟨?_, rfl⟩, rfl⟩
      decide +kernel) hm2 with ⟨sd, g1, g2, g3⟩ | ⟨x, hxm, addr', key', nonce', d', s', ps', ⟨⟨sig', hc⟩, hr⟩, hin', hcol⟩
  swap
  · exfalso
    have e : x = ⟨9, .login sig addr (Ex.edKey 7) p.nonce, .loggedIn ld⟩ := by
      rw [etr] at hxm
      rcases List.mem_append.1 hxm with hxm | hxm
      · rcases List.mem_append.1 hxm with hxm | hxm
        · have := List.all_eq_true.1 hplain x hxm
          rw [hr] at this
          cases this
        · rw [List.mem_singleton] at hxm
          subst hxm
          cases hc
      · exact List.mem_singleton.1 hxm
    subst e
    cases hc
    cases hr
    have hset : (stateAfter Ex.keyEnv (Ex.sentCalls ++ [(5, .prepareLogin addr)] ++ [(9, .login sig addr (Ex.edKey 7) p.nonce)])).lib.settings
        = some s := by
      have := settings_keep (inv_run (inv_fresh Ex.keyEnv) Ex.sentCalls)
        [(5, .prepareLogin addr), (9, .login sig addr (Ex.edKey 7) p.nonce)] (by
          rintro e he ⟨i, h | h, _⟩
          all_goals
            have : (e.time, e.call) ∈ [((5 : UInt64), Op.prepareLogin addr), (9, .login sig addr (Ex.edKey 7) p.nonce)] := by
              rw [← traceFrom_times_calls (run (State.fresh Ex.keyEnv) Ex.sentCalls).1 [(5, .prepareLogin addr), (9, .login sig addr (Ex.edKey 7) p.nonce)]]
              exact List.mem_map.2 ⟨e, he, rfl⟩
            rw [h] at this
            simp at this)
      rw [← Siwe.run_append] at this
      rw [List.append_assoc]
      exact this.1.trans hs0
    have es' : s' = s := by
      have := (inForce_state hin').1
      rw [hset] at this
      exact (Option.some.inj this).symm
    subst es'
    rcases hcol with ⟨x, y, g1, g2, g3⟩ | ⟨x, y, g1, g2, g3⟩ | hcol
    · rcases g1 with ⟨u1, rfl⟩ | ⟨u1, rfl⟩ <;> rcases g2 with ⟨u2, rfl⟩ | ⟨u2, rfl⟩ <;>
        first
          | exact absurd u1 u2
          | exact absurd u2 u1
          | exact g3.1 rfl
    · rcases g1 with ⟨u1, rfl⟩ | ⟨u1, rfl⟩ <;> rcases g2 with ⟨u2, rfl⟩ | ⟨u2, rfl⟩ <;>
        first
          | exact absurd u1 u2
          | exact absurd u2 u1
          | exact g3.1 rfl
    · rw [granted, q3, hx'] at hcol
      exact no_delegationCollision (by decide +kernel) hcol
  obtain ⟨seed, hseed⟩ := login_key_reads hl'
  refine ⟨bs, m0, m1, m2, addr, sig, p, ld, sd, seed, ha2, hm0, hp', hs, hm1, hl, hm2, g1, hseed, ?_, ?_⟩
  · rintro key seed' m sg hk (h | ⟨rfl, _⟩)
    · exact ⟨_, _, List.prefix_rfl, h⟩
    · have : readCanisterKey (Ex.edKey 7) = none := by decide +kernel
      rw [this] at hk
      cases hk
  · exact g3 _ (fun _ _ _ h => .inl h) 12 [9] [3] [1] (.inr ⟨rfl, rfl⟩) (by rw [hx']) (by rw [q3]; exact fun _ h => nomatch h)

end Siwe
