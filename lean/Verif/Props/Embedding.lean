import Verif.Lemmas.Embedding
import Verif.Props.Sessions
/- Properties C86-C88: a canister that embeds the library. -/
namespace Siwe
open Spec

namespace Ex
/-- Default settings of an embedding canister. -/
def libCfg : Settings := SettingsBuilder.new (ascii "a.com") (ascii "http://a.com") (ascii "s")
/-- Settings that the builder refuses: no time for sessions, an empty salt. -/
def libOdd : Settings := { libCfg with salt := [], sessionExpiresIn := 0 }
/-- The canister is installed, configures the library, gets its seed and prepares a login. -/
def libPrepared : LibHistory :=
  [(1, .restart), (2, .init libCfg), (3, .rngSeeded [1, 2, 3]), (5, .prepareLogin alice)]
/-- ... and logs the user in, on map 7, for another canister. -/
def libLoggedIn : LibHistory := libPrepared ++ [(100, .login 7 aliceSig alice key [9, 9] (nonce 3))]
end Ex

/-! ### C86 -/

/-- C86: after any uses, `prepare_login` gives the specified answer: it traps exactly if the library was not configured or
not seeded since the canister was last installed or upgraded; otherwise the message is made under the settings last given
to `init`. -/
theorem C86_prepare_answer (E : Env) (h : LibHistory) (now : UInt64) (addr : Bytes) :
    LibPrepareReply E (libTrace E h) now addr (appStep (appAfter E h) now (.prepareLogin addr)).2 := by
  have hc := app_case (appInv_after E h) now (.prepareLogin addr)
  generalize (appStep (appAfter E h) now (.prepareLogin addr)).1 = st' at hc
  generalize (appStep (appAfter E h) now (.prepareLogin addr)).2 = r at hc
  cases hc with
  | badPrepare _ e h1 => exact .badAddress e h1
  | notReady _ h1 h2 =>
    refine .notReady h1 (h2.imp (fun h2 => ?_) fun h2 => ?_)
    · rw [seeded_iff]; simp [h2]
    · rintro ⟨s, hs⟩; rw [configured_iff, h2] at hs; cases hs
  | prepared _ bs g s h1 h2 h3 h4 h5 =>
    exact .prepared s (nonceOf E g) _ h1 ((seeded_iff E h).mpr (by simp [h4])) ((configured_iff E h s).mpr h5)
      (nonceOf_length E g) (nonceOf_hex E g) (messageFor_new s now addr _)

/-- Non-vacuity: a message is made under the last configuration; without a seed or a configuration the call traps. -/
example : (appStep (appAfter Toy.env Ex.libPrepared) 6 (.prepareLogin (ascii "0x"))).2 = .addressErr .addressFormatError ∧
    (appStep (appAfter Toy.env [(1, .restart), (2, .init Ex.libCfg)]) 6 (.prepareLogin Ex.alice)).2 = .trap ∧
    (appStep (appAfter Toy.env (Ex.libPrepared ++ [(7, .restart), (8, .init Ex.libCfg)])) 6 (.prepareLogin Ex.alice)).2 = .trap ∧
    (appStep (appAfter Toy.env [(1, .restart), (2, .rngSeeded [1, 2, 3])]) 6 (.prepareLogin Ex.alice)).2 = .trap ∧
    (appStep (appAfter Toy.env [(1, .init Ex.libCfg), (2, .rngSeeded [1, 2, 3]), (3, .init { Ex.libCfg with chainId := 5 })]) 6
      (.prepareLogin Ex.alice)).2 = .prepared (SiweMessage.new { Ex.libCfg with chainId := 5 } 6 ⟨Ex.alice⟩ (Ex.nonce 3)) (Ex.nonce 3) := by
  refine ⟨?_, ?_, ?_, ?_, ?_⟩ <;> rfl

/-- C86: after any uses, `login` gives the specified answer, whatever settings `init` was given. -/
theorem C86_login_decision (E : Env) (h : LibHistory) (now : UInt64) (i : Nat) (sig addr key cid nonce : Bytes) :
    LibLoginReply (appAfter E h).lib (libTrace E h) now sig addr key cid nonce
      (appStep (appAfter E h) now (.login i sig addr key cid nonce)).2 := by
  have hi := appInv_after E h
  have hc := app_case hi now (.login i sig addr key cid nonce)
  generalize (appStep (appAfter E h) now (.login i sig addr key cid nonce)).1 = st' at hc
  generalize (appStep (appAfter E h) now (.login i sig addr key cid nonce)).2 = r at hc
  have usable : ∀ {bs m txt}, bs.length = 20 → Spells (addr.drop 2) bs →
      ((appAfter E h).lib.messages.pruneExpired now).lookup (storeKey E bs nonce) = some m → (m.text : Res Empty Bytes) = .ok txt →
      KeptUsable (appAfter E h).lib now addr nonce m txt := by
    intro bs m txt h1 h2 h3 h4
    obtain ⟨hlk, hlt⟩ := (lookup_prune hi.keys now _ m).mp h3
    exact ⟨(kept_iff h1 h2).mpr hlk, hlt, h4⟩
  cases hc with
  | badAddress _ _ _ _ _ _ e h1 => exact .badAddress e h1
  | badSignature _ _ _ _ _ _ e h1 h2 => exact .badSignature e h1 h2
  | notFound _ _ _ _ _ _ bs h1 h2 h3 h4 h5 =>
    refine .notFound h1 h2 ?_
    rintro ⟨m, txt, hp, hlt, _⟩
    rw [(lookup_prune hi.keys now _ m).mpr ⟨(kept_iff h3 h4).mp hp, hlt⟩] at h5
    cases h5
  | refused _ _ _ _ _ _ bs m txt l sm e h1 h2 h3 h4 h5 h6 hf =>
    have hu := usable h3 h4 h5 h6
    cases hf with
    | badSignature e hc =>
      rcases (check_err h2 h1).mp hc with ⟨er, hr, rfl⟩ | ⟨⟨pub, hr⟩, hns, rfl⟩
      · exact .unrecoverable m txt er h1 h2 hu hr
      · exact .otherSigner m txt pub h1 h2 hu hr hns
    | badKey s n sm e hc hs _ hd =>
      rcases (C26_errors E s key _ e).mp hd with ⟨g1, rfl⟩ | ⟨g1, g2, rfl⟩ | ⟨g1, g2, g3, rfl⟩
      · exact .badKey m txt _ h1 h2 hu ((check_ok h2 h1).mp hc) (.empty g1)
      · exact .badKey m txt _ h1 h2 hu ((check_ok h2 h1).mp hc) (.notDer g1 g2)
      · have hz := satAdd_toNat m.issuedAt s.sessionExpiresIn
        rw [g3] at hz
        simp only [UInt64.toNat_zero] at hz
        exact .noTime m txt s h1 h2 hu ((check_ok h2 h1).mp hc) g1 g2 ((configured_iff E h s).mpr hs)
          (UInt64.toNat_inj.mp (by simp only [UInt64.toNat_zero]; omega)) (UInt64.toNat_inj.mp (by simp only [UInt64.toNat_zero]; omega))
  | loggedIn _ _ _ _ _ _ bs m txt l sm d h1 h2 h3 h4 h5 h6 hf =>
    have hu := usable h3 h4 h5 h6
    cases hf with
    | success s n sm sm' dl dh hc hs _ hd _ _ =>
      obtain ⟨g1, g2, g3, _⟩ := (C26_create E s key _ dl).mp hd
      refine .success m txt s (generateSeed E s ⟨addr⟩) _ h1 h2 hu ((check_ok h2 h1).mp hc) g1 g2
        ((configured_iff E h s).mpr hs) ?_ (isSeed_generate E s addr) (satAdd_toNat _ _) rfl
      rintro ⟨z1, z2⟩
      exact g3 (by rw [z1, z2]; rfl)

/-- The settings in force are unique. -/
theorem configured_unique {es : List LibEvent} {s s' : Settings} (h : ConfiguredWith es s) (h' : ConfiguredWith es s') :
    s = s' := by
  have : ∀ r : List LibEvent, ∀ s s', ConfiguredWith r.reverse s → ConfiguredWith r.reverse s' → s = s' := by
    intro r
    induction r with
    | nil => intro s s' h; exact absurd h not_configured_nil
    | cons x r ih =>
      intro s s' h h'
      rw [List.reverse_cons, configured_snoc] at h h'
      rcases h with h | ⟨h, h1, h2⟩ <;> rcases h' with h' | ⟨h', h1', h2'⟩
      · exact LibCall.init.inj (h.symm.trans h')
      · exact absurd h (h2' s)
      · exact absurd h' (h2 s')
      · exact ih s s' h h'
  exact this es.reverse s s' (by simpa using h) (by simpa using h')

theorem keptUsable_unique {E : Env} {l : LibState E} {now : UInt64} {addr nonce : Bytes} {m m' : SiweMessage}
    {txt txt' : Bytes} (h : KeptUsable l now addr nonce m txt) (h' : KeptUsable l now addr nonce m' txt') :
    m = m' ∧ txt = txt' := by
  obtain ⟨⟨bs, _, h2, h3⟩, _, h5⟩ := h
  obtain ⟨⟨bs', _, h2', h3'⟩, _, h5'⟩ := h'
  rw [spells_unique h2 h2', h3'] at h3
  have := Option.some.inj h3
  subst this
  exact ⟨rfl, Res.ok.inj (h5.symm.trans h5')⟩

/-- C86: the specification admits only one answer. -/
theorem C86_one_answer {E : Env} (l : LibState E) (es : List LibEvent) (now : UInt64) (sig addr key cid nonce : Bytes)
    (r r' : LibReply) (h : LibLoginReply l es now sig addr key cid nonce r)
    (h' : LibLoginReply l es now sig addr key cid nonce r') : r = r' := by
  have hfail : ∀ {txt e}, HexString 130 sig → RecoveryFails E sig txt e → ∀ pub, ¬RecoversKey E sig txt pub := by
    intro txt e hs hr pub hp
    have h1 := (recover_err (E := E) hs).mpr hr
    have h2 := (recover_ok (E := E) hs).mpr ⟨pub, hp, rfl⟩
    rw [h1] at h2; cases h2
  have hsigns : ∀ {txt e}, HexString 130 sig → RecoveryFails E sig txt e → ¬Signs E sig txt addr :=
    fun hs hr ⟨pub, hp, _⟩ => hfail hs hr pub hp
  have hkey : ∀ {e}, KeyError E key e → ¬(key ≠ [] ∧ E.derOk key = true) := by
    rintro e (⟨h⟩ | ⟨h, h'⟩) ⟨g, g'⟩
    · exact g h
    · simp_all
  cases h with
  | badAddress e h1 => cases h' with
    | badAddress e' g1 =>
      have := (addressError_iff E addr e).mpr h1
      rw [(addressError_iff E addr e').mpr g1] at this; cases this; rfl
    | badSignature _ g1 => exact absurd g1 (isAddress_not_error h1)
    | notFound g1 => exact absurd g1 (isAddress_not_error h1)
    | unrecoverable _ _ _ g1 => exact absurd g1 (isAddress_not_error h1)
    | otherSigner _ _ _ g1 => exact absurd g1 (isAddress_not_error h1)
    | badKey _ _ _ g1 => exact absurd g1 (isAddress_not_error h1)
    | noTime _ _ _ g1 => exact absurd g1 (isAddress_not_error h1)
    | success _ _ _ _ _ g1 => exact absurd g1 (isAddress_not_error h1)
  | badSignature e h1 h2 => cases h' with
    | badAddress e' g1 => exact absurd h1 (isAddress_not_error g1)
    | badSignature e' _ g2 =>
      have := (signatureError_iff sig e).mpr h2
      rw [(signatureError_iff sig e').mpr g2] at this; cases this; rfl
    | notFound _ g2 => exact absurd g2 (hexString_not_error h2)
    | unrecoverable _ _ _ _ g2 => exact absurd g2 (hexString_not_error h2)
    | otherSigner _ _ _ _ g2 => exact absurd g2 (hexString_not_error h2)
    | badKey _ _ _ _ g2 => exact absurd g2 (hexString_not_error h2)
    | noTime _ _ _ _ g2 => exact absurd g2 (hexString_not_error h2)
    | success _ _ _ _ _ _ g2 => exact absurd g2 (hexString_not_error h2)
  | notFound h1 h2 h3 => cases h' with
    | badAddress e' g1 => exact absurd h1 (isAddress_not_error g1)
    | badSignature _ _ g2 => exact absurd h2 (hexString_not_error g2)
    | notFound => rfl
    | unrecoverable m txt _ _ _ g3 => exact absurd ⟨m, txt, g3⟩ h3
    | otherSigner m txt _ _ _ g3 => exact absurd ⟨m, txt, g3⟩ h3
    | badKey m txt _ _ _ g3 => exact absurd ⟨m, txt, g3⟩ h3
    | noTime m txt _ _ _ g3 => exact absurd ⟨m, txt, g3⟩ h3
    | success m txt _ _ _ _ _ g3 => exact absurd ⟨m, txt, g3⟩ h3
  | unrecoverable m txt e h1 h2 h3 h4 => cases h' with
    | badAddress e' g1 => exact absurd h1 (isAddress_not_error g1)
    | badSignature _ _ g2 => exact absurd h2 (hexString_not_error g2)
    | notFound _ _ g => exact absurd ⟨m, txt, h3⟩ g
    | unrecoverable m' txt' e' _ _ g3 g4 =>
      obtain ⟨rfl, rfl⟩ := keptUsable_unique h3 g3
      have := (recover_err (E := E) h2).mpr h4
      rw [(recover_err (E := E) h2).mpr g4] at this; cases this; rfl
    | otherSigner m' txt' pub _ _ g3 g4 =>
      obtain ⟨rfl, rfl⟩ := keptUsable_unique h3 g3
      exact absurd g4 (hfail h2 h4 pub)
    | badKey m' txt' _ _ _ g3 g4 =>
      obtain ⟨rfl, rfl⟩ := keptUsable_unique h3 g3
      exact absurd g4 (hsigns h2 h4)
    | noTime m' txt' _ _ _ g3 g4 =>
      obtain ⟨rfl, rfl⟩ := keptUsable_unique h3 g3
      exact absurd g4 (hsigns h2 h4)
    | success m' txt' _ _ _ _ _ g3 g4 =>
      obtain ⟨rfl, rfl⟩ := keptUsable_unique h3 g3
      exact absurd g4 (hsigns h2 h4)
  | otherSigner m txt pub h1 h2 h3 h4 h5 => cases h' with
    | badAddress e' g1 => exact absurd h1 (isAddress_not_error g1)
    | badSignature _ _ g2 => exact absurd h2 (hexString_not_error g2)
    | notFound _ _ g => exact absurd ⟨m, txt, h3⟩ g
    | unrecoverable m' txt' e' _ _ g3 g4 =>
      obtain ⟨rfl, rfl⟩ := keptUsable_unique h3 g3
      exact absurd h4 (hfail h2 g4 pub)
    | otherSigner => rfl
    | badKey m' txt' _ _ _ g3 g4 => obtain ⟨rfl, rfl⟩ := keptUsable_unique h3 g3; exact absurd g4 h5
    | noTime m' txt' _ _ _ g3 g4 => obtain ⟨rfl, rfl⟩ := keptUsable_unique h3 g3; exact absurd g4 h5
    | success m' txt' _ _ _ _ _ g3 g4 => obtain ⟨rfl, rfl⟩ := keptUsable_unique h3 g3; exact absurd g4 h5
  | badKey m txt e h1 h2 h3 h4 h5 => cases h' with
    | badAddress e' g1 => exact absurd h1 (isAddress_not_error g1)
    | badSignature _ _ g2 => exact absurd h2 (hexString_not_error g2)
    | notFound _ _ g => exact absurd ⟨m, txt, h3⟩ g
    | unrecoverable m' txt' e' _ _ g3 g4 => obtain ⟨rfl, rfl⟩ := keptUsable_unique h3 g3; exact absurd h4 (hsigns h2 g4)
    | otherSigner m' txt' pub _ _ g3 _ g5 => obtain ⟨rfl, rfl⟩ := keptUsable_unique h3 g3; exact absurd h4 g5
    | badKey m' txt' e' _ _ _ _ g5 => cases h5 <;> cases g5 <;> simp_all
    | noTime m' txt' _ _ _ g3 g4 g5 g6 => exact absurd ⟨g5, g6⟩ (hkey h5)
    | success m' txt' _ _ _ _ _ g3 g4 g5 g6 => exact absurd ⟨g5, g6⟩ (hkey h5)
  | noTime m txt s h1 h2 h3 h4 h5 h6 h7 h8 h9 => cases h' with
    | badAddress e' g1 => exact absurd h1 (isAddress_not_error g1)
    | badSignature _ _ g2 => exact absurd h2 (hexString_not_error g2)
    | notFound _ _ g => exact absurd ⟨m, txt, h3⟩ g
    | unrecoverable m' txt' e' _ _ g3 g4 => obtain ⟨rfl, rfl⟩ := keptUsable_unique h3 g3; exact absurd h4 (hsigns h2 g4)
    | otherSigner m' txt' pub _ _ g3 _ g5 => obtain ⟨rfl, rfl⟩ := keptUsable_unique h3 g3; exact absurd h4 g5
    | badKey m' txt' e' _ _ _ _ g5 => exact absurd ⟨h5, h6⟩ (hkey g5)
    | noTime => rfl
    | success m' txt' s' _ _ _ _ g3 _ _ _ g7 g8 =>
      obtain ⟨rfl, rfl⟩ := keptUsable_unique h3 g3
      obtain rfl := configured_unique h7 g7
      exact absurd ⟨h8, h9⟩ g8
  | success m txt s seed d h1 h2 h3 h4 h5 h6 h7 h8 h9 h10 h11 => cases h' with
    | badAddress e' g1 => exact absurd h1 (isAddress_not_error g1)
    | badSignature _ _ g2 => exact absurd h2 (hexString_not_error g2)
    | notFound _ _ g => exact absurd ⟨m, txt, h3⟩ g
    | unrecoverable m' txt' e' _ _ g3 g4 => obtain ⟨rfl, rfl⟩ := keptUsable_unique h3 g3; exact absurd h4 (hsigns h2 g4)
    | otherSigner m' txt' pub _ _ g3 _ g5 => obtain ⟨rfl, rfl⟩ := keptUsable_unique h3 g3; exact absurd h4 g5
    | badKey m' txt' e' _ _ _ _ g5 => exact absurd ⟨h5, h6⟩ (hkey g5)
    | noTime m' txt' s' _ _ g3 _ _ _ g7 g8 g9 =>
      obtain ⟨rfl, rfl⟩ := keptUsable_unique h3 g3
      obtain rfl := configured_unique h7 g7
      exact absurd ⟨g8, g9⟩ h8
    | success m' txt' s' seed' d' _ _ g3 _ _ _ g7 _ g9 g10 g11 =>
      obtain ⟨rfl, rfl⟩ := keptUsable_unique h3 g3
      obtain rfl := configured_unique h7 g7
      obtain rfl := isSeed_unique h9 g9
      have : d.expiration = d'.expiration := UInt64.toNat_inj.mp (h10.trans g10.symm)
      cases d; cases d'; simp_all

/-- Non-vacuity: every answer occurs; the last uses settings that give sessions no time, at time 0. -/
example :
    let ask := fun h now sig addr key nonce => (appStep (appAfter Toy.env h) now (.login 7 sig addr key [9, 9] nonce)).2
    ask Ex.libPrepared 100 Ex.aliceSig (ascii "0x11") Ex.key (Ex.nonce 3) = .addressErr .addressFormatError ∧
    ask Ex.libPrepared 100 (ascii "0x11") Ex.alice Ex.key (Ex.nonce 3) = .signatureErr .signatureFormatError ∧
    ask Ex.libPrepared 100 Ex.aliceSig Ex.alice Ex.key (Ex.nonce 4) = .loginErr .messageNotFound ∧
    ask Ex.libPrepared 300000000005 Ex.aliceSig Ex.alice Ex.key (Ex.nonce 3) = .loginErr .messageNotFound ∧
    ask Ex.libPrepared 100 Ex.brokenSig Ex.alice Ex.key (Ex.nonce 3) = .loginErr (.eth .invalidRecoveryId) ∧
    ask Ex.libPrepared 100 Ex.bobSig Ex.alice Ex.key (Ex.nonce 3) = .loginErr .addressMismatch ∧
    ask Ex.libPrepared 100 Ex.aliceSig Ex.alice [] (Ex.nonce 3) = .loginErr (.delegation .sessionKeyEmpty) ∧
    ask Ex.libPrepared 300000000004 Ex.aliceSig Ex.alice Ex.key (Ex.nonce 3) = .loggedIn ⟨1800000000005,
      createUserCanisterPubkey [9, 9] (Toy.env.sha256 (identityString (ascii "s") Ex.alice none)).bytes⟩ ∧
    ask (Ex.libPrepared ++ [(6, .init Ex.libOdd)]) 100 Ex.aliceSig Ex.alice Ex.key (Ex.nonce 3) = .loggedIn ⟨5,
      createUserCanisterPubkey [9, 9] (Toy.env.sha256 (identityString [] Ex.alice none)).bytes⟩ ∧
    ask [(0, .restart), (0, .init Ex.libOdd), (0, .rngSeeded [1, 2, 3]), (0, .prepareLogin Ex.alice)] 100 Ex.aliceSig Ex.alice
      Ex.key (Ex.nonce 3) = .loginErr (.delegation .invalidExpiration) := by
  decide +kernel

/-- C86: a login succeeds only with a message that `prepare_login` returned since the last installation or upgrade, made
under the settings then in force for this address with this nonce (or the storage keys exhibit a SHA-256 collision), which
has not expired, whose text the address signed, and which no attempt with this address and nonce has used since; the
session lasts as the settings now in force say. -/
theorem C86_login_needs_a_signed_fresh_message (E : Env) (h : LibHistory) (now : UInt64) (i : Nat)
    (sig addr key cid nonce : Bytes) (d : LoginDetails)
    (hr : (appStep (appAfter E h) now (.login i sig addr key cid nonce)).2 = .loggedIn d) :
    ∃ before e after addr' nonce' m txt s s', libTrace E h = before ++ e :: after ∧ SameRun after ∧
      e.Prepares addr' nonce' m ∧ ((addr' = addr ∧ nonce' = nonce) ∨ KeyCollision E addr nonce addr' nonce') ∧
      ConfiguredWith before s ∧ MessageFor s e.time addr' nonce' m ∧ IsSiweText (shown m) txt ∧ Signs E sig txt addr ∧
      now.toNat < e.time.toNat + s.signInExpiresIn.toNat ∧ (∀ x ∈ after, ¬x.Tries addr nonce) ∧
      ConfiguredWith (libTrace E h) s' ∧
      d.expiration.toNat = min (e.time.toNat + s'.sessionExpiresIn.toNat) (2 ^ 64 - 1) := by
  have hd := C86_login_decision E h now i sig addr key cid nonce
  rw [hr] at hd
  cases hd with
  | success m txt s' seed _ h1 h2 h3 h4 h5 h6 h7 h8 h9 h10 h11 =>
    obtain ⟨⟨bs, b1, b2, b3⟩, hlt, ht⟩ := h3
    obtain ⟨before, e, after, addr', nonce', bs', s, g1, g2, g3, g4, g5, g6, g7, g8, g9, g10⟩ := kept_origin E h _ m b3
    have hm := messageFor_new s e.time addr' nonce'
    obtain ⟨txt', ht', hspec⟩ := message_text_ok Empty m
    obtain rfl := Res.ok.inj (ht.symm.trans ht')
    rw [← g9] at hm
    refine ⟨before, e, after, addr', nonce', m, txt, s, s', g1, g2, g3, storeKey_inj h1 g4 b2 g6 b1 g5 g7, g8, hm, hspec, h4, ?_,
      fun x hx htr => g10 x hx addr nonce bs htr b1 b2 rfl, h7, ?_⟩
    · have := hm.expirationTime; omega
    · rw [h10, hm.issuedAt]

theorem preparesFor_iff (addr nonce : Bytes) (e : LibEvent) : e.preparesFor addr nonce = true ↔ ∃ m, e.Prepares addr nonce m := by
  obtain ⟨t, c, r⟩ := e
  unfold LibEvent.preparesFor LibEvent.Prepares
  split
  · next a m n h1 h2 =>
    simp only at h1 h2
    subst h1; subst h2
    simp
  · next h =>
    simp only [Bool.false_eq_true, false_iff, not_exists, not_and]
    rintro m rfl rfl
    exact h _ _ _ rfl rfl

theorem libLogsInWith_iff (addr nonce : Bytes) (e : LibEvent) :
    e.logsInWith addr nonce = true ↔ ∃ i key cid d, e.LogsIn i addr key cid nonce d := by
  obtain ⟨t, c, r⟩ := e
  unfold LibEvent.logsInWith LibEvent.LogsIn
  split
  · next i sg a k cid n d h1 h2 =>
    simp only at h1 h2
    subst h1; subst h2
    simp only [Bool.and_eq_true, beq_iff_eq]
    constructor
    · rintro ⟨rfl, rfl⟩; exact ⟨i, k, cid, d, ⟨sg, rfl⟩, rfl⟩
    · rintro ⟨_, _, _, _, ⟨_, h⟩, _⟩
      simp only [LibCall.login.injEq] at h
      exact ⟨h.2.2.1, h.2.2.2.2.2⟩
  · next h =>
    simp only [Bool.false_eq_true, false_iff, not_exists, not_and]
    rintro i k cid d ⟨sg, rfl⟩ rfl
    exact h _ _ _ _ _ _ _ rfl rfl

/-- 1 if a message is kept under the key. -/
def keptCount {E : Env} (l : LibState E) (k : Hash) : Nat := if (l.messages.lookup k).isSome then 1 else 0

theorem lib_replay_count (E : Env) (h : LibHistory) {addr bs nonce : Bytes} (ha : IsAddress E.keccak addr) (hl : bs.length = 20)
    (hb : Spells (addr.drop 2) bs)
    (hnc : ∀ e ∈ libTrace E h, ∀ addr' nonce' m, e.Prepares addr' nonce' m → ¬KeyCollision E addr nonce addr' nonce') :
    (libTrace E h).countP (LibEvent.logsInWith addr nonce) + keptCount (appAfter E h).lib (storeKey E bs nonce) ≤
      (libTrace E h).countP (LibEvent.preparesFor addr nonce) := by
  induction h using libHistory_induction with
  | nil => simp [libTrace, libTraceFrom, keptCount, appAfter, appRun, AppState.fresh, LibState.initial]
  | snoc h now c ih =>
    rw [libTrace_snoc] at hnc ⊢
    rw [appAfter_snoc]
    have ih := ih fun e he => hnc e (List.mem_append_left _ he)
    have hnc := hnc ⟨now, c, (appStep (appAfter E h) now c).2⟩ (by simp)
    have hi := appInv_after E h
    simp only [List.countP_append, List.countP_singleton]
    have carry : ∀ l' : LibState E, (∀ m, l'.messages.lookup (storeKey E bs nonce) = some m →
          (appAfter E h).lib.messages.lookup (storeKey E bs nonce) = some m) →
        keptCount l' (storeKey E bs nonce) ≤ keptCount (appAfter E h).lib (storeKey E bs nonce) := by
      intro l' h
      unfold keptCount
      cases h' : l'.messages.lookup (storeKey E bs nonce) with
      | none => simp
      | some m => rw [h m h']
    have noLog : (∀ i sig k cid, c ≠ .login i sig addr k cid nonce) →
        LibEvent.logsInWith addr nonce ⟨now, c, (appStep (appAfter E h) now c).2⟩ = false := by
      intro h
      rw [← Bool.not_eq_true, libLogsInWith_iff]
      rintro ⟨i, k, cid, d, ⟨sg, h1⟩, _⟩
      exact h _ _ _ _ h1
    have plain : (∀ m, (appStep (appAfter E h) now c).1.lib.messages.lookup (storeKey E bs nonce) = some m →
          (appAfter E h).lib.messages.lookup (storeKey E bs nonce) = some m) →
        LibEvent.logsInWith addr nonce ⟨now, c, (appStep (appAfter E h) now c).2⟩ = false →
        (libTrace E h).countP (LibEvent.logsInWith addr nonce) +
          (if LibEvent.logsInWith addr nonce ⟨now, c, (appStep (appAfter E h) now c).2⟩ = true then 1 else 0) +
          keptCount (appStep (appAfter E h) now c).1.lib (storeKey E bs nonce) ≤
        (libTrace E h).countP (LibEvent.preparesFor addr nonce) +
          (if LibEvent.preparesFor addr nonce ⟨now, c, (appStep (appAfter E h) now c).2⟩ = true then 1 else 0) := by
      intro h1 h2
      rw [h2]
      have := carry _ h1
      simp only [Bool.false_eq_true, if_false]
      omega
    cases lib_effect hi now c with
    | reset h1 h2 => exact plain (by rw [h2]; intro m hm; cases hm) (noLog (by simp [h1]))
    | init s h1 h2 => exact plain (by rw [h2]; exact fun m hm => hm) (noLog (by simp [h1]))
    | seeded x h1 h2 => exact plain (by rw [h2]; exact fun m hm => hm) (noLog (by simp [h1]))
    | same h1 _ _ _ g4 _ g5 =>
      refine plain (by rw [g5]; exact fun m hm => hm) ?_
      rw [← Bool.not_eq_true, libLogsInWith_iff]
      rintro ⟨_, _, _, d, _, h2⟩
      exact g4 d h2
    | issued addr' bs' nonce' m s g1 g2 g3 g4 g5 _ _ _ _ _ g9 _ =>
      by_cases hk : storeKey E bs nonce = storeKey E bs' nonce'
      · rcases storeKey_inj ha g1 hb g3 hl g2 hk with ⟨rfl, rfl⟩ | hc
        · rw [(preparesFor_iff _ _ _).mpr ⟨m, g4, g5⟩, noLog (by simp [g4])]
          have : keptCount (appStep (appAfter E h) now c).1.lib (storeKey E bs nonce') ≤ 1 := by unfold keptCount; split <;> omega
          simp only [if_true, Bool.false_eq_true, if_false]
          omega
        · exact absurd hc (hnc _ _ _ ⟨g4, g5⟩)
      · exact plain (by rw [g9, if_neg hk]; exact fun m hm => hm) (noLog (by simp [g4]))
    | attempted i sig addr' key cid nonce' bs' g1 g2 g3 g4 g5 _ _ g7 _ _ g8 =>
      have hle : ∀ m, (appStep (appAfter E h) now c).1.lib.messages.lookup (storeKey E bs nonce) = some m →
          (appAfter E h).lib.messages.lookup (storeKey E bs nonce) = some m := fun m hm => ((g7 _ m).mp hm).1
      by_cases hs : LibEvent.logsInWith addr nonce ⟨now, c, (appStep (appAfter E h) now c).2⟩ = true
      · rw [hs]
        obtain ⟨_, k, _, d, ⟨sg, h1⟩, h2⟩ := (libLogsInWith_iff _ _ _).mp hs
        simp only at h1 h2
        rw [g5] at h1
        obtain ⟨_, _, rfl, _, _, rfl⟩ := LibCall.login.inj h1
        have hbs : bs' = bs := spells_unique g4 hb
        subst hbs
        rcases g8 with ⟨e, g8⟩ | ⟨_, m, _, g8⟩
        · rw [h2] at g8; cases g8
        · have z1 : keptCount (appAfter E h).lib (storeKey E bs' nonce') = 1 := by unfold keptCount; rw [g8]; rfl
          have z2 : keptCount (appStep (appAfter E h) now c).1.lib (storeKey E bs' nonce') = 0 := by
            unfold keptCount
            cases hq : (appStep (appAfter E h) now c).1.lib.messages.lookup (storeKey E bs' nonce') with
            | none => rfl
            | some m' => exact absurd rfl ((g7 _ m').mp hq).2.2
          rw [z2]
          simp only [if_true]
          omega
      · rw [Bool.not_eq_true] at hs
        exact plain hle hs

/-- C86: for every address and nonce, logins never outnumber prepared messages, over all signature maps and canister ids,
or the storage keys of a prepared message exhibit a SHA-256 collision. -/
theorem C86_no_replay (E : Env) (h : LibHistory) (addr nonce : Bytes) :
    (libTrace E h).countP (LibEvent.logsInWith addr nonce) ≤ (libTrace E h).countP (LibEvent.preparesFor addr nonce) ∨
    ∃ e ∈ libTrace E h, ∃ addr' nonce' m, e.Prepares addr' nonce' m ∧ KeyCollision E addr nonce addr' nonce' := by
  by_cases hc : ∃ e ∈ libTrace E h, ∃ addr' nonce' m, e.Prepares addr' nonce' m ∧ KeyCollision E addr nonce addr' nonce'
  · exact .inr hc
  · left
    by_cases ha : IsAddress E.keccak addr
    · obtain ⟨bs, hl, hb⟩ := address_spelled ha
      have := lib_replay_count E h ha hl hb (nonce := nonce) fun e he a n t hi hk => hc ⟨e, he, a, n, t, hi, hk⟩
      omega
    · have : (libTrace E h).countP (LibEvent.logsInWith addr nonce) = 0 := by
        rw [List.countP_eq_zero]
        intro e he hl
        obtain ⟨i, k, cid, d, ⟨sg, h1⟩, h2⟩ := (libLogsInWith_iff _ _ _).mp hl
        obtain ⟨before, after, hb⟩ := List.append_of_mem he
        obtain ⟨h1', h2', _, _, e3, _⟩ := libTraceFrom_split hb
        rw [h1, h2] at e3
        have hd := C86_login_decision E h1' e.time i sg addr k cid nonce
        rw [show (appStep (appAfter E h1') e.time (.login i sg addr k cid nonce)).2 = .loggedIn d from e3.symm] at hd
        cases hd with
        | success _ _ _ _ _ g => exact ha g
      omega

/-- Non-vacuity: one login with the nonce; a second one, on another map and for another canister, is refused; so is one
after a restart. -/
example : (libTrace Toy.env Ex.libLoggedIn).countP (LibEvent.logsInWith Ex.alice (Ex.nonce 3)) = 1 ∧
    (appStep (appAfter Toy.env Ex.libLoggedIn) 101 (.login 8 Ex.aliceSig Ex.alice Ex.key [8] (Ex.nonce 3))).2 =
      .loginErr .messageNotFound ∧
    (appStep (appAfter Toy.env (Ex.libPrepared ++ [(6, .restart), (6, .init Ex.libCfg)])) 101
      (.login 7 Ex.aliceSig Ex.alice Ex.key [9, 9] (Ex.nonce 3))).2 = .loginErr .messageNotFound := by
  decide +kernel

/-! ### C87 -/

theorem sameMap_nil (i : Nat) : SameMap i [] := fun _ h => by simp at h

theorem sameMap_snoc {i : Nat} {es : List LibEvent} {e : LibEvent} :
    SameMap i (es ++ [e]) ↔ SameMap i es ∧ e.call ≠ .restart ∧ e.call ≠ .newMap i := by
  simp only [SameMap, List.mem_append, List.mem_singleton]
  exact ⟨fun h => ⟨fun e he => h e (.inl he), h _ (.inr rfl)⟩, fun h x hx => hx.elim (h.1 x) fun hx => hx ▸ h.2⟩

theorem not_holds_empty (sh dh : Hash) : ¬Holds SigMap.empty sh dh := by
  rintro ⟨sub, h1, _⟩
  simp [HasSeed, SigMap.empty, RbTree.toList] at h1

theorem putsInto_iff (E : Env) (h : LibHistory) (i : Nat) (now : UInt64) (c : LibCall) (r : LibReply) (sh dh : Hash) :
    PutsInto E i c (appAfter E h).lib.settings r sh dh ↔ LibEvent.Puts E (libTrace E h) ⟨now, c, r⟩ i sh dh := by
  unfold PutsInto LibEvent.Puts LibEvent.LogsIn
  refine or_congr Iff.rfl ?_
  constructor
  · rintro ⟨sig, addr, key, cid, nonce, d, st, rfl, rfl, h3, h4⟩
    exact ⟨addr, key, cid, nonce, d, st, ⟨⟨sig, rfl⟩, rfl⟩, (configured_iff E h st).mpr h3, h4⟩
  · rintro ⟨addr, key, cid, nonce, d, st, ⟨⟨sig, h1⟩, h2⟩, h3, h4⟩
    exact ⟨sig, addr, key, cid, nonce, d, st, h1, h2, (configured_iff E h st).mp h3, h4⟩

/-- C87: a pair in a signature map was put there by the canister itself or by a login into that map, since the map was
created, and was not deleted since. -/
theorem C87_pairs_come_from_puts (E : Env) (h : LibHistory) (i : Nat) (sh dh : Hash)
    (hh : Holds ((appAfter E h).maps i) sh dh) :
    ∃ before e after, libTrace E h = before ++ e :: after ∧ SameMap i after ∧ e.Puts E before i sh dh ∧
      ∀ x ∈ after, x.call ≠ .delete i sh dh := by
  induction h using libHistory_induction with
  | nil => exact absurd hh (not_holds_empty sh dh)
  | snoc h now c ih =>
    rw [appAfter_snoc] at hh
    rw [libTrace_snoc]
    have old : Holds ((appAfter E h).maps i) sh dh → c ≠ .restart → c ≠ .newMap i → c ≠ .delete i sh dh →
        ∃ before e after, libTrace E h ++ [⟨now, c, (appStep (appAfter E h) now c).2⟩] = before ++ e :: after ∧ SameMap i after ∧
          e.Puts E before i sh dh ∧ ∀ x ∈ after, x.call ≠ .delete i sh dh := by
      intro ho h1 h2 h3
      obtain ⟨b, e, a, g1, g2, g3, g4⟩ := ih ho
      refine ⟨b, e, a ++ [⟨now, c, (appStep (appAfter E h) now c).2⟩], by rw [g1]; simp, sameMap_snoc.mpr ⟨g2, h1, h2⟩, g3, ?_⟩
      intro x hx
      rcases List.mem_append.mp hx with hx | hx
      · exact g4 x hx
      · rw [List.mem_singleton.mp hx]; exact h3
    cases libMap_effect (appInv_after E h) now c i with
    | emptied _ h2 => rw [h2] at hh; exact absurd hh (not_holds_empty sh dh)
    | same h1 h2 h3 h4 _ => rw [h1] at hh; exact old hh h2 h3 (h4 _ _)
    | changed h1 h2 _ h3 _ _ _ =>
      rcases h3 sh dh hh with hp | ⟨ho, hd⟩
      · exact ⟨_, _, [], rfl, sameMap_nil i, (putsInto_iff E h i now c _ sh dh).mp hp, by simp⟩
      · exact old ho h1 h2 hd

/-- C87: every expiry entry of a signature map is one minute after such a use. -/
theorem C87_entries_come_from_puts (E : Env) (h : LibHistory) (i : Nat) (x : SigExpiration)
    (hx : x ∈ ((appAfter E h).maps i).expirationQueue) :
    ∃ before e after, libTrace E h = before ++ e :: after ∧ SameMap i after ∧ e.Puts E before i x.seedHash x.delegationHash ∧
      IsExpiryOf e.time x.expiresAt := by
  induction h using libHistory_induction with
  | nil => simp [appAfter, appRun, AppState.fresh, SigMap.empty] at hx
  | snoc h now c ih =>
    rw [appAfter_snoc] at hx
    rw [libTrace_snoc]
    have old : x ∈ ((appAfter E h).maps i).expirationQueue → c ≠ .restart → c ≠ .newMap i →
        ∃ before e after, libTrace E h ++ [⟨now, c, (appStep (appAfter E h) now c).2⟩] = before ++ e :: after ∧ SameMap i after ∧
          e.Puts E before i x.seedHash x.delegationHash ∧ IsExpiryOf e.time x.expiresAt := by
      intro ho h1 h2
      obtain ⟨b, e, a, g1, g2, g3, g4⟩ := ih ho
      exact ⟨b, e, a ++ [⟨now, c, (appStep (appAfter E h) now c).2⟩], by rw [g1]; simp, sameMap_snoc.mpr ⟨g2, h1, h2⟩, g3, g4⟩
    cases libMap_effect (appInv_after E h) now c i with
    | emptied _ h2 => rw [h2] at hx; simp [SigMap.empty] at hx
    | same h1 h2 h3 h4 _ => rw [h1] at hx; exact old hx h2 h3
    | changed h1 h2 _ _ h3 _ _ =>
      rcases h3 x hx with ho | ⟨hp1, hp2⟩
      · exact old ho h1 h2
      · exact ⟨_, _, [], rfl, sameMap_nil i, (putsInto_iff E h i now c _ _ _).mp hp2, hp1⟩

/-- C87: after any uses, asking for the witness of a delegation gives the specified answer. -/
theorem C87_witness_answer (E : Env) (h : LibHistory) (now : UInt64) (i : Nat) (addr key : Bytes) (expiration : UInt64) :
    LibWitnessReply E ((appAfter E h).maps i) (libTrace E h) now addr key expiration
      (appStep (appAfter E h) now (.witness i addr key expiration)).2 := by
  have hi := appInv_after E h
  simp only [appStep]
  unfold appWitness
  cases ha : EthAddress.new E addr with
  | panic => exact absurd ha (ethAddress_new_no_panic E addr)
  | err e => exact .badAddress e ((addressError_iff E addr e).mp ha)
  | ok a =>
    obtain ⟨hA, ea⟩ := (ethAddress_new_ok_iff E addr a).mp ha
    have ea : a = ⟨addr⟩ := by cases a; simp at ea; rw [ea]
    subst ea
    simp only
    cases hs : (appAfter E h).lib.settings with
    | none =>
      refine .notConfigured hA ?_
      rintro ⟨s, h1⟩
      rw [configured_iff, hs] at h1; cases h1
    | some s =>
      have hs := (configured_iff E h s).mpr hs
      simp only
      cases hc : createDelegation E s key expiration with
      | panic => exact absurd hc (createDelegation_no_panic E s key expiration)
      | err e =>
        rcases (C26_errors E s key expiration e).mp hc with ⟨g1, rfl⟩ | ⟨g1, g2, rfl⟩ | ⟨g1, g2, g3, rfl⟩
        · exact .badKey s _ hA hs (.empty g1)
        · exact .badKey s _ hA hs (.notDer g1 g2)
        · exact .zero s hA hs g1 g2 g3
      | ok del =>
        obtain ⟨h1, h2, h3, rfl⟩ := (C26_create E s key expiration del).1 hc
        obtain ⟨dh, h4⟩ := C33_total DelegationError E ⟨key, expiration, s.targets⟩
        have h5 := (C33_delegation_hash DelegationError E ⟨key, expiration, s.targets⟩ dh).mp h4
        have hent : IsEntry E s addr key expiration (seedKey E s ⟨addr⟩) dh := isEntry_seedKey h5
        simp only [h4]
        by_cases hx : ((appAfter E h).maps i).isExpired now (seedKey E s ⟨addr⟩) dh = true
        · have : witness E ((appAfter E h).maps i) now (generateSeed E s ⟨addr⟩) dh = .err .signatureExpired := if_pos hx
          rw [this]
          exact .expired s _ dh hA hs h1 h2 h3 hent hx
        · have hw : witness E ((appAfter E h).maps i) now (generateSeed E s ⟨addr⟩) dh =
              (match ((appAfter E h).maps i).witness E (seedKey E s ⟨addr⟩) dh with
              | none => .err .signatureNotFound
              | some w => if w.reconstruct E ≠ ((appAfter E h).maps i).rootHash E then
                  .err (.witnessHashMismatch (w.reconstruct E) (((appAfter E h).maps i).rootHash E))
                else .ok w) := if_neg hx
          rw [Bool.not_eq_true] at hx
          rw [hw]
          by_cases hh : Holds ((appAfter E h).maps i) (seedKey E s ⟨addr⟩) dh
          · obtain ⟨w, g1, g2, _⟩ := SigMap.witness_spec E (hi.sigs i).trees hh
            rw [g1]
            simp only
            rw [← digest_eq, if_neg (by simp [g2])]
            exact .success s _ dh w hA hs h1 h2 h3 hent hx hh g1 g2
          · rw [SigMap.witness_none E (hi.sigs i).trees hh]
            exact .notFound s _ dh hA hs h1 h2 h3 hent hx hh

/-- C87: a witness is given only for a pair that was put into this map at most one minute ago, since the map was created. -/
theorem C87_witness_needs_recent_put (E : Env) (h : LibHistory) (now : UInt64) (i : Nat) (addr key : Bytes)
    (expiration : UInt64) (d : Delegation) (w : HashTree)
    (hr : (appStep (appAfter E h) now (.witness i addr key expiration)).2 = .witness d w) :
    ∃ s sh dh, ConfiguredWith (libTrace E h) s ∧ IsEntry E s addr key expiration sh dh ∧ d = granted s key expiration ∧
      digest E w = ((appAfter E h).maps i).rootHash E ∧
      (∃ before e after x, libTrace E h = before ++ e :: after ∧ SameMap i after ∧ e.Puts E before i sh dh ∧
        IsExpiryOf e.time x ∧ now.toNat ≤ x.toNat) ∧
      ∃ before e after, libTrace E h = before ++ e :: after ∧ SameMap i after ∧ e.Puts E before i sh dh ∧
        ∀ x ∈ after, x.call ≠ .delete i sh dh := by
  have hd := C87_witness_answer E h now i addr key expiration
  rw [hr] at hd
  cases hd with
  | success s sh dh _ _ h2 _ _ _ h6 h7 h8 _ h9 =>
    obtain ⟨x, g1, g2, g3, g4⟩ := SigMap.exists_of_not_isExpired ((appInv_after E h).sigs i) h8 h7
    obtain ⟨b, e, a, k1, k2, k3, k4⟩ := C87_entries_come_from_puts E h i x g1
    rw [g2, g3] at k3
    exact ⟨s, sh, dh, h2, h6, rfl, h9, ⟨b, e, a, _, k1, k2, k3, k4, g4⟩, C87_pairs_come_from_puts E h i sh dh h8⟩

/-- A pair put once is in the map, with no earlier entry, until its minute is over. -/
theorem put_stays (E : Env) (i : Nat) (sh dh : Hash) (h0 : LibHistory) (now : UInt64) (c : LibCall) (x : UInt64)
    (hp : LibEvent.Puts E (libTrace E h0) ⟨now, c, (appStep (appAfter E h0) now c).2⟩ i sh dh) (hx : IsExpiryOf now x)
    (hfirst : ∀ b e a, libTrace E h0 = b ++ e :: a → SameMap i a → ¬e.Puts E b i sh dh) (h1 : LibHistory)
    (hsame : SameMap i (libTraceFrom (appAfter E (h0 ++ [(now, c)])) h1))
    (hdel : ∀ y ∈ libTraceFrom (appAfter E (h0 ++ [(now, c)])) h1, y.call ≠ .delete i sh dh)
    (htime : ∀ y ∈ libTraceFrom (appAfter E (h0 ++ [(now, c)])) h1, now.toNat ≤ y.time.toNat ∧ y.time.toNat < x.toNat) :
    Holds ((appAfter E (h0 ++ (now, c) :: h1)).maps i) sh dh ∧
      ∀ y ∈ ((appAfter E (h0 ++ (now, c) :: h1)).maps i).expirationQueue, y.seedHash = sh → y.delegationHash = dh →
        x.toNat ≤ y.expiresAt.toNat := by
  induction h1 using libHistory_induction with
  | nil =>
    rw [appAfter_snoc]
    have hp' := (putsInto_iff E h0 i now c _ sh dh).mpr hp
    cases libMap_effect (appInv_after E h0) now c i with
    | emptied h1 _ =>
      rcases hp with hp | ⟨_, _, _, _, _, _, ⟨⟨_, hp⟩, _⟩, _⟩ <;> simp only at hp <;> rw [hp] at h1 <;> simp at h1
    | same _ _ _ _ h5 => exact absurd hp' (h5 _ _)
    | changed _ _ _ _ h4 h5 _ =>
      refine ⟨h5 _ _ hp', fun y hy e1 e2 => ?_⟩
      rcases h4 y hy with ho | ⟨hq, _⟩
      · obtain ⟨b, e, a, g1, g2, g3, _⟩ := C87_entries_come_from_puts E h0 i y ho
        rw [e1, e2] at g3
        exact absurd g3 (hfirst b e a g1 g2)
      · unfold IsExpiryOf at hq hx; omega
  | snoc h1 t c1 ih =>
    have happ : appAfter E (h0 ++ (now, c) :: (h1 ++ [(t, c1)])) = (appStep (appAfter E (h0 ++ (now, c) :: h1)) t c1).1 := by
      rw [show h0 ++ (now, c) :: (h1 ++ [(t, c1)]) = (h0 ++ (now, c) :: h1) ++ [(t, c1)] by simp, appAfter_snoc]
    have hrun : appRun (appAfter E (h0 ++ [(now, c)])) h1 = appAfter E (h0 ++ (now, c) :: h1) := by
      rw [appAfter, appAfter, ← appRun_append]; simp
    rw [libTraceFrom_append, hrun] at hsame hdel htime
    simp only [libTraceFrom] at hsame hdel htime
    rw [sameMap_snoc] at hsame
    obtain ⟨ih1, ih2⟩ := ih hsame.1 (fun y hy => hdel y (List.mem_append_left _ hy)) (fun y hy => htime y (List.mem_append_left _ hy))
    have hd := hdel _ (List.mem_append_right _ (List.mem_singleton.mpr rfl))
    obtain ⟨ht1, ht2⟩ := htime _ (List.mem_append_right _ (List.mem_singleton.mpr rfl))
    simp only at hd ht1 ht2
    rw [happ]
    cases libMap_effect (appInv_after E (h0 ++ (now, c) :: h1)) t c1 i with
    | emptied h1 _ => rcases h1 with h1 | h1
                      · exact absurd h1 hsame.2.1
                      · exact absurd h1 hsame.2.2
    | same h1 => rw [h1]; exact ⟨ih1, ih2⟩
    | changed _ _ _ _ h4 _ h6 =>
      refine ⟨?_, fun y hy e1 e2 => ?_⟩
      · rcases h6 _ _ ih1 with g | g | ⟨y, g1, g2, g3, g4⟩
        · exact g
        · exact absurd g hd
        · have := ih2 y g1 g2 g3; omega
      · rcases h4 y hy with ho | ⟨hq, _⟩
        · exact ih2 y ho e1 e2
        · unfold IsExpiryOf at hq hx; omega

/-- C87: a delegation put into a map (by a login, or by the canister itself) is served for one minute under the same
settings, whatever happens to other maps, provided the map is not replaced, the pair is not deleted, it was not put into
this map before, and the clock does not go back. -/
theorem C87_put_is_served (E : Env) (h : LibHistory) (i : Nat) (before after : List LibEvent) (e : LibEvent) (s : Settings)
    (addr key : Bytes) (expiration : UInt64) (sh dh : Hash) (x now : UInt64) (htr : libTrace E h = before ++ e :: after)
    (hput : e.Puts E before i sh dh) (hfirst : ∀ b y a, before = b ++ y :: a → SameMap i a → ¬y.Puts E b i sh dh)
    (hsame : SameMap i after) (hdel : ∀ y ∈ after, y.call ≠ .delete i sh dh) (hx : IsExpiryOf e.time x)
    (htime : ∀ y ∈ after, e.time.toNat ≤ y.time.toNat ∧ y.time.toNat < x.toNat) (hnow : now.toNat ≤ x.toNat)
    (ha : IsAddress E.keccak addr) (hk : key ≠ []) (hk' : E.derOk key = true) (he : expiration ≠ 0)
    (hs : ConfiguredWith (libTrace E h) s) (hent : IsEntry E s addr key expiration sh dh) :
    ∃ w, (appStep (appAfter E h) now (.witness i addr key expiration)).2 = .witness (granted s key expiration) w ∧
      ((appAfter E h).maps i).witness E sh dh = some w ∧ digest E w = ((appAfter E h).maps i).rootHash E := by
  obtain ⟨h0, h1, e1, e2, e3, e4⟩ := libTraceFrom_split htr
  subst e1
  rw [show before = libTrace E h0 from e2] at hput hfirst
  obtain ⟨t, c, r⟩ := e
  simp only at e3 e4 hx htime
  have e3 : r = (appStep (appAfter E h0) t c).2 := e3
  have e4 : libTraceFrom (appAfter E (h0 ++ [(t, c)])) h1 = after := by rw [appAfter_snoc]; exact e4.symm
  rw [e3] at hput
  rw [← e4] at hsame hdel htime
  obtain ⟨k1, k2⟩ := put_stays E i sh dh h0 t c x hput hx hfirst h1 hsame hdel htime
  have hne := SigMap.not_isExpired_of_all (m := (appAfter E (h0 ++ (t, c) :: h1)).maps i) (now := now) (s := sh) (d := dh)
    fun y hy g1 g2 => le_trans hnow (k2 y hy g1 g2)
  have hd := C87_witness_answer E (h0 ++ (t, c) :: h1) now i addr key expiration
  generalize (appStep (appAfter E (h0 ++ (t, c) :: h1)) now (.witness i addr key expiration)).2 = r at hd ⊢
  cases hd with
  | badAddress _ g => exact absurd ha (isAddress_not_error g)
  | notConfigured _ g => exact absurd ⟨s, hs⟩ g
  | badKey _ _ _ _ g => rcases g with g | ⟨_, g⟩ <;> simp_all
  | zero _ _ _ _ _ g => exact absurd g he
  | expired s' sh' dh' _ g1 _ _ _ g2 g3 =>
    obtain rfl := configured_unique hs g1
    obtain ⟨rfl, rfl⟩ := isEntry_unique hent g2
    rw [hne] at g3; cases g3
  | notFound s' sh' dh' _ g1 _ _ _ g2 _ g3 =>
    obtain rfl := configured_unique hs g1
    obtain ⟨rfl, rfl⟩ := isEntry_unique hent g2
    exact absurd k1 g3
  | success s' sh' dh' w _ g1 _ _ _ g2 _ _ g3 g4 =>
    obtain rfl := configured_unique hs g1
    obtain ⟨rfl, rfl⟩ := isEntry_unique hent g2
    exact ⟨w, rfl, g3, g4⟩

/-- C87: a call leaves the maps it does not work on unchanged. -/
theorem C87_other_maps_untouched (E : Env) (h : LibHistory) (now : UInt64) (c : LibCall) (i : Nat) (hc : ¬UsesMap i c) :
    (appStep (appAfter E h) now c).1.maps i = (appAfter E h).maps i := by
  have hcase := app_case (appInv_after E h) now c
  generalize (appStep (appAfter E h) now c).1 = st' at hcase ⊢
  generalize (appStep (appAfter E h) now c).2 = r at hcase
  unfold UsesMap at hc
  cases hcase <;> first
    | rfl
    | (refine setMap_ne _ _ ?_; rintro rfl; exact hc (by simp))
    | exact absurd (by simp) hc

namespace Ex
/-- The pair of the delegation of `libLoggedIn`. -/
def libSeed : Hash := seedKey Toy.env libCfg ⟨alice⟩
def libDelegation : Delegation := ⟨key, 1800000000005, none⟩
def libHash : Hash := match (createDelegationHash Toy.env libDelegation : Res Empty Hash) with | .ok h => h | _ => libSeed
/-- Asking for the witness. -/
def libAsk (h : LibHistory) (now : UInt64) (i : Nat) : LibReply :=
  (appStep (appAfter Toy.env h) now (.witness i alice key 1800000000005)).2
def isWitness : LibReply → Bool
  | .witness d _ => d == libDelegation
  | _ => false
end Ex

/-- Non-vacuity of C87: the login's delegation is in map 7 and in no other; the witness is given for one minute. -/
example : Ex.isWitness (Ex.libAsk Ex.libLoggedIn 101 7) = true ∧
    Ex.isWitness (Ex.libAsk Ex.libLoggedIn 60000000100 7) = true ∧
    Ex.libAsk Ex.libLoggedIn 60000000101 7 = .delegationErr .signatureExpired ∧
    Ex.libAsk Ex.libLoggedIn 101 8 = .delegationErr .signatureNotFound ∧
    Ex.libAsk (Ex.libLoggedIn ++ [(101, .init { Ex.libCfg with salt := ascii "t" })]) 102 7 = .delegationErr .signatureNotFound ∧
    Ex.libAsk (Ex.libLoggedIn ++ [(101, .newMap 7)]) 102 7 = .delegationErr .signatureNotFound ∧
    Ex.libAsk (Ex.libLoggedIn ++ [(101, .delete 7 Ex.libSeed Ex.libHash)]) 102 7 = .delegationErr .signatureNotFound ∧
    Ex.isWitness (Ex.libAsk (Ex.libLoggedIn ++ [(101, .newMap 8), (101, .delete 8 Ex.libSeed Ex.libHash)]) 102 7) = true ∧
    Ex.isWitness (Ex.libAsk [(1, .restart), (2, .init Ex.libCfg), (3, .put 4 Ex.libSeed Ex.libHash)] 102 4) = true := by
  decide +kernel

/-- The hypotheses of `C87_put_is_served` are met by the login, followed by work on another map. -/
example : ∃ w, (appStep (appAfter Toy.env (Ex.libLoggedIn ++ [(200, .put 8 Ex.libSeed Ex.libHash), (300, .newMap 8)])) 60000000100
    (.witness 7 Ex.alice Ex.key 1800000000005)).2 = .witness (granted Ex.libCfg Ex.key 1800000000005) w := by
  have hdh : (createDelegationHash Toy.env Ex.libDelegation : Res Empty Hash) = .ok Ex.libHash := by decide +kernel
  have hent : IsEntry Toy.env Ex.libCfg Ex.alice Ex.key 1800000000005 Ex.libSeed Ex.libHash :=
    isEntry_seedKey ((C33_delegation_hash Empty Toy.env Ex.libDelegation _).mp hdh)
  have hcfg : ∀ hist : LibHistory, (appAfter Toy.env hist).lib.settings = some Ex.libCfg → ConfiguredWith (libTrace Toy.env hist) Ex.libCfg :=
    fun hist => (configured_iff Toy.env hist Ex.libCfg).mpr
  have hA : IsAddress Toy.env.keccak Ex.alice := ((ethAddress_new_ok_iff Toy.env Ex.alice ⟨Ex.alice⟩).mp (by decide +kernel)).1
  obtain ⟨w, h, _⟩ := C87_put_is_served Toy.env (Ex.libLoggedIn ++ [(200, .put 8 Ex.libSeed Ex.libHash), (300, .newMap 8)]) 7
    (libTrace Toy.env Ex.libPrepared) [⟨200, .put 8 Ex.libSeed Ex.libHash, .done⟩, ⟨300, .newMap 8, .done⟩]
    ⟨100, .login 7 Ex.aliceSig Ex.alice Ex.key [9, 9] (Ex.nonce 3), .loggedIn ⟨1800000000005,
      createUserCanisterPubkey [9, 9] (Toy.env.sha256 (identityString (ascii "s") Ex.alice none)).bytes⟩⟩ Ex.libCfg Ex.alice Ex.key
    1800000000005 Ex.libSeed Ex.libHash 60000000100 60000000100 (by decide +kernel)
    (.inr ⟨_, _, _, _, _, Ex.libCfg, ⟨⟨_, rfl⟩, rfl⟩, hcfg _ (by decide +kernel), hent⟩)
    (by
      intro b y a hb hs hp
      have hy : y ∈ libTrace Toy.env Ex.libPrepared := by rw [hb]; simp
      have : ∀ y ∈ libTrace Toy.env Ex.libPrepared, y.call ∈ Ex.libPrepared.map Prod.snd := by decide +kernel
      have := this y hy
      rcases hp with hp | ⟨_, _, _, _, _, _, ⟨⟨_, hp⟩, _⟩, _⟩ <;> rw [hp] at this <;> simp [Ex.libPrepared] at this)
    (by simp [SameMap]) (by simp) (by unfold IsExpiryOf; decide) (by simp) (by decide) hA (by decide) (by decide +kernel) (by decide)
    (hcfg _ (by decide +kernel)) hent
  exact ⟨w, h⟩

/-- Without the requirement that the pair was not put before, `C87_put_is_served` fails: deleting a pair leaves its expiry
entry behind, and a pair put again is refused when the first minute is over. -/
example : Ex.isWitness (Ex.libAsk [(1, .restart), (2, .init Ex.libCfg), (3, .put 4 Ex.libSeed Ex.libHash)] 60000000003 4) = true ∧
    Ex.libAsk [(1, .restart), (2, .init Ex.libCfg), (3, .put 4 Ex.libSeed Ex.libHash), (4, .delete 4 Ex.libSeed Ex.libHash),
      (50000000000, .put 4 Ex.libSeed Ex.libHash)] 60000000004 4 = .delegationErr .signatureExpired := by
  decide +kernel

/-! ### C88 -/

theorem mappedState_lib {E : Env} (s : State E) (p bs : Bytes) :
    (mappedState s p bs).lib = s.lib ∧ (mappedState s p bs).sigMap = s.sigMap := by
  unfold mappedState
  split_ifs <;> exact ⟨rfl, rfl⟩

/-- One login of the provider is one login of the embedding canister. -/
theorem login_mirror {E : Env} {st : State E} {ast : AppState E} (hi : Inv st) (hl : ast.lib = st.lib) (hm : ast.maps 0 = st.sigMap)
    (now : UInt64) (sig addr key nonce : Bytes) :
    let x := step st now (.login sig addr key nonce)
    let y := appStep ast now (.login 0 sig addr key E.canisterId nonce)
    y.1.lib = x.1.lib ∧ y.1.maps 0 = x.1.sigMap ∧
      ((∃ d, x.2 = .loggedIn d ∧ y.2 = .loggedIn d) ∨ (∃ e, x.2 = .err (.login e) ∧ y.2 = .loginErr e) ∨
        ∃ e, x.2 = .err (.eth e) ∧ (y.2 = .addressErr e ∨ y.2 = .signatureErr e)) := by
  simp only [step, appStep, siweLogin, appLogin]
  cases hn : EthAddress.new E addr with
  | panic => exact absurd hn (ethAddress_new_no_panic E addr)
  | err e => exact ⟨hl, hm, .inr (.inr ⟨e, rfl, .inl rfl⟩)⟩
  | ok a =>
    obtain ⟨hA, ha⟩ := (ethAddress_new_ok_iff E addr a).mp hn
    have : a = ⟨addr⟩ := by cases a; simp_all
    subst this
    simp only
    cases hg : EthSignature.new sig with
    | panic => exact absurd hg (ethSignature_new_no_panic sig)
    | err e => exact ⟨hl, hm, .inr (.inr ⟨e, rfl, .inr rfl⟩)⟩
    | ok g =>
      obtain ⟨hS, hg'⟩ := (ethSignature_new_ok_iff sig g).mp hg
      have : g = ⟨sig⟩ := by cases g; simp_all
      subst this
      simp only [hl, hm]
      rcases hx : login st.lib st.sigMap now ⟨sig⟩ ⟨addr⟩ key E.canisterId nonce with ⟨l, sm, r⟩
      cases r with
      | panic =>
        obtain ⟨bs, _, _, ⟨_, h⟩ | ⟨m, txt, _, _, h⟩⟩ := login_cases st.lib hi.sigs hi.configured now key E.canisterId nonce hA hS
        · rw [hx] at h; simp at h
        · rw [hx] at h; cases h
      | err e => exact ⟨rfl, setMap_self ast.maps 0 sm, .inr (.inl ⟨e, rfl, rfl⟩)⟩
      | ok d =>
        have hlen := selfAuthenticating_length E d.userCanisterPubkey
        obtain ⟨ds, bs, _, _, _, _, _, harr⟩ := isAddress_bytes hA
        simp only
        rw [if_neg (by rw [hlen]; omega), List.take_of_length_le (by rw [hlen]), manage_eq _ _ harr]
        simp only [commit, reply]
        obtain ⟨g1, g2⟩ := mappedState_lib (updateRootHash { st with lib := l, sigMap := sm })
          (selfAuthenticating E d.userCanisterPubkey) bs
        rw [g1, g2]
        exact ⟨rfl, setMap_self _ _ _, .inl ⟨d, rfl, rfl⟩⟩

/-- One prepared login of the provider is one of the embedding canister. -/
theorem prepare_mirror {E : Env} {st : State E} {ast : AppState E} (hl : ast.lib = st.lib) (hm : ast.maps 0 = st.sigMap)
    (now : UInt64) (addr : Bytes) :
    let x := step st now (.prepareLogin addr)
    let y := appStep ast now (.prepareLogin addr)
    y.1.lib = x.1.lib ∧ y.1.maps 0 = x.1.sigMap ∧
      ((∃ m txt nonce, IsSiweText (shown m) txt ∧ x.2 = .prepared ⟨txt, nonce⟩ ∧ y.2 = .prepared m nonce) ∨
        (x.2 = .trap ∧ y.2 = .trap) ∨ ∃ e, x.2 = .err (.eth e) ∧ y.2 = .addressErr e) := by
  simp only [step, appStep, siwePrepareLogin, appPrepare]
  cases hn : EthAddress.new E addr with
  | panic => exact absurd hn (ethAddress_new_no_panic E addr)
  | err e => exact ⟨hl, hm, .inr (.inr ⟨e, rfl, rfl⟩)⟩
  | ok a =>
    simp only [hl]
    cases hp : prepareLogin st.lib now a with
    | panic => exact ⟨hl, hm, .inr (.inl ⟨rfl, rfl⟩)⟩
    | err e => exact ⟨hl, hm, .inr (.inr ⟨e, rfl, rfl⟩)⟩
    | ok x =>
      obtain ⟨l, m, nonce⟩ := x
      obtain ⟨txt, ht, hspec⟩ := message_text_ok ProviderError m
      simp only [ht]
      exact ⟨rfl, hm, .inl ⟨m, txt, nonce, hspec, rfl, rfl⟩⟩

/-- One served delegation of the provider is one witness of the embedding canister. -/
theorem witness_mirror {E : Env} {st : State E} {ast : AppState E} (hl : ast.lib = st.lib) (hm : ast.maps 0 = st.sigMap)
    (now : UInt64) (c addr key : Bytes) (e : UInt64) :
    let r := (step st now (.getDelegation (some c) addr key e)).2
    let r' := (appStep ast now (.witness 0 addr key e)).2
    (r = .trap ∧ r' = .trap) ∨ (∃ er, r = .err (.eth er) ∧ r' = .addressErr er) ∨
      (∃ er, r = .err (.delegation er) ∧ r' = .delegationErr er) ∨
      ∃ d w, r' = .witness d w ∧ r = .delegation ⟨d, createCertifiedSignature c
        (.fork (.pruned (digest E (.labeled (ascii "http_assets") .empty))) (.labeled (ascii "sig") w))⟩ := by
  simp only [step, appStep, siweGetDelegation, appWitness]
  cases hn : EthAddress.new E addr with
  | panic => exact absurd hn (ethAddress_new_no_panic E addr)
  | err er => exact .inr (.inl ⟨er, rfl, rfl⟩)
  | ok a =>
    simp only [hl, hm, Res.mapErr_ok, Res.ok_bind]
    cases hs : st.lib.settings with
    | none => exact .inl ⟨rfl, rfl⟩
    | some s =>
      simp only
      cases hc : createDelegation E s key e with
      | panic => exact .inl ⟨rfl, rfl⟩
      | err er => exact .inr (.inr (.inl ⟨er, rfl, rfl⟩))
      | ok d =>
        obtain ⟨dh, h4⟩ := C33_total ProviderError E d
        have h5 := (C33_delegation_hash ProviderError E d dh).mp h4
        have h6 := (C33_delegation_hash DelegationError E d dh).mpr h5
        simp only [Res.mapErr_ok, Res.ok_bind, h4, h6]
        cases hw : witness E st.sigMap now (generateSeed E s a) dh with
        | panic => exact .inl ⟨rfl, rfl⟩
        | err er => exact .inr (.inr (.inl ⟨er, rfl, rfl⟩))
        | ok w =>
          refine .inr (.inr (.inr ⟨d, w, rfl, ?_⟩))
          simp only [Res.mapErr_ok, Res.ok_bind, reply, digest_eq]
          rfl

/-- C88: the provider canister is a canister that embeds the library: every history of the provider is matched by uses of
the library with the same times, arguments and answers, which leave the library and the signature map in the same state.
So what C86 and C87 say of every embedding canister holds of the provider. -/
theorem C88_provider_embeds_the_library (E : Env) (h : History) :
    ∃ lh : LibHistory, Mirrors E (trace E h) (libTrace E lh) ∧ (appAfter E lh).lib = (stateAfter E h).lib ∧
      (appAfter E lh).maps 0 = (stateAfter E h).sigMap := by
  induction h using history_induction with
  | nil => exact ⟨[], .nil, rfl, rfl⟩
  | snoc h now op ih =>
    obtain ⟨lh, h1, h2, h3⟩ := ih
    have hi := inv_stateAfter E h
    have htr : trace E (h ++ [(now, op)]) = trace E h ++ [⟨now, op, (step (stateAfter E h) now op).2⟩] := by
      rw [trace, traceFrom_snoc]; rfl
    have hst : stateAfter E (h ++ [(now, op)]) = (step (stateAfter E h) now op).1 := run_snoc _ _ _ _
    rw [htr, hst]
    have one : ∀ c, ((appStep (appAfter E lh) now c).1.lib = (step (stateAfter E h) now op).1.lib ∧
          (appStep (appAfter E lh) now c).1.maps 0 = (step (stateAfter E h) now op).1.sigMap) →
        Mirrors E (trace E h ++ [⟨now, op, (step (stateAfter E h) now op).2⟩])
          (libTrace E lh ++ [⟨now, c, (appStep (appAfter E lh) now c).2⟩]) →
        ∃ lh : LibHistory, Mirrors E (trace E h ++ [⟨now, op, (step (stateAfter E h) now op).2⟩]) (libTrace E lh) ∧
          (appAfter E lh).lib = (step (stateAfter E h) now op).1.lib ∧
          (appAfter E lh).maps 0 = (step (stateAfter E h) now op).1.sigMap := by
      intro c hc hmir
      refine ⟨lh ++ [(now, c)], ?_, ?_, ?_⟩
      · rw [libTrace_snoc]; exact hmir
      · rw [appAfter_snoc]; exact hc.1
      · rw [appAfter_snoc]; exact hc.2
    have two : ∀ s, (step (stateAfter E h) now op).1.lib = ⟨none, some s, []⟩ → (step (stateAfter E h) now op).1.sigMap = .empty →
        Mirrors E (trace E h ++ [⟨now, op, (step (stateAfter E h) now op).2⟩])
          (libTrace E lh ++ [⟨now, .restart, .done⟩, ⟨now, .init s, .done⟩]) →
        ∃ lh : LibHistory, Mirrors E (trace E h ++ [⟨now, op, (step (stateAfter E h) now op).2⟩]) (libTrace E lh) ∧
          (appAfter E lh).lib = (step (stateAfter E h) now op).1.lib ∧
          (appAfter E lh).maps 0 = (step (stateAfter E h) now op).1.sigMap := by
      intro s g1 g2 hmir
      refine ⟨lh ++ [(now, .restart)] ++ [(now, .init s)], ?_, ?_, ?_⟩
      · rw [libTrace_snoc, libTrace_snoc, List.append_assoc]; exact hmir
      · rw [appAfter_snoc, appAfter_snoc, g1]; rfl
      · rw [appAfter_snoc, appAfter_snoc, g2]; rfl
    have none : (step (stateAfter E h) now op).1 = stateAfter E h →
        Mirrors E (trace E h ++ [⟨now, op, (step (stateAfter E h) now op).2⟩]) (libTrace E lh) →
        ∃ lh : LibHistory, Mirrors E (trace E h ++ [⟨now, op, (step (stateAfter E h) now op).2⟩]) (libTrace E lh) ∧
          (appAfter E lh).lib = (step (stateAfter E h) now op).1.lib ∧
          (appAfter E lh).maps 0 = (step (stateAfter E h) now op).1.sigMap := by
      intro g hmir
      rw [g] at *
      exact ⟨lh, hmir, h2, h3⟩
    cases op with
    | install i =>
      by_cases hd : (step (stateAfter E h) now (.install i)).2 = .done
      · obtain ⟨s, p, g1, _, g3⟩ := (C42_install (stateAfter E h) (step (stateAfter E h) now (.install i)).1 now i).mp (Prod.ext rfl hd)
        refine two s (by rw [g3]) (by rw [g3]) ?_
        rw [hd]
        exact .installed now i _ s p h1 (.inl rfl) g1
      · have := C42_otherwise_trap (stateAfter E h) now i _ (.inl rfl) hd
        refine none (by rw [this]) ?_
        rw [this]
        exact .unused now _ _ h1 (.inl ⟨⟨i, .inl rfl⟩, rfl⟩)
    | upgrade i =>
      by_cases hd : (step (stateAfter E h) now (.upgrade i)).2 = .done
      · obtain ⟨s, p, g1, _, g3⟩ := (C42_upgrade (stateAfter E h) (step (stateAfter E h) now (.upgrade i)).1 now i).mp (Prod.ext rfl hd)
        refine two s (by rw [g3]) (by rw [g3]) ?_
        rw [hd]
        exact .installed now i _ s p h1 (.inr rfl) g1
      · have := C42_otherwise_trap (stateAfter E h) now i _ (.inr rfl) hd
        refine none (by rw [this]) ?_
        rw [this]
        exact .unused now _ _ h1 (.inl ⟨⟨i, .inr rfl⟩, rfl⟩)
    | rngSeeded seed =>
      exact one (.rngSeeded seed) ⟨by simp only [appStep, step, h2], h3⟩ (.seeded now seed h1)
    | prepareLogin addr =>
      obtain ⟨g1, g2, g3⟩ := prepare_mirror h2 h3 now addr
      refine one (.prepareLogin addr) ⟨g1, g2⟩ ?_
      rcases g3 with ⟨m, txt, nonce, k1, k2, k3⟩ | g3
      · rw [k2, k3]; exact .prepared now addr nonce txt m h1 k1
      · exact .notPrepared now addr _ _ h1 g3
    | login sig addr key nonce =>
      obtain ⟨g1, g2, g3⟩ := login_mirror hi h2 h3 now sig addr key nonce
      exact one (.login 0 sig addr key E.canisterId nonce) ⟨g1, g2⟩ (.login now sig addr key nonce _ _ h1 g3)
    | getDelegation c addr key e =>
      cases c with
      | none => exact none rfl (.unused now _ _ h1 (.inr (.inr (.inr (.inr ⟨addr, key, e, rfl⟩)))))
      | some c =>
        exact one (.witness 0 addr key e) ⟨h2, h3⟩ (.witness now c addr key e _ _ h1 (witness_mirror h2 h3 now c addr key e))
    | getAddress p => exact none rfl (.unused now _ _ h1 (.inr (.inl ⟨p, rfl⟩)))
    | getCallerAddress p => exact none rfl (.unused now _ _ h1 (.inr (.inr (.inl ⟨p, rfl⟩))))
    | getPrincipal p => exact none rfl (.unused now _ _ h1 (.inr (.inr (.inr (.inl ⟨p, rfl⟩)))))

/-- Non-vacuity of C88: the provider's example history has a login, so do the matching uses. -/
example : ∃ lh : LibHistory, Mirrors Toy.env (trace Toy.env Ex.loggedIn) (libTrace Toy.env lh) ∧
    (trace Toy.env Ex.loggedIn).map (fun e => match e.reply with | .loggedIn d => d.expiration | _ => 0) = [0, 0, 0, 0, 1800000000005] :=
  (C88_provider_embeds_the_library Toy.env Ex.loggedIn).imp fun _ h => ⟨h.1, by decide +kernel⟩

end Siwe
