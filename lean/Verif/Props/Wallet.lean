import Verif.Lemmas.Wallet
import Verif.Props.LoginHistory
import Verif.Props.EndToEnd
/- Properties C99 and C100: the canister's signature check and Ethereum's wallets. -/
namespace Siwe
open Spec Secp WeierstrassCurve.Affine

/-- C99: the signature check of the canister accepts a signature for an address and a text exactly if a wallet whose private key has
that address makes that signature for that text. -/
theorem C99_accepted_iff (E : Env) (hE : UsesSecp256k1 E) (sig text addr : Bytes) (hsig : HexString 130 sig) :
    Signs E sig text addr ↔ ∃ d, IsPrivateKey d ∧ WalletSigns E d text sig ∧ IsAddressOf E (d • generator) addr := by
  constructor
  · rintro ⟨key, ⟨b, v, signed, hsp, hv, hv3, hok, hpm, hrec⟩, haddr⟩
    obtain ⟨br, bs, v', hr, hs, hsp'⟩ := signature_parts hsig
    obtain rfl := spells_unique hsp hsp'
    have hv' : v' = v := by
      rw [List.getElem?_append_right (by simp [hr, hs])] at hv
      simpa [hr, hs] using hv
    subst hv'
    have ht : (br ++ bs ++ [v']).take 64 = br ++ bs := List.take_left' (by simp [hr, hs])
    rw [ht, hE.sigOk] at hok
    rw [ht, hE.recoverKey] at hrec
    have hm : (v' % 27).toNat = v'.toNat % 27 := by simp [UInt8.toNat_mod]
    obtain ⟨d, k, x, y, h, bx, by', g1, g2, g3, g4, g5, g6, rfl, g8⟩ :=
      (recoverKey_iff _ br bs _ key hr hs hok (by rw [hm]; exact hv3)).1 hrec
    exact ⟨d, g1, ⟨k, _, _, _, signed, br, bs, v', g2, g3, hpm, g8, ⟨hr, rfl⟩, ⟨hs, rfl⟩, hm.symm, hsig, hsp⟩,
      x, y, h, bx, by', g4, g5, g6, haddr⟩
  · rintro ⟨d, g1, ⟨k, r, s, recid, signed, br, bs, v, g2, g3, hpm, g8, ⟨hr, rfl⟩, ⟨hs, rfl⟩, hv, _, hsp⟩,
      x, y, h, bx, by', g4, g5, g6, haddr⟩
    have hm : (v % 27).toNat = v.toNat % 27 := by simp [UInt8.toNat_mod]
    have ht : (br ++ bs ++ [v]).take 64 = br ++ bs := List.take_left' (by simp [hr, hs])
    obtain ⟨hver, hlow⟩ := (verifies_iff_signs (.some x y h) _ _ _ _ (Point.some_ne_zero h)).2
      ⟨d, k, g1.1, g1.2, g2, g3, g4, g8⟩
    have hok : Secp.sigOk (br ++ bs) = true :=
      (sigOk_iff br bs hr hs).2 ⟨hver.1, hver.2.1, hver.2.2.1, hver.2.2.2.1⟩
    have hrec3 : recid ≤ 3 := by
      obtain ⟨_, _, _, _, x', y', _, _, _, e⟩ := hver
      rw [e]; split <;> omega
    refine ⟨bx ++ by', ⟨_, v, signed, hsp, ?_, by omega, by rw [ht, hE.sigOk]; exact hok, hpm, ?_⟩, haddr⟩
    · rw [List.getElem?_append_right (by simp [hr, hs])]
      simp [hr, hs]
    · rw [ht, hE.recoverKey]
      exact (recoverKey_iff _ br bs _ _ hr hs hok (by omega)).2 ⟨d, k, x, y, h, bx, by', g1, g2, g3, g4, g5, g6, rfl, by
        rw [hm, hv]; exact g8⟩

/-- C99: when a login succeeds: a message issued to the address awaits it, a wallet whose private key has that address signed that
text, and the session key is a DER key. -/
theorem C99_login_iff (E : Env) (hE : UsesSecp256k1 E) (h : History) (now : UInt64) (sig addr key nonce : Bytes) :
    (∃ r, (step (stateAfter E h) now (.login sig addr key nonce)).2 = .loggedIn r) ↔
      IsAddress E.keccak addr ∧
      (∃ t text d, Awaits E (trace E h) now addr nonce t text ∧ IsPrivateKey d ∧ WalletSigns E d text sig ∧
        IsAddressOf E (d • generator) addr) ∧ key ≠ [] ∧ E.derOk key = true := by
  rw [C91_success_iff]
  constructor
  · rintro ⟨h1, h2, ⟨t, text, h3, h4⟩, h5⟩
    obtain ⟨d, h6⟩ := (C99_accepted_iff E hE sig text addr h2).1 h4
    exact ⟨h1, ⟨t, text, d, h3, h6⟩, h5⟩
  · rintro ⟨h1, ⟨t, text, d, h3, h6⟩, h5⟩
    have h2 : HexString 130 sig := by
      obtain ⟨_, _, _, _, _, _, _, _, _, _, _, _, _, _, _, h2, _⟩ := h6.2.1
      exact h2
    exact ⟨h1, h2, ⟨t, text, h3, (C99_accepted_iff E hE sig text addr h2).2 ⟨d, h6⟩⟩, h5⟩

/-- C99: a user whose wallet holds the private key of the address, who prepares a sign-in at `t0` and whose wallet signs the returned
text, is signed in at `t1`, before the message expires, whatever other calls `h1` were made in between (none for this address
and nonce); or SHA-256 collides with another call's. -/
theorem C99_wallet_signs_in (E : Env) (hE : UsesSecp256k1 E) (h h1 : History) (t0 t1 : UInt64) (d : Nat) (addr sig key : Bytes)
    (p : PrepareLoginOkResponse) (hd : IsPrivateKey d) (haddr : IsAddressOf E (d • generator) addr)
    (hp : (step (stateAfter E h) t0 (.prepareLogin addr)).2 = .prepared p)
    (hsigns : WalletSigns E d p.siweMessage sig) (hk : key ≠ []) (hder : E.derOk key = true)
    (hm : SameModule (traceFrom (stateAfter E (h ++ [(t0, .prepareLogin addr)])) h1))
    (ho : ∀ e ∈ traceFrom (stateAfter E (h ++ [(t0, .prepareLogin addr)])) h1, ¬e.Concerns addr p.nonce)
    (hfresh : ∀ x ∈ h ++ h1, ∀ sig' addr' nonce', x.2 ≠ .login sig' addr' key nonce') :
    ∃ s, (stateAfter E h).lib.settings = some s ∧
    ((∀ x ∈ h1, x.1.toNat < min (t0.toNat + s.signInExpiresIn.toNat) (2 ^ 64 - 1)) →
      t1.toNat < min (t0.toNat + s.signInExpiresIn.toNat) (2 ^ 64 - 1) →
    (∃ r, (step (stateAfter E (h ++ [(t0, .prepareLogin addr)] ++ h1)) t1 (.login sig addr key p.nonce)).2 = .loggedIn r ∧
      r.expiration.toNat = min (t0.toNat + s.sessionExpiresIn.toNat) (2 ^ 64 - 1)) ∨
    ∃ e ∈ traceFrom (stateAfter E (h ++ [(t0, .prepareLogin addr)])) h1, ∃ addr' nonce', e.Concerns addr' nonce' ∧
      KeyCollision E addr p.nonce addr' nonce') := by
  have hsig := walletSigns_hex hsigns
  obtain ⟨s, hs, H⟩ := C53_sign_in_works E h h1 t0 t1 addr sig key p hp hsig
    ((C99_accepted_iff E hE sig _ addr hsig).2 ⟨d, hd, hsigns, haddr⟩) hk hder hm ho hfresh
  refine ⟨s, hs, fun a b => ?_⟩
  rcases H a b with ⟨r, h1, h2, _⟩ | hc
  · exact .inl ⟨r, h1, h2⟩
  · exact .inr hc

/-- C99: every private key has an address, and its wallet can sign every text. -/
theorem C99_every_key (E : Env) (d : Nat) (hd : IsPrivateKey d) :
    (∃ addr, IsAddress E.keccak addr ∧ IsAddressOf E (d • generator) addr) ∧ ∀ text, ∃ sig, WalletSigns E d text sig := by
  constructor
  · have hQ : d • generator ≠ 0 := by
      rw [Ne, smul_generator_eq_zero_iff]
      exact cast_orderN_ne_zero d (by have := hd.1; omega) hd.2
    rcases hq : d • generator with _ | ⟨x, y, h⟩
    · exact absurd hq hQ
    · obtain ⟨s, a, h1, h2, _⟩ := C02_every_value_spelled E
        ((E.keccak (Secp.beBytes 32 x.val ++ Secp.beBytes 32 y.val)).bytes.drop 12) (by simp [(E.keccak _).len])
      refine ⟨s, (C01_accepted_iff E s).1 ⟨a, h1⟩, x, y, h, _, _, rfl, bytes32_exists (val_lt_256 x), bytes32_exists (val_lt_256 y), ?_⟩
      obtain ⟨bs, h3, _, _, h4⟩ := C02_bytes_exact E s a h1
      rw [h2] at h3
      rw [Res.ok.inj h3]
      exact h4
  · intro text
    obtain ⟨k, r, s, recid, h1, h2, h3⟩ := signs_exists d (bigEndian (E.keccak (eip191Bytes text)).bytes) hd.1 hd.2
    have hQ : d • generator ≠ 0 := by
      rw [Ne, smul_generator_eq_zero_iff]
      exact cast_orderN_ne_zero d (by have := hd.1; omega) hd.2
    obtain ⟨⟨_, hrl, _, hsl, x, y, _, _, _, hv⟩, _⟩ :=
      (verifies_iff_signs _ _ _ _ _ hQ).2 ⟨d, k, hd.1, hd.2, h1, h2, rfl, h3⟩
    have hv3 : recid ≤ 3 := by rw [hv]; split <;> omega
    have b1 := bytes32_exists (Nat.lt_trans hrl orderN_lt)
    have b2 := bytes32_exists (Nat.lt_trans hsl orderN_lt)
    obtain ⟨v, hv27⟩ : ∃ v : UInt8, v.toNat % 27 = recid := ⟨UInt8.ofNat (27 + recid), by rw [UInt8.toNat_ofNat']; omega⟩
    generalize Secp.beBytes 32 r = br at b1
    generalize Secp.beBytes 32 s = bs at b2
    have hsp := hexEncode_spells (br ++ bs ++ [v])
    refine ⟨[48, 120] ++ hexEncode (br ++ bs ++ [v]), k, r, s, recid, _, br, bs, v, h1, h2, personal_self text, h3, b1, b2, hv27,
      ⟨_, rfl, ?_, spells_hex hsp⟩, hsp⟩
    rw [spells_length hsp]; simp [b1.1, b2.1]

/-- C100: the signature of a text determines the private key that made it. -/
theorem C100_one_signer (E : Env) (d d' : Nat) (text sig : Bytes) (hd : IsPrivateKey d)
    (hd' : IsPrivateKey d') (h : WalletSigns E d text sig) (h' : WalletSigns E d' text sig) : d = d' := by
  obtain ⟨k, r, s, recid, signed, br, bs, v, h1, h2, h3, h4, h5, h6, h7, _, h8⟩ := h
  obtain ⟨k', r', s', recid', signed', br', bs', v', g1, g2, g3, g4, g5, g6, g7, _, g8⟩ := h'
  obtain ⟨rfl, rfl, rfl⟩ := parts_unique (spells_unique h8 g8) h5.1 g5.1 h6.1 g6.1
  obtain rfl := (personal_unique h3).trans (personal_unique g3).symm
  rw [← h5.2, ← h6.2, ← h7] at h4
  rw [← g5.2, ← g6.2, ← g7] at g4
  have e := verifies_key_unique _ _ _ _ _ _ (signs_verifies hd h1 h2 h4).1 (signs_verifies hd' g1 g2 g4).1
  rw [smul_generator_eq_iff, ZMod.natCast_eq_natCast_iff', Nat.mod_eq_of_lt hd.2, Nat.mod_eq_of_lt hd'.2] at e
  exact e

/-- C100: so a wallet's signature is accepted for the wallet's own address only. -/
theorem C100_own_address (E : Env) (hE : UsesSecp256k1 E) (d : Nat) (text sig addr : Bytes) (hd : IsPrivateKey d)
    (h : WalletSigns E d text sig) (ha : Signs E sig text addr) : IsAddressOf E (d • generator) addr := by
  obtain ⟨d', h1, h2, h3⟩ := (C99_accepted_iff E hE sig text addr (walletSigns_hex h)).1 ha
  rwa [C100_one_signer E d d' text sig hd h1 h h2]

/-- C100: a wallet's signature is accepted for one text only: if it is accepted for the wallet's address and another text, then the
hashes of the two collide modulo the group order, or another private key both makes the same signature for the other text and has the
same address. -/
theorem C100_one_text (E : Env) (hE : UsesSecp256k1 E) (d : Nat) (text text' sig addr : Bytes) (hd : IsPrivateKey d)
    (haddr : IsAddressOf E (d • generator) addr) (h : WalletSigns E d text sig) (ha : Signs E sig text' addr) :
    text' = text ∨
    (∃ signed signed', IsPersonalMessage text signed ∧ IsPersonalMessage text' signed' ∧ signed ≠ signed' ∧
      bigEndian (E.keccak signed).bytes % orderN = bigEndian (E.keccak signed').bytes % orderN) ∨
    ∃ d', IsPrivateKey d' ∧ d' ≠ d ∧ WalletSigns E d' text' sig ∧ IsAddressOf E (d' • generator) addr := by
  obtain ⟨d', hd', h', haddr'⟩ := (C99_accepted_iff E hE sig text' addr (walletSigns_hex h)).1 ha
  by_cases hdd : d' = d
  · subst hdd
    by_cases ht : text' = text
    · exact .inl ht
    refine .inr (.inl ?_)
    obtain ⟨k, r, s, recid, signed, br, bs, v, h1, h2, h3, h4, h5, h6, h7, _, h8⟩ := h
    obtain ⟨k', r', s', recid', signed', br', bs', v', g1, g2, g3, g4, g5, g6, g7, _, g8⟩ := h'
    obtain ⟨rfl, rfl, rfl⟩ := parts_unique (spells_unique h8 g8) h5.1 g5.1 h6.1 g6.1
    rw [← h5.2, ← h6.2, ← h7] at h4
    rw [← g5.2, ← g6.2, ← g7] at g4
    refine ⟨signed, signed', h3, g3, ?_, verifies_hash_unique _ _ _ _ _ _ (signs_verifies hd h1 h2 h4).1 (signs_verifies hd g1 g2 g4).1⟩
    rintro rfl
    exact ht (C07_spec_injective _ _ _ g3 h3)
  · exact .inr (.inr ⟨d', hd', hdd, h', haddr'⟩)

/-- C100: signatures are not malleable: of `s` and `n - s`, one at most is accepted, whatever text, address and recovery byte. -/
theorem C100_not_malleable (E : Env) (hE : UsesSecp256k1 E) (sig sig' text text' addr addr' br br' bs bs' : Bytes) (v v' : UInt8)
    (hl : br.length = 32 ∧ bs.length = 32 ∧ br'.length = 32 ∧ bs'.length = 32) (hsig : HexString 130 sig) (hsig' : HexString 130 sig')
    (hsp : Spells (sig.drop 2) (br ++ bs ++ [v])) (hsp' : Spells (sig'.drop 2) (br' ++ bs' ++ [v']))
    (hneg : bigEndian bs + bigEndian bs' = orderN) (ha : Signs E sig text addr) : ¬Signs E sig' text' addr' := by
  intro ha'
  obtain ⟨d, hd, h, _⟩ := (C99_accepted_iff E hE sig text addr hsig).1 ha
  obtain ⟨d', hd', h', _⟩ := (C99_accepted_iff E hE sig' text' addr' hsig').1 ha'
  obtain ⟨k, r, s, recid, signed, cr, cs, w, h1, h2, h3, h4, h5, h6, h7, _, h8⟩ := h
  obtain ⟨k', r', s', recid', signed', cr', cs', w', g1, g2, g3, g4, g5, g6, g7, _, g8⟩ := h'
  obtain ⟨rfl, rfl, rfl⟩ := parts_unique (spells_unique hsp h8) hl.1 h5.1 hl.2.1 h6.1
  obtain ⟨rfl, rfl, rfl⟩ := parts_unique (spells_unique hsp' g8) hl.2.2.1 g5.1 hl.2.2.2 g6.1
  have e := (signs_verifies hd h1 h2 h4).2
  have e' := (signs_verifies hd' g1 g2 g4).2
  have hodd : orderN % 2 = 1 := by decide +kernel
  rw [h6.2, g6.2] at hneg
  omega

/-! ### Non-vacuity -/

/-- The example environment with the real signature functions. -/
def Ex.secpEnv : Env := { Toy.env with sigOk := Secp.sigOk, recoverKey := Secp.recoverKey }

theorem Ex.secp : UsesSecp256k1 Ex.secpEnv := ⟨rfl, rfl⟩

/-- The private key of the example. -/
theorem Ex.privateKey : IsPrivateKey 0xdeadbeef := ⟨by decide, by decide +kernel⟩

/-- Non-vacuity of C99 and C100: the owner of a private key gets a message, the wallet signs it, and the login succeeds, so that
the hypotheses of `C99_wallet_signs_in`, `C100_own_address` and `C100_one_text` are met. -/
example : ∃ addr sig p, IsAddressOf Ex.secpEnv (0xdeadbeef • generator) addr ∧
    (step (stateAfter Ex.secpEnv Ex.start) 5 (.prepareLogin addr)).2 = .prepared p ∧
    WalletSigns Ex.secpEnv 0xdeadbeef p.siweMessage sig ∧ Signs Ex.secpEnv sig p.siweMessage addr ∧
    ∃ r, (step (stateAfter Ex.secpEnv (Ex.start ++ [(5, .prepareLogin addr)])) 9 (.login sig addr Ex.key p.nonce)).2 = .loggedIn r := by
  obtain ⟨⟨addr, h1, h2⟩, hall⟩ := C99_every_key Ex.secpEnv _ Ex.privateKey
  obtain ⟨p, hp⟩ := ((C11_reply (stateAfter Ex.secpEnv Ex.start) 5 addr).1.2 ⟨h1, by decide +kernel, by decide +kernel⟩)
  obtain ⟨sig, hs⟩ := hall p.siweMessage
  have hsig := (C99_accepted_iff _ Ex.secp sig p.siweMessage addr (walletSigns_hex hs)).2 ⟨_, Ex.privateKey, hs, h2⟩
  refine ⟨addr, sig, p, h2, hp, hs, hsig, ?_⟩
  obtain ⟨s, e, H⟩ := C99_wallet_signs_in Ex.secpEnv Ex.secp Ex.start [] 5 9 _ addr sig Ex.key p Ex.privateKey h2 hp hs
    (by decide) (by decide +kernel) (fun _ h => nomatch h) (fun _ h => nomatch h) (by simp [Ex.start])
  have hmin : (9 : UInt64).toNat < min ((5 : UInt64).toNat + s.signInExpiresIn.toNat) (2 ^ 64 - 1) := by
    have : (match (stateAfter Ex.secpEnv Ex.start).lib.settings with | some s => decide (100 < s.signInExpiresIn.toNat) | none => false) = true := by
      decide +kernel
    rw [e] at this
    have := of_decide_eq_true this
    have h9 : (9 : UInt64).toNat = 9 := rfl
    omega
  rcases H (fun _ h => nomatch h) hmin with ⟨r, hr, _⟩ | ⟨_, h, _⟩
  · exact ⟨r, by simpa using hr⟩
  · exact nomatch h

/-- Non-vacuity of `C100_not_malleable`: an accepted signature and its twin. -/
example : ∃ sig sig' text addr br bs bs' v, (br.length = 32 ∧ bs.length = 32 ∧ br.length = 32 ∧ bs'.length = 32) ∧ HexString 130 sig ∧
    HexString 130 sig' ∧ Spells (sig.drop 2) (br ++ bs ++ [v]) ∧ Spells (sig'.drop 2) (br ++ bs' ++ [v]) ∧
    bigEndian bs + bigEndian bs' = orderN ∧ Signs Ex.secpEnv sig text addr := by
  obtain ⟨⟨addr, h1, h2⟩, hall⟩ := C99_every_key Ex.secpEnv _ Ex.privateKey
  obtain ⟨sig, hs⟩ := hall [72, 105]
  have hsig := (C99_accepted_iff _ Ex.secp sig [72, 105] addr (walletSigns_hex hs)).2 ⟨_, Ex.privateKey, hs, h2⟩
  obtain ⟨k, r, s, recid, signed, br, bs, v, g1, g2, g3, g4, g5, g6, g7, g8, g9⟩ := hs
  have hle := (signs_verifies Ex.privateKey g1 g2 g4).1.2.2.2.1
  have b := bytes32_exists (n := orderN - s) (Nat.lt_of_le_of_lt (Nat.sub_le _ _) orderN_lt)
  generalize Secp.beBytes 32 (orderN - s) = bs' at b
  have hsp := hexEncode_spells (br ++ bs' ++ [v])
  refine ⟨sig, [48, 120] ++ hexEncode (br ++ bs' ++ [v]), [72, 105], addr, br, bs, bs', v, ⟨g5.1, g6.1, g5.1, b.1⟩, g8,
    ⟨_, rfl, ?_, spells_hex hsp⟩, g9, hsp, ?_, hsig⟩
  · rw [spells_length hsp]; simp [g5.1, b.1]
  · rw [g6.2, b.2]; omega

end Siwe
