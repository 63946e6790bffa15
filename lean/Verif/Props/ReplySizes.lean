import Verif.Props.PrincipalKinds
import Verif.Props.Nonces
import Verif.Props.LoginHistory
import Verif.Props.OneAddress
/-
C138: what a successful call answers is of bounded size, whatever the callers sent before.
-/
namespace Siwe
open Spec

theorem isTimestamp_length {t : Bytes} {c : Civil} (h : IsTimestamp t c) : 20 ≤ t.length ∧ t.length ≤ 30 := by
  obtain ⟨y, mo, d, hh, mi, s, frac, rfl, h1, h2, h3, h4, h5, h6, h7⟩ := h
  have hf : frac.length ≤ 10 := by
    rcases h7 with ⟨rfl, _⟩ | ⟨w, n, ds, rfl, _, hw, hd, _⟩
    · simp
    · have hdot : (ascii ".").length = 1 := by decide +kernel
      simp only [List.length_append, hd.1, hdot]; omega
  have e1 : (ascii "-").length = 1 := by decide +kernel
  have e2 : (ascii "T").length = 1 := by decide +kernel
  have e3 : (ascii ":").length = 1 := by decide +kernel
  have e4 : (ascii "Z").length = 1 := by decide +kernel
  simp only [List.length_append, h1.1, h2.1, h3.1, h4.1, h5.1, h6.1, e1, e2, e3, e4]
  omega

theorem isDecimal_length {n w : Nat} {b : Bytes} (h : IsDecimal n b) (hw : 1 ≤ w) (hn : n < 10 ^ w) : 1 ≤ b.length ∧ b.length ≤ w := by
  refine ⟨?_, ?_⟩
  · exact List.length_pos_iff.mpr h.1
  · rw [isDecimal_unique h (decimal_spec n)]; exact decimal_length_le hw hn

theorem siweText_length {f : Shown} {t : Bytes} (h : IsSiweText f t) (hv : f.version < 10) (hc : f.chainId < 4294967296) :
    f.domain.length + f.address.length + f.statement.length + f.uri.length + f.nonce.length + 160 ≤ t.length ∧
      t.length ≤ f.domain.length + f.address.length + f.statement.length + f.uri.length + f.nonce.length + 189 := by
  obtain ⟨v, c, i, x, h1, h2, ⟨_, h3, _⟩, ⟨_, h4, _⟩, ht⟩ := h
  have ht := congrArg List.length ht
  have a1 := isDecimal_length h1 (w := 1) (by decide) hv
  have a2 := isDecimal_length h2 (w := 10) (by decide) (Nat.lt_of_lt_of_le hc (by decide))
  have a3 := isTimestamp_length h3
  have a4 := isTimestamp_length h4
  have e1 : (ascii " wants you to sign in with your Ethereum account:\n").length = 50 := by decide +kernel
  have e2 : (ascii "\n\n").length = 2 := by decide +kernel
  have e3 : (ascii "URI: ").length = 5 := by decide +kernel
  have e4 : (ascii "\n").length = 1 := by decide +kernel
  have e5 : (ascii "Version: ").length = 9 := by decide +kernel
  have e6 : (ascii "Chain ID: ").length = 10 := by decide +kernel
  have e7 : (ascii "Nonce: ").length = 7 := by decide +kernel
  have e8 : (ascii "Issued At: ").length = 11 := by decide +kernel
  have e9 : (ascii "Expiration Time: ").length = 17 := by decide +kernel
  simp only [List.length_append, e1, e2, e3, e4, e5, e6, e7, e8, e9] at ht
  clear e1 e2 e3 e4 e5 e6 e7 e8 e9 h1 h2 h3 h4 hv hc
  omega

theorem derTlv_short {tag : UInt8} {b : Bytes} (h : b.length < 128) : (derTlv tag b).length = b.length + 2 := by
  simp [derTlv, derLen, h]

theorem userKey_length (E : Env) (seed : Hash) : (createUserCanisterPubkey E.canisterId seed.bytes).length = 52 + E.canisterId.length := by
  have hc := E.canisterId_len
  have ha : (derTlv 0x30 (derTlv 0x06 (oidBody canisterSigOid))).length = 14 := by decide +kernel
  have hk : (0 :: (asU8 E.canisterId.length :: E.canisterId ++ seed.bytes)).length = E.canisterId.length + 34 := by
    simp [seed.len]
  have hb : (derTlv 0x03 (0 :: (asU8 E.canisterId.length :: E.canisterId ++ seed.bytes))).length = E.canisterId.length + 36 := by
    rw [derTlv_short (by rw [hk]; omega), hk]
  show (derTlv 0x30 (derTlv 0x30 (derTlv 0x06 (oidBody canisterSigOid)) ++
    derTlv 0x03 (0 :: (asU8 E.canisterId.length :: E.canisterId ++ seed.bytes)))).length = _
  rw [derTlv_short (by rw [List.length_append, ha, hb]; omega), List.length_append, ha, hb]
  omega

/-- C138: whatever was called before and whatever is asked for, the text `siwe_prepare_login` shows is at most 251 bytes longer than the
domain, the statement and the address of the app together, as they are configured at that time, and its nonce has 20 characters. -/
theorem C138_prepared (E : Env) (h : History) (now : UInt64) (addr : Bytes) (r : PrepareLoginOkResponse)
    (hr : (step (stateAfter E h) now (.prepareLogin addr)).2 = .prepared r) :
    ∃ s p, InForce E (trace E h) s p ∧ r.nonce.length = 20 ∧
      s.domain.length + s.statement.length + s.uri.length + 222 ≤ r.siweMessage.length ∧
      r.siweMessage.length ≤ s.domain.length + s.statement.length + s.uri.length + 251 := by
  have ha := C89_answer E h now addr
  rw [hr] at ha
  cases ha with
  | prepared s p seed since text nonce g1 g2 g3 g4 g5 g6 =>
    have hn : nonce.length = 20 := by
      rw [spells_length g4, show (draw E seed (issuedIn since)).length = 10 from (E.rngFill10 _).1.property]
    have hA : addr.length = 42 := address_length g1
    have hl := siweText_length g6 (by simp) s.chainId.toNat_lt
    simp only [hn, hA] at hl
    exact ⟨s, p, g2, hn, by simp only; omega, by simp only; omega⟩

/-- C138: the public key of a login is 52 bytes longer than the id of the canister, hence at most 81 bytes long, whatever the length of
the session key, the salt, the domain and the address of the app. -/
theorem C138_user_key (E : Env) (h : History) (now : UInt64) (sig addr key nonce : Bytes) (d : LoginDetails)
    (hr : (step (stateAfter E h) now (.login sig addr key nonce)).2 = .loggedIn d) :
    d.userCanisterPubkey.length = 52 + E.canisterId.length ∧ d.userCanisterPubkey.length ≤ 81 := by
  have ha := C91_answer E h now sig addr key nonce
  rw [hr] at ha
  cases ha with
  | success t txt s p seed d _ _ _ _ _ _ _ _ _ hk =>
    have hc := E.canisterId_len
    rw [hk, userKey_length]
    exact ⟨rfl, by omega⟩

/-- C138: an address the canister names has 42 characters and a principal 29 bytes. -/
theorem C138_mapped (E : Env) (h : History) (now : UInt64) (p a : Bytes)
    (hr : (step (stateAfter E h) now (.getAddress p)).2 = .bytes a ∨ (step (stateAfter E h) now (.getCallerAddress p)).2 = .bytes a ∨
      (step (stateAfter E h) now (.getPrincipal a)).2 = .bytes p) : a.length = 42 ∧ p.length = 29 := by
  refine ⟨?_, (C136_only_key_holders E h now p a hr).2⟩
  have hs : SignedInAs E (trace E h) a p := by
    rcases hr with hr | hr | hr
    · exact C43_get_address E h now p a hr
    · exact C43_get_caller_address E h now p a hr
    · exact C43_get_principal E h now a p hr
  obtain ⟨b, e, af, key, nonce, ld, ht, _, hl, _⟩ := hs
  obtain ⟨_, _, hA, _⟩ := login_under (h := h) (ht ▸ List.mem_append_right _ (List.mem_cons_self ..)) hl
  exact address_length hA

/-- Non-vacuity: the example's texts take 29 bytes together, and the chain id one digit of at most ten; its canister's id has 10 bytes. -/
example : (match (step (stateAfter Toy.env Ex.prepared) 151 (.prepareLogin Ex.alice)).2, (stateAfter Toy.env Ex.prepared).lib.settings with
      | .prepared r, some s => (r.siweMessage.length, s.domain.length + s.statement.length + s.uri.length)
      | _, _ => (0, 0)) = (29 + 242, 29) ∧
    (match (step (stateAfter Toy.env Ex.prepared) 100 (.login Ex.aliceSig Ex.alice Ex.key (Ex.nonce 3))).2 with
      | .loggedIn r => r.userCanisterPubkey.length
      | _ => 0) = 52 + 10 ∧
    (step (stateAfter Toy.env Ex.loggedIn) 200 (.getAddress Ex.alicePrincipal)).2 = .bytes Ex.alice := by
  decide +kernel

end Siwe
