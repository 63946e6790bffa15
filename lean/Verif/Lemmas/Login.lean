import Verif.Spec.Trace
import Verif.Lemmas.Prepare
import Verif.Lemmas.HashTree
import Verif.Lemmas.Delegation
import Verif.Props.Message
/- Helper lemmas about `siwe_login`. -/
namespace Siwe
open Spec

/-! ### the store of pending messages -/

/-- One entry per key. -/
def UniqueKeys (m : SiweMessageMap) : Prop := (m.map (·.1)).Nodup

theorem uniqueKeys_nil : UniqueKeys [] := List.nodup_nil

theorem uniqueKeys_filter {m : SiweMessageMap} (h : UniqueKeys m) (p : Hash × SiweMessage → Bool) :
    UniqueKeys (m.filter p) := (List.filter_sublist.map _).nodup h

theorem uniqueKeys_insert {m : SiweMessageMap} (h : UniqueKeys m) (k : Hash) (x : SiweMessage) :
    UniqueKeys ((k, x) :: SiweMessageMap.erase m k) := by
  refine List.nodup_cons.mpr ⟨?_, uniqueKeys_filter h _⟩
  intro hk
  obtain ⟨e, he, hk⟩ := List.mem_map.mp hk
  have := (List.mem_filter.mp he).2
  simp_all

theorem lookup_iff_mem {m : SiweMessageMap} (h : UniqueKeys m) (k : Hash) (x : SiweMessage) :
    m.lookup k = some x ↔ (k, x) ∈ m := by
  induction m with
  | nil => simp
  | cons e m ih =>
    obtain ⟨k', x'⟩ := e
    have hn := List.nodup_cons.mp h
    have ih := ih hn.2
    rw [List.lookup]
    by_cases hk : k = k'
    · subst hk
      simp only [beq_self_eq_true, Option.some.injEq, List.mem_cons, Prod.mk.injEq, true_and]
      constructor
      · rintro rfl; exact .inl rfl
      · rintro (rfl | hm)
        · rfl
        · exact absurd (List.mem_map.mpr ⟨_, hm, rfl⟩) hn.1
    · have : (k == k') = false := by simpa using hk
      rw [this]
      simp [ih, hk]

theorem lookup_filter {m : SiweMessageMap} (h : UniqueKeys m) (p : Hash × SiweMessage → Bool) (k : Hash)
    (x : SiweMessage) : (m.filter p).lookup k = some x ↔ m.lookup k = some x ∧ p (k, x) = true := by
  rw [lookup_iff_mem (uniqueKeys_filter h p), lookup_iff_mem h, List.mem_filter]

theorem lookup_prune {m : SiweMessageMap} (h : UniqueKeys m) (now : UInt64) (k : Hash) (x : SiweMessage) :
    (SiweMessageMap.pruneExpired m now).lookup k = some x ↔
      m.lookup k = some x ∧ now.toNat < x.expirationTime.toNat := by
  unfold SiweMessageMap.pruneExpired
  rw [lookup_filter h]
  simp [UInt64.lt_iff_toNat_lt]

theorem rfc3339_poly {ε ε' : Type} {t : UInt64} {x : Bytes} (h : (rfc3339 t : Res ε Bytes) = .ok x) :
    (rfc3339 t : Res ε' Bytes) = .ok x := by
  have key : ∀ yo s n, (rfc3339Text yo s n : Res ε Bytes) = .ok x → (rfc3339Text yo s n : Res ε' Bytes) = .ok x := by
    intro yo s n h
    unfold rfc3339Text at h ⊢
    split at h
    · cases h
    · next hy => rw [if_neg hy]; exact congrArg Res.ok (Res.ok.inj h)
  unfold rfc3339 at h ⊢
  exact key _ _ _ h

theorem text_poly {ε : Type} (ε' : Type) {m : SiweMessage} {x : Bytes} (h : (m.text : Res ε Bytes) = .ok x) :
    (m.text : Res ε' Bytes) = .ok x := by
  obtain ⟨t1, c1, h1, _⟩ := rfc3339_spec ε m.issuedAt
  obtain ⟨t2, c2, h2, _⟩ := rfc3339_spec ε m.expirationTime
  unfold SiweMessage.text at h ⊢
  rw [h1, h2] at h
  rw [rfc3339_poly h1, rfc3339_poly h2]
  exact congrArg Res.ok (Res.ok.inj h)

/-! ### signatures -/

theorem personal_unique {text x : Bytes} (h : IsPersonalMessage text x) : x = eip191Bytes text := by
  obtain ⟨len, h1, rfl⟩ := h
  rw [isDecimal_unique h1 (decimal_spec _)]; rfl

theorem personal_self (text : Bytes) : IsPersonalMessage text (eip191Bytes text) :=
  ⟨decimal text.length, decimal_spec _, rfl⟩

theorem mod27_gt (v : UInt8) : v % 27 > 3 ↔ v.toNat % 27 > 3 := by
  revert v; apply u8_all; decide +kernel

theorem recover_ok {E : Env} {text sig r : Bytes} (hs : HexString 130 sig) :
    recoverEthAddress E text ⟨sig⟩ = .ok r ↔
      ∃ key, RecoversKey E sig text key ∧ r = addressOf E.keccak ((E.keccak key).bytes.drop 12) := by
  obtain ⟨ds, bs, e, sp, l, g1, g2⟩ := signature_bytes hs
  have hv : bs[64]? = some bs[64] := List.getElem?_eq_getElem (by omega)
  have hdrop : sig.drop 2 = ds := by rw [e]; simp
  rw [recover_eq E text e sp l hv]
  constructor
  · intro h
    split at h
    · cases h
    · next h1 =>
      split at h
      · cases h
      · next h2 =>
        split at h
        · cases h
        · next key hk =>
          cases h
          refine ⟨key, ⟨bs, bs[64], _, hdrop ▸ sp, hv, ?_, by simpa using h2, personal_self _, hk⟩, rfl⟩
          rw [mod27_gt] at h1; omega
  · rintro ⟨key, ⟨bs', v, signed, h1, h2, h3, h4, h5, h6⟩, rfl⟩
    have : bs' = bs := spells_unique (hdrop ▸ h1) sp
    subst this
    rw [hv] at h2; cases h2
    rw [personal_unique h5] at h6
    rw [if_neg (by rw [mod27_gt]; omega), if_neg (by simp [h4]), h6]

theorem recover_err {E : Env} {text sig : Bytes} {er : EthError} (hs : HexString 130 sig) :
    recoverEthAddress E text ⟨sig⟩ = .err er ↔ RecoveryFails E sig text er := by
  obtain ⟨ds, bs, e, sp, l, g1, g2⟩ := signature_bytes hs
  have hv : bs[64]? = some bs[64] := List.getElem?_eq_getElem (by omega)
  have hdrop : sig.drop 2 = ds := by rw [e]; simp
  rw [recover_eq E text e sp l hv]
  constructor
  · intro h
    refine ⟨bs, bs[64], _, hdrop ▸ sp, hv, personal_self _, ?_⟩
    split at h
    · next h1 => left; cases h; exact ⟨(mod27_gt _).mp h1, rfl⟩
    · next h1 =>
      rw [mod27_gt] at h1
      split at h
      · next h2 => right; left; cases h; exact ⟨by omega, h2, rfl⟩
      · next h2 =>
        split at h
        · next h3 => right; right; cases h; exact ⟨by omega, by simpa using h2, h3, rfl⟩
        · cases h
  · rintro ⟨bs', v, signed, h1, h2, h5, h⟩
    have : bs' = bs := spells_unique (hdrop ▸ h1) sp
    subst this
    rw [hv] at h2; cases h2
    rw [personal_unique h5] at h
    rcases h with ⟨h, rfl⟩ | ⟨h, h', rfl⟩ | ⟨h, h', h'', rfl⟩
    · rw [if_pos ((mod27_gt _).mpr h)]
    · rw [if_neg (by rw [mod27_gt]; omega), if_pos h']
    · rw [if_neg (by rw [mod27_gt]; omega), if_neg (by simp [h']), h'']

theorem keccak_tail_length (E : Env) (key : Bytes) : ((E.keccak key).bytes.drop 12).length = 20 := by
  rw [List.length_drop, (E.keccak key).len]

theorem addressOf_iff {E : Env} {addr key : Bytes} (ha : IsAddress E.keccak addr) :
    addressOf E.keccak ((E.keccak key).bytes.drop 12) = addr ↔ Spells (addr.drop 2) ((E.keccak key).bytes.drop 12) := by
  obtain ⟨ads, abs, ae, _, asp, al, _, _⟩ := isAddress_bytes ha
  constructor
  · rintro rfl; exact (addressOf_spec _ (keccak_tail_length E key)).2
  · intro h
    exact addressOf_of_address ha ae (by rw [ae] at h; simpa using h) (keccak_tail_length E key)

theorem check_ok {E : Env} {text sig addr : Bytes} (hs : HexString 130 sig) (ha : IsAddress E.keccak addr) :
    checkSignature E text ⟨sig⟩ ⟨addr⟩ = .ok () ↔ Signs E sig text addr := by
  unfold checkSignature
  constructor
  · intro h
    split at h
    · next r hr =>
      obtain ⟨key, hk, rfl⟩ := (recover_ok hs).mp hr
      split at h
      · cases h
      · next h3 => exact ⟨key, hk, (addressOf_iff ha).mp (by simpa using h3)⟩
    · cases h
    · cases h
  · rintro ⟨key, hk, hsp⟩
    rw [(recover_ok hs).mpr ⟨key, hk, rfl⟩]
    simp [(addressOf_iff ha).mpr hsp]

theorem check_err {E : Env} {text sig addr : Bytes} {e : LoginError} (hs : HexString 130 sig)
    (ha : IsAddress E.keccak addr) : checkSignature E text ⟨sig⟩ ⟨addr⟩ = .err e ↔
      (∃ er, RecoveryFails E sig text er ∧ e = .eth er) ∨
      ((∃ key, RecoversKey E sig text key) ∧ ¬Signs E sig text addr ∧ e = .addressMismatch) := by
  unfold checkSignature
  constructor
  · intro h
    split at h
    · next r hr =>
      obtain ⟨key, hk, rfl⟩ := (recover_ok hs).mp hr
      split at h
      · next h3 =>
        cases h
        refine .inr ⟨⟨key, hk⟩, ?_, rfl⟩
        rintro ⟨key', hk', hsp⟩
        have h' := (recover_ok hs).mpr ⟨key', hk', rfl⟩
        rw [hr] at h'
        simp only [Res.ok.injEq] at h'
        exact h3 (h'.trans ((addressOf_iff ha).mpr hsp))
      · cases h
    · next er hr => cases h; exact .inl ⟨er, (recover_err hs).mp hr, rfl⟩
    · cases h
  · rintro (⟨er, hr, rfl⟩ | ⟨⟨key, hk⟩, hns, rfl⟩)
    · rw [(recover_err hs).mpr hr]
    · rw [(recover_ok hs).mpr ⟨key, hk, rfl⟩]
      simp only
      rw [if_pos]
      intro h
      exact hns ⟨key, hk, (addressOf_iff ha).mp h⟩

theorem check_no_panic {E : Env} {text sig addr : Bytes} (hs : HexString 130 sig) :
    checkSignature E text ⟨sig⟩ ⟨addr⟩ ≠ .panic := by
  obtain ⟨ds, bs, e, sp, l, g1, g2⟩ := signature_bytes hs
  have hv : bs[64]? = some bs[64] := List.getElem?_eq_getElem (by omega)
  unfold checkSignature
  rw [recover_eq E text e sp l hv]
  split
  · split <;> simp
  · simp
  · next h =>
    split at h
    · cases h
    · split at h
      · cases h
      · split at h <;> cases h

/-! ### the outcome of `siwe_login` -/

/-- Storage key of a sign-in. -/
def storeKey (E : Env) (bs nonce : Bytes) : Hash := E.sha256 (pendingKey bs nonce)

/-- The library state once expired messages are removed. -/
def prunedLib {E : Env} (l : LibState E) (now : UInt64) : LibState E :=
  { l with messages := l.messages.pruneExpired now }

/-- ... and the message under `k` is used up. -/
def usedLib {E : Env} (l : LibState E) (now : UInt64) (k : Hash) : LibState E :=
  { l with messages := SiweMessageMap.erase (l.messages.pruneExpired now) k }

/-- The mapping tables after a login. -/
def mappedState {E : Env} (s : State E) (principal bs : Bytes) : State E :=
  { s with
    principalAddress := if s.settings.disablePrincipalToEthMapping then s.principalAddress
      else s.principalAddress.insert principal bs
    addressPrincipal := if s.settings.disableEthToPrincipalMapping then s.addressPrincipal
      else s.addressPrincipal.insert bs principal }

/-- The user's public key and principal. -/
def userKey (E : Env) (s : Settings) (a : EthAddress) : Bytes :=
  createUserCanisterPubkey E.canisterId (generateSeed E s a).bytes
/-- See `userKey`. -/
def userPrincipal (E : Env) (s : Settings) (a : EthAddress) : Bytes := selfAuthenticating E (userKey E s a)

theorem selfAuthenticating_length (E : Env) (k : Bytes) : (selfAuthenticating E k).length = 29 := by
  rw [selfAuthenticating, List.length_append, (E.sha224 k).len]; rfl

/-- Key of the user's signatures in the signature map. -/
def seedKey (E : Env) (s : Settings) (a : EthAddress) : Hash := hashBytes E (generateSeed E s a).bytes

/-- The outcome of a login whose message is found. -/
inductive LoginFound {E : Env} (st : State E) (now : UInt64) (addr sessionKey bs nonce : Bytes) (m : SiweMessage)
    (check : Res LoginError Unit) : State E → Res ProviderError LoginDetails → Prop
  | badSignature (e : LoginError) : check = .err e →
      LoginFound st now addr sessionKey bs nonce m check
        { st with lib := usedLib st.lib now (storeKey E bs nonce) } (.err (.login e))
  | badKey (s : Settings) (n : Nat) (sm : SigMap) (e : DelegationError) : check = .ok () → st.lib.settings = some s →
      (st.sigMap.pruneExpired now maxSigsToPrune : Res LoginError _) = .ok (n, sm) →
      createDelegation E s sessionKey (satAdd m.issuedAt s.sessionExpiresIn) = .err e →
      LoginFound st now addr sessionKey bs nonce m check
        { st with lib := usedLib st.lib now (storeKey E bs nonce), sigMap := sm } (.err (.login (.delegation e)))
  | success (s : Settings) (n : Nat) (sm sm' : SigMap) (d : Delegation) (dh : Hash) : check = .ok () →
      st.lib.settings = some s →
      (st.sigMap.pruneExpired now maxSigsToPrune : Res LoginError _) = .ok (n, sm) →
      createDelegation E s sessionKey (satAdd m.issuedAt s.sessionExpiresIn) = .ok d →
      IsDelegationHash E d dh →
      (sm.put now (seedKey E s ⟨addr⟩) dh : Res LoginError _) = .ok sm' →
      LoginFound st now addr sessionKey bs nonce m check
        (mappedState { st with
            lib := usedLib st.lib now (storeKey E bs nonce)
            sigMap := sm'
            certifiedData := (digest E (certifiedTree sm')).bytes } (userPrincipal E s ⟨addr⟩) bs)
        (.ok ⟨satAdd m.issuedAt s.sessionExpiresIn, userKey E s ⟨addr⟩⟩)

theorem createDelegation_no_panic (E : Env) (s : Settings) (k : Bytes) (e : UInt64) :
    createDelegation E s k e ≠ .panic := by
  unfold createDelegation
  split <;> (try split) <;> (try split) <;> simp

theorem manage_eq {E : Env} (s : State E) (p : Bytes) {addr bs : Bytes}
    (hb : EthAddress.asByteArray ⟨addr⟩ = .ok bs) :
    managePrincipalAddressMappings s p ⟨addr⟩ = .ok (mappedState s p bs) := by
  unfold managePrincipalAddressMappings mappedState
  rw [hb]
  cases h1 : s.settings.disablePrincipalToEthMapping <;> cases h2 : s.settings.disableEthToPrincipalMapping <;>
    simp [h2]

/-- Everything `siwe_login` can do in a well-formed state. -/
theorem siweLogin_cases {E : Env} (st : State E) (hs : st.sigMap.Ok) (hl : st.lib.messages ≠ [] → st.lib.settings ≠ none)
    (now : UInt64) (sig addr key nonce : Bytes) :
    (∃ e, ¬IsAddress E.keccak addr ∧ EthAddress.new E addr = .err e ∧
      siweLogin st now sig addr key nonce = (st, .err (.eth e))) ∨
    (∃ e, IsAddress E.keccak addr ∧ ¬HexString 130 sig ∧ EthSignature.new sig = .err e ∧
      siweLogin st now sig addr key nonce = (st, .err (.eth e))) ∨
    (IsAddress E.keccak addr ∧ HexString 130 sig ∧ ∃ bs, bs.length = 20 ∧ Spells (addr.drop 2) bs ∧
      ((st.lib.messages.pruneExpired now).lookup (storeKey E bs nonce) = none ∧
        siweLogin st now sig addr key nonce = ({ st with lib := prunedLib st.lib now }, .err (.login .messageNotFound)) ∨
      ∃ m txt st' r, (st.lib.messages.pruneExpired now).lookup (storeKey E bs nonce) = some m ∧
        (∀ ε, m.text (ε := ε) = .ok txt) ∧ IsSiweText (shown m) txt ∧
        LoginFound st now addr key bs nonce m (checkSignature E txt ⟨sig⟩ ⟨addr⟩) st' r ∧
        siweLogin st now sig addr key nonce = (st', r))) := by
  cases hn : EthAddress.new E addr with
  | panic => exact absurd hn (ethAddress_new_no_panic E addr)
  | err e =>
    left
    refine ⟨e, fun hA => ?_, rfl, by simp only [siweLogin, hn]⟩
    have := (ethAddress_new_ok_iff E addr ⟨addr⟩).mpr ⟨hA, rfl⟩
    rw [hn] at this; cases this
  | ok a =>
    obtain ⟨hA, ha⟩ := (ethAddress_new_ok_iff E addr a).mp hn
    have : a = ⟨addr⟩ := by cases a; simp_all
    subst this
    right
    cases hg : EthSignature.new sig with
    | panic => exact absurd hg (ethSignature_new_no_panic sig)
    | err e =>
      left
      refine ⟨e, hA, fun hS => ?_, rfl, by simp only [siweLogin, hn, hg]⟩
      have := (ethSignature_new_ok_iff sig ⟨sig⟩).mpr ⟨hS, rfl⟩
      rw [hg] at this; cases this
    | ok g =>
      right
      obtain ⟨hS, hg'⟩ := (ethSignature_new_ok_iff sig g).mp hg
      have : g = ⟨sig⟩ := by cases g; simp_all
      subst this
      obtain ⟨ds, bs, e0, _, sp, hb, hbytes, harr⟩ := isAddress_bytes hA
      refine ⟨hA, hS, bs, hb, by rw [e0]; simpa using sp, ?_⟩
      have hk := mapHash_eq LoginError (E := E) hbytes hb nonce
      have hget : (SiweMessageMap.get E (st.lib.messages.pruneExpired now) ⟨addr⟩ nonce : Res LoginError _) =
          .ok ((st.lib.messages.pruneExpired now).lookup (storeKey E bs nonce)) := by
        simp [SiweMessageMap.get, hk, storeKey]
      have hrem : (SiweMessageMap.remove E (st.lib.messages.pruneExpired now) ⟨addr⟩ nonce : Res LoginError _) =
          .ok (SiweMessageMap.erase (st.lib.messages.pruneExpired now) (storeKey E bs nonce)) := by
        simp [SiweMessageMap.remove, hk, storeKey]
      cases hlk : (st.lib.messages.pruneExpired now).lookup (storeKey E bs nonce) with
      | none =>
        left
        refine ⟨rfl, ?_⟩
        simp only [siweLogin, hn, hg, login, hget, hlk]; rfl
      | some m =>
        right
        obtain ⟨txt, ht, hspec⟩ := message_text_ok LoginError m
        have htext : ∀ ε, m.text (ε := ε) = .ok txt := fun ε => text_poly ε ht
        have hne : st.lib.messages ≠ [] := by
          intro h0
          rw [h0] at hlk
          simp [SiweMessageMap.pruneExpired] at hlk
        obtain ⟨s, hset⟩ := Option.ne_none_iff_exists'.mp (hl hne)
        have hlogin : login st.lib st.sigMap now ⟨sig⟩ ⟨addr⟩ key E.canisterId nonce =
            loginWith (prunedLib st.lib now) st.sigMap now ⟨sig⟩ ⟨addr⟩ key E.canisterId nonce m txt := by
          simp only [login, hget, hlk, ht, Res.elim_ok]; rfl
        obtain ⟨_, sm, hp, hok, _⟩ := SigMap.ok_prune LoginError hs now maxSigsToPrune
        cases hc : checkSignature E txt ⟨sig⟩ ⟨addr⟩ with
        | panic => exact absurd hc (check_no_panic hS)
        | err e =>
          refine ⟨m, txt, _, _, rfl, htext, hspec, .badSignature e hc, ?_⟩
          simp only [siweLogin, hn, hg, hlogin, loginWith, prunedLib, hrem, hc]; rfl
        | ok u =>
          cases hd : createDelegation E s key (satAdd m.issuedAt s.sessionExpiresIn) with
          | panic => exact absurd hd (createDelegation_no_panic _ _ _ _)
          | err e =>
            refine ⟨m, txt, _, _, rfl, htext, hspec, .badKey s _ sm e hc hset hp hd, ?_⟩
            simp only [siweLogin, hn, hg, hlogin, loginWith, prunedLib, hrem, hc, hset, grant, hp, hd, usedLib]
          | ok d =>
            obtain ⟨dh, hdh, hdspec⟩ := delegationHash_ok LoginError E d
            obtain ⟨sm', hput, _⟩ := SigMap.ok_put LoginError hok now (seedKey E s ⟨addr⟩) dh
            refine ⟨m, txt, _, _, rfl, htext, hspec, .success s _ sm sm' d dh hc hset hp hd hdspec hput, ?_⟩
            have hput' : (sm.put now (hashBytes E (generateSeed E s ⟨addr⟩).bytes) dh : Res LoginError _) = .ok sm' := hput
            have hlen := selfAuthenticating_length E (createUserCanisterPubkey E.canisterId (generateSeed E s ⟨addr⟩).bytes)
            simp only [siweLogin, hn, hg, hlogin, loginWith, prunedLib, hrem, hc, hset, grant, hp, hd, hdh, hput']
            rw [if_neg (by rw [hlen]; omega), List.take_of_length_le (by rw [hlen]), manage_eq _ _ harr]
            simp only [digest_certifiedTree, updateRootHash, userKey, userPrincipal, usedLib, hset, labelAssets, labelSig,
              assetsRootHash]

end Siwe
