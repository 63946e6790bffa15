import Verif.Props.Signatures
import Verif.Props.Certificates
import Verif.Props.MappingAnswers
import Verif.Spec.Machine
/-
C94: the canister is a run of the specification machine.
-/
namespace Siwe
open Spec

/-! ### the canister's state as a sheet -/

/-- The value, if there is one. -/
def okOf {ε α : Type} : Res ε α → Option α
  | .ok x => some x
  | _ => none

/-- A stored message as a slip. -/
def slipOf (m : SiweMessage) : Option Slip :=
  (okOf (m.text : Res Empty Bytes)).map fun txt => ⟨txt, m.issuedAt.toNat, m.expirationTime.toNat⟩

theorem slipOf_text {m : SiweMessage} {txt : Bytes} (h : ∀ ε, (m.text : Res ε Bytes) = .ok txt) :
    slipOf m = some ⟨txt, m.issuedAt.toNat, m.expirationTime.toNat⟩ := by
  rw [slipOf, h]; rfl

theorem slipOf_ne_none (m : SiweMessage) : slipOf m ≠ none := by
  obtain ⟨txt, h, _⟩ := C09_text_total Empty m
  rw [slipOf, h]; exact fun h => (nomatch h)

theorem slipOf_expires {m : SiweMessage} {p : Slip} (h : slipOf m = some p) : p.expires = m.expirationTime.toNat := by
  obtain ⟨txt, h', _⟩ := C09_text_total Empty m
  rw [slipOf, h'] at h
  cases h; rfl

/-- The sheet of a state, with these signatures. -/
def sheetOf {E : Env} (st : State E) (m : AbsMap) : Sheet E where
  config := st.lib.settings.map fun s => (s, st.settings)
  random := st.lib.rng
  pending := fun k => (st.lib.messages.lookup k).bind slipOf
  sigs := m
  root := (digest E (certifiedTree st.sigMap)).bytes
  certified := st.certifiedData
  addressOf := fun p => st.principalAddress.lookup p
  principalOf := fun b => st.addressPrincipal.lookup b

/-- What is needed of a state besides the general invariant. -/
structure SheetInv {E : Env} (st : State E) : Prop where
  flags : st.lib.settings = none → st.settings = ⟨false, false⟩
  bytes : ∀ p bs, st.principalAddress.lookup p = some bs → bs.length = 20

theorem whole_of_full {t : HashTree} (h : Full t) : Whole t := by
  induction t with
  | empty => trivial
  | fork l r h1 h2 => exact ⟨h1 h.1, h2 h.2⟩
  | labeled l t h1 => exact h1 h
  | leaf v => trivial
  | pruned h => exact h.elim

theorem commits_of_represents (E : Env) {m : SigMap} {a : AbsMap} (h : Represents m a) :
    Commits E (digest E (certifiedTree m)).bytes a.pairs := by
  have h1 : Whole (certifiedTree m) := whole_of_full (full_certifiedTree m)
  have h2 : ∀ s d, a.pairs s d → Reveals (certifiedTree m) [ascii "sig", s.bytes, d.bytes] [] :=
    fun s d hp => reveals_holds ((h.pairs s d).mpr hp)
  refine ⟨certifiedTree m, h1, rfl, h2, ?_⟩
  intro x y v hr
  obtain ⟨h1, s, d, h2, h3, h4⟩ := reveals_certifiedTree hr
  exact ⟨h1, s, d, h2, h3, (h.pairs s d).mp h4⟩

theorem unexpired_some {E : Env} {a : Sheet E} {now : UInt64} {k : Hash} {p : Slip} (h : a.pending k = some p) :
    a.unexpired now k = if now.toNat < p.expires then some p else none := by
  rw [Sheet.unexpired, h, Option.filter_some]
  simp only [decide_eq_true_eq]

theorem unexpired_none {E : Env} {a : Sheet E} {now : UInt64} {k : Hash} (h : a.pending k = none) : a.unexpired now k = none := by
  rw [Sheet.unexpired, h, Option.filter_none]

theorem sheetOf_pending {E : Env} (st : State E) (m : AbsMap) (k : Hash) :
    (sheetOf st m).pending k = (st.lib.messages.lookup k).bind slipOf := rfl

theorem sheetOf_addressOf {E : Env} (st : State E) (m : AbsMap) (p : Bytes) :
    (sheetOf st m).addressOf p = st.principalAddress.lookup p := rfl

theorem unexpired_sheetOf {E : Env} {st : State E} (hi : Inv st) (m : AbsMap) (now : UInt64) (k : Hash) :
    (sheetOf st m).unexpired now k = ((st.lib.messages.pruneExpired now).lookup k).bind slipOf := by
  cases h1 : st.lib.messages.lookup k with
  | none =>
    have h : (st.lib.messages.pruneExpired now).lookup k = none := by
      rw [Option.eq_none_iff_forall_not_mem]
      intro x hx
      rw [((lookup_prune hi.keys now k x).mp hx).1] at h1; cases h1
    rw [unexpired_none (by rw [sheetOf_pending, h1, Option.bind_none]), h, Option.bind_none]
  | some x =>
    obtain ⟨p, hx⟩ := Option.ne_none_iff_exists'.mp (slipOf_ne_none x)
    rw [unexpired_some (p := p) (by rw [sheetOf_pending, h1, Option.bind_some, hx]), slipOf_expires hx]
    by_cases hn : now.toNat < x.expirationTime.toNat
    · rw [if_pos hn, (lookup_prune hi.keys now k x).mpr ⟨h1, hn⟩, Option.bind_some, hx]
    · have h : (st.lib.messages.pruneExpired now).lookup k = none := by
        rw [Option.eq_none_iff_forall_not_mem]
        intro y hy
        obtain ⟨g1, g2⟩ := (lookup_prune hi.keys now k y).mp hy
        rw [h1] at g1; cases g1
        exact hn g2
      rw [if_neg hn, h, Option.bind_none]

theorem pending_used {E : Env} {st : State E} (hi : Inv st) (m : AbsMap) (now : UInt64) (k : Hash) :
    (fun k' => (List.lookup k' (SiweMessageMap.erase (st.lib.messages.pruneExpired now) k)).bind slipOf) =
      update ((sheetOf st m).unexpired now) k none := by
  funext k'
  unfold update
  by_cases hk : k' = k
  · subst hk; rw [lookup_erase_self, if_pos rfl]; rfl
  · rw [lookup_erase_ne _ hk, if_neg hk, unexpired_sheetOf hi]

theorem config_some {E : Env} {st : State E} {m : AbsMap} {s : Settings} (h : st.lib.settings = some s) :
    (sheetOf st m).config = some (s, st.settings) := by
  simp [sheetOf, h]

theorem config_none {E : Env} {st : State E} {m : AbsMap} : (sheetOf st m).config = none ↔ st.lib.settings = none := by
  simp [sheetOf]

theorem off_iff {E : Env} {st : State E} (hv : SheetInv st) (m : AbsMap) (flag : ProviderSettings → Bool) (hf : flag ⟨false, false⟩ = false) :
    (sheetOf st m).off flag ↔ flag st.settings = true := by
  constructor
  · rintro ⟨s, p, h1, h2⟩
    simp only [sheetOf, Option.map_eq_some_iff, Prod.mk.injEq] at h1
    obtain ⟨_, _, _, rfl⟩ := h1
    exact h2
  · intro h
    cases hs : st.lib.settings with
    | none => rw [hv.flags hs, hf] at h; cases h
    | some s => exact ⟨s, _, config_some hs, h⟩

/-! ### queries -/

theorem fetchReply {E : Env} {st : State E} (hi : Inv st) {m : AbsMap} (hm : Represents st.sigMap m) (now : UInt64) (c : Option Bytes)
    (addr key : Bytes) (expiration : UInt64) :
    FetchReply (sheetOf st m) now addr key expiration c (step st now (.getDelegation c addr key expiration)).2 := by
  have hd := getDelegation_reply hi now c addr key expiration
  generalize hr : (step st now (.getDelegation c addr key expiration)).2 = r at hd ⊢
  cases hd with
  | noCertificate => exact .noCertificate
  | badAddress c e h => exact .badAddress c e h
  | notInstalled c h1 h2 => exact .notInstalled c h1 (config_none.mpr h2)
  | badKey c s e h1 h2 h3 => exact .badKey c s _ e h1 (config_some h2) h3
  | zero c s h1 h2 h3 h4 h5 => exact .zero c s _ h1 (config_some h2) h3 h4 h5
  | expired c s sh dh h1 h2 h3 h4 h5 h6 h7 =>
    obtain ⟨x, e1, e2, e3, e4⟩ := isExpired_entry h7
    exact .expired c s _ sh dh x h1 (config_some h2) h3 h4 h5 h6 (hm.entries.mem_iff.mp e1) e2 e3 e4
  | notFound c s sh dh h1 h2 h3 h4 h5 h6 h7 h8 =>
    refine .notFound c s _ sh dh h1 (config_some h2) h3 h4 h5 h6 (fun g => h8 ((hm.pairs _ _).mpr g)) ?_
    rcases not_isExpired_entry h7 with g | ⟨x, e1, e2⟩
    · exact .inl fun x hx => g x (hm.entries.mem_iff.mpr hx)
    · exact .inr ⟨x, hm.entries.mem_iff.mp e1, e2⟩
  | success c s sh dh w d h1 h2 h3 h4 h5 h6 h7 h8 h9 h10 h11 =>
    obtain ⟨x, e1, e2, e3, e4⟩ := SigMap.exists_of_not_isExpired hi.sigs h8 h7
    exact .success c s _ (generateSeed E s ⟨addr⟩) sh dh x d h1 (config_some h2) h3 h4 h5 (isSeed_generate E s addr) h6
      ((hm.pairs _ _).mp h8) (hm.entries.mem_iff.mp e1) e2 e3 e4 h10
      fun hc data => verifies_of_reply hi hr hc h2 (isSeed_generate E s addr) data

theorem addressReply {E : Env} {st : State E} (hv : SheetInv st) (m : AbsMap) (p : Bytes) :
    AddressReply (sheetOf st m) p (reply .bytes (Siwe.getAddress st p)) := by
  have ho := off_iff hv m (·.disablePrincipalToEthMapping) rfl
  unfold Siwe.getAddress
  cases hd : st.settings.disablePrincipalToEthMapping with
  | true => exact .off (ho.mpr hd)
  | false =>
    have hn : ¬(sheetOf st m).off (·.disablePrincipalToEthMapping) := fun h => by rw [ho.mp h] at hd; cases hd
    simp only [Bool.false_eq_true, if_false]
    by_cases hp : p.length > 29
    · rw [if_pos hp]; exact .tooLong hn hp
    · rw [if_neg hp]
      cases hb : st.principalAddress.lookup p with
      | none => exact .unknown hn (by omega) hb
      | some bs =>
        have hl := hv.bytes p bs hb
        have hs := addressOf_spec E.keccak hl
        simp only [(convert_bytes E (show bs.length ≤ 32 by omega)).1, Res.mapErr_ok, reply]
        exact .known bs _ hn (by omega) hb hs.1 hs.2

theorem principalReply {E : Env} {st : State E} (hv : SheetInv st) (m : AbsMap) (a : Bytes) :
    PrincipalReply (sheetOf st m) a (reply .bytes (Siwe.getPrincipal st a)) := by
  have ho := off_iff hv m (·.disableEthToPrincipalMapping) rfl
  unfold Siwe.getPrincipal
  cases hd : st.settings.disableEthToPrincipalMapping with
  | true => exact .off (ho.mpr hd)
  | false =>
    have hn : ¬(sheetOf st m).off (·.disableEthToPrincipalMapping) := fun h => by rw [ho.mp h] at hd; cases hd
    simp only [Bool.false_eq_true, if_false]
    cases ha : EthAddress.new E a with
    | panic => exact absurd ha (ethAddress_new_no_panic E a)
    | err e =>
      simp only [Res.mapErr_err, Res.err_bind, reply]
      exact .badAddress e hn ((addressError_iff E a e).mp ha)
    | ok x =>
      obtain ⟨hA, ea⟩ := (ethAddress_new_ok_iff E a x).mp ha
      have ea : x = ⟨a⟩ := by cases x; simp at ea; rw [ea]
      subst ea
      obtain ⟨ds, bs, e0, _, sp, _, _, hb⟩ := isAddress_bytes hA
      have sp' : Spells (a.drop 2) bs := by rw [e0]; simpa using sp
      simp only [Res.mapErr_ok, Res.ok_bind, hb, Res.unwrap_ok]
      cases hl : st.addressPrincipal.lookup bs with
      | none => exact .unknown bs hn hA sp' hl
      | some q => exact .known bs q hn hA sp' hl

/-! ### one call -/

theorem sheetOf_pruned {E : Env} {st : State E} (hi : Inv st) (m : AbsMap) (now : UInt64) :
    sheetOf { st with lib := prunedLib st.lib now } m = { sheetOf st m with pending := (sheetOf st m).unexpired now } := by
  rw [show (sheetOf st m).unexpired now = _ from funext (unexpired_sheetOf hi m now)]
  rfl

theorem sheetOf_used {E : Env} {st : State E} (hi : Inv st) (m m' : AbsMap) (now : UInt64) (k : Hash) (sm : SigMap) :
    sheetOf { st with lib := usedLib st.lib now k, sigMap := sm } m' =
      { sheetOf st m with
        pending := update ((sheetOf st m).unexpired now) k none
        sigs := m'
        root := (digest E (certifiedTree sm)).bytes } := by
  rw [← pending_used hi m now k]
  rfl

theorem sheetOf_mapped {E : Env} {st : State E} (hi : Inv st) (m m' : AbsMap) (now : UInt64) (k : Hash) (sm : SigMap) (p bs data : Bytes) :
    sheetOf (mappedState { st with lib := usedLib st.lib now k, sigMap := sm, certifiedData := data } p bs) m' =
      { sheetOf st m with
        pending := update ((sheetOf st m).unexpired now) k none
        sigs := m'
        root := (digest E (certifiedTree sm)).bytes
        certified := data
        addressOf := if st.settings.disablePrincipalToEthMapping then (sheetOf st m).addressOf
          else update (sheetOf st m).addressOf p (some bs)
        principalOf := if st.settings.disableEthToPrincipalMapping then (sheetOf st m).principalOf
          else update (sheetOf st m).principalOf bs (some p) } := by
  rw [← pending_used hi m now k]
  have h1 : (fun q => (if st.settings.disablePrincipalToEthMapping then st.principalAddress else st.principalAddress.insert p bs).lookup q) =
      if st.settings.disablePrincipalToEthMapping then (sheetOf st m).addressOf else update (sheetOf st m).addressOf p (some bs) := by
    split
    · rfl
    · funext q; exact stableMap_lookup_insert _ _ _ _
  have h2 : (fun q => (if st.settings.disableEthToPrincipalMapping then st.addressPrincipal else st.addressPrincipal.insert bs p).lookup q) =
      if st.settings.disableEthToPrincipalMapping then (sheetOf st m).principalOf else update (sheetOf st m).principalOf bs (some p) := by
    split
    · rfl
    · funext q; exact stableMap_lookup_insert _ _ _ _
  rw [← h1, ← h2]
  rfl

theorem lookup_cons_erase (l : SiweMessageMap) (k k' : Hash) (x : SiweMessage) :
    List.lookup k' ((k, x) :: SiweMessageMap.erase l k) = if k' = k then some x else l.lookup k' := by
  rw [List.lookup_cons]
  by_cases hk : k' = k
  · rw [if_pos hk, show (k' == k) = true from beq_iff_eq.mpr hk]
  · rw [if_neg hk, show (k' == k) = false from beq_eq_false_iff_ne.mpr hk]
    exact lookup_erase_ne _ hk

theorem pending_prepared {E : Env} {st : State E} (m : AbsMap) (now : UInt64) (addr bs : Bytes) (g : E.Rng) (s : Settings) (slip : Slip)
    (h : slipOf (SiweMessage.new s now ⟨addr⟩ (nonceOf E g)) = some slip) :
    (fun k => (List.lookup k (preparedLib st.lib g s now ⟨addr⟩ bs).messages).bind slipOf) =
      update (sheetOf st m).pending (storeKey E bs (nonceOf E g)) (some slip) := by
  funext k
  rw [show (preparedLib st.lib g s now ⟨addr⟩ bs).messages = (storeKey E bs (nonceOf E g), SiweMessage.new s now ⟨addr⟩ (nonceOf E g)) ::
    SiweMessageMap.erase st.lib.messages (storeKey E bs (nonceOf E g)) from rfl, lookup_cons_erase]
  unfold update
  split
  · rw [Option.bind_some, h]
  · rw [sheetOf_pending]

theorem sheet_prepared {E : Env} {st : State E} (m : AbsMap) (now : UInt64) (addr bs : Bytes) (g : E.Rng) (s : Settings) (txt : Bytes)
    (h1 : IsAddress E.keccak addr) (h2 : bs.length = 20) (h3 : Spells (addr.drop 2) bs) (h4 : st.lib.rng = some g)
    (h5 : st.lib.settings = some s) (h6 : ∀ ε, (SiweMessage.new s now ⟨addr⟩ (nonceOf E g)).text (ε := ε) = .ok txt)
    (h7 : IsSiweText (shown (SiweMessage.new s now ⟨addr⟩ (nonceOf E g))) txt) :
    SheetStep (sheetOf st m) now (.prepareLogin addr) (sheetOf { st with lib := preparedLib st.lib g s now ⟨addr⟩ bs } m)
      (.prepared ⟨txt, nonceOf E g⟩) := by
  have hslip := slipOf_text h6
  have hp := pending_prepared (st := st) m now addr bs g s _ hslip
  have eq : sheetOf { st with lib := preparedLib st.lib g s now ⟨addr⟩ bs } m =
      { sheetOf st m with
        random := some (E.rngFill10 g).2
        pending := update (sheetOf st m).pending (storeKey E bs (nonceOf E g))
          (some ⟨txt, (SiweMessage.new s now ⟨addr⟩ (nonceOf E g)).issuedAt.toNat,
            (SiweMessage.new s now ⟨addr⟩ (nonceOf E g)).expirationTime.toNat⟩) } := by
    rw [← hp]; rfl
  rw [eq]
  exact .prepare addr g s st.settings _ _ (nonceOf E g) h1 h4 (config_some h5) (hexEncode_spells _)
    (fun c hc => (nonceOf_hex E g c hc).2) ⟨bs, h2, h3, rfl⟩ rfl (satAdd_toNat _ _) h7

theorem sheet_step {E : Env} {st : State E} (hi : Inv st) (hv : SheetInv st) {m : AbsMap} (hm : Represents st.sigMap m) (now : UInt64) (op : Op) :
    ∃ m', SheetStep (sheetOf st m) now op (sheetOf (step st now op).1 m') (step st now op).2 ∧
      Represents (step st now op).1.sigMap m' ∧ SheetInv (step st now op).1 := by
  have hcase := step_case hi now op
  have hin : ∀ i, op = .install i → (step st now op).2 = .trap → ∀ s p, Configures E i s p → ¬ValidSettings E s := by
    rintro i rfl hr s p h1 h2
    rw [(C42_install st _ now i).mpr ⟨s, p, h1, h2, rfl⟩] at hr; cases hr
  have hup : ∀ i, op = .upgrade i → (step st now op).2 = .trap → ∀ s p, Configures E i s p → ¬ValidSettings E s := by
    rintro i rfl hr s p h1 h2
    rw [(C42_upgrade st _ now i).mpr ⟨s, p, h1, h2, rfl⟩] at hr; cases hr
  have hprep : ∀ addr e, op = .prepareLogin addr → ¬IsAddress E.keccak addr → (step st now op).2 = .err (.eth e) →
      AddressError E.keccak addr e := by
    rintro addr e rfl hA hr
    simp only [step] at hr
    cases hn : EthAddress.new E addr with
    | panic => exact absurd hn (ethAddress_new_no_panic E addr)
    | err e' =>
      have : siwePrepareLogin st now addr = (st, .err (.eth e')) := by simp only [siwePrepareLogin, hn]
      rw [this] at hr
      have hr : e' = e := ProviderError.eth.inj (Reply.err.inj hr)
      rw [← hr]; exact (addressError_iff E addr e').mp hn
    | ok x => exact absurd ((ethAddress_new_ok_iff E addr x).mp hn).1 hA
  have hget : ∀ c a k e, op = .getDelegation c a k e → FetchReply (sheetOf st m) now a k e c (step st now op).2 := by
    rintro c a k e rfl; exact fetchReply hi hm now c a k e
  generalize (step st now op).1 = st' at hcase ⊢
  generalize (step st now op).2 = r at hcase hin hup hprep hget ⊢
  cases hcase with
  | installed i s p h1 h2 =>
    refine ⟨.empty, ?_, SigMap.represents_empty, ⟨fun h => (nomatch h), fun p bs h => (nomatch h)⟩⟩
    exact .install i s p _ h1 h2 (commits_of_represents E SigMap.represents_empty)
  | upgraded i s p h1 h2 =>
    refine ⟨.empty, ?_, SigMap.represents_empty, ⟨fun h => (nomatch h), hv.bytes⟩⟩
    exact .upgrade i s p _ h1 h2 (commits_of_represents E SigMap.represents_empty)
  | notInstalled i => exact ⟨m, .refusedInstall i (hin i rfl rfl), hm, hv⟩
  | notUpgraded i => exact ⟨m, .refusedUpgrade i (hup i rfl rfl), hm, hv⟩
  | seeded seed => exact ⟨m, .random seed, hm, ⟨hv.flags, hv.bytes⟩⟩
  | badPrepare addr e h1 => exact ⟨m, .prepareBadAddress addr e (hprep addr e rfl h1 rfl), hm, hv⟩
  | notReady addr h1 h2 => exact ⟨m, .prepareNotReady addr h1 (h2.imp id config_none.mpr), hm, hv⟩
  | prepared addr bs g s txt h1 h2 h3 h4 h5 h6 h7 =>
    exact ⟨m, sheet_prepared m now addr bs g s txt h1 h2 h3 h4 h5 h6 h7, hm, ⟨hv.flags, hv.bytes⟩⟩
  | badAddress sig addr key nonce e h1 h2 => exact ⟨m, .loginBadAddress _ _ _ _ e ((addressError_iff E addr e).mp h2), hm, hv⟩
  | badSignature sig addr key nonce e h1 h2 h3 => exact ⟨m, .loginBadSignature _ _ _ _ e h1 ((signatureError_iff sig e).mp h3), hm, hv⟩
  | notFound sig addr key nonce bs h1 h2 h3 h4 h5 =>
    refine ⟨m, ?_, hm, ⟨hv.flags, hv.bytes⟩⟩
    rw [show sheetOf { st with lib := prunedLib st.lib now } m = _ from sheetOf_pruned hi m now]
    exact .loginNotFound sig addr key nonce (storeKey E bs nonce) h1 h2 ⟨bs, h3, h4, rfl⟩ (by rw [unexpired_sheetOf hi, h5, Option.bind_none])
  | found sig addr key nonce bs x txt st'' r' h1 h2 h3 h4 h5 h6 h7 hf =>
    have hslot : IsSlot E addr nonce (storeKey E bs nonce) := ⟨bs, h3, h4, rfl⟩
    have hslip : (sheetOf st m).unexpired now (storeKey E bs nonce) = some ⟨txt, x.issuedAt.toNat, x.expirationTime.toNat⟩ := by
      rw [unexpired_sheetOf hi, h5, Option.bind_some]; exact slipOf_text h6
    cases hf with
    | badSignature e hc =>
      refine ⟨m, ?_, hm, ⟨hv.flags, hv.bytes⟩⟩
      rw [show sheetOf { st with lib := usedLib st.lib now (storeKey E bs nonce) } m = _ from sheetOf_used hi m m now _ st.sigMap]
      rcases (check_err h2 h1).mp hc with ⟨er, hr, rfl⟩ | ⟨⟨pub, hr⟩, hns, rfl⟩
      · exact .loginNoKey sig addr key nonce _ _ er h1 h2 hslot hslip hr
      · exact .loginOtherSigner sig addr key nonce _ _ pub h1 h2 hslot hslip hr hns
    | badKey s n sm e hc hs hp hd =>
      obtain ⟨removed, sm1, g1, _, g3, g4⟩ := SigMap.ok_prune LoginError hi.sigs now maxSigsToPrune
      have hp0 := hp
      rw [hp] at g1; cases g1
      have hrep : Represents sm ⟨fun s d => m.pairs s d ∧ ∀ e ∈ removed, ¬(e.seedHash = s ∧ e.delegationHash = d), sm.expirationQueue⟩ :=
        ⟨fun s' d' => by rw [g4, hm.pairs], .refl _⟩
      refine ⟨_, ?_, hrep, ⟨hv.flags, hv.bytes⟩⟩
      have hke : KeyError E key e := by
        rcases (C26_errors E s key _ e).mp hd with ⟨g1, rfl⟩ | ⟨g1, g2, rfl⟩ | ⟨g1, g2, g3, rfl⟩
        · exact .empty g1
        · exact .notDer g1 g2
        · exact absurd g3 (satAdd_ne_zero (session_ne_zero (hi.valid s hs)))
      rw [sheetOf_used hi m]
      exact SheetStep.loginBadKey (a := sheetOf st m) (now := now) sig addr key nonce _ _ _ (digest E (certifiedTree sm)).bytes e h1 h2
        hslot hslip ((check_ok h2 h1).mp hc) hke (.prune m now 10 removed sm.expirationQueue { g3 with split := hm.entries.symm.trans g3.split })
        (commits_of_represents E hrep)
        (by
          intro hall
          have := prune_nothing LoginError maxSigsToPrune (m := st.sigMap) (now := now) fun x hx => hall x (hm.entries.mem_iff.mp hx)
          rw [hp0] at this
          rw [(Prod.mk.inj (Res.ok.inj this)).2]; rfl)
    | success s n sm sm' d dh hc hs hp hd hdh hput =>
      obtain ⟨removed, sm1, g1, g2, g3, g4⟩ := SigMap.ok_prune LoginError hi.sigs now maxSigsToPrune
      rw [hp] at g1; cases g1
      obtain ⟨sm2, f1, f2, f3, f4⟩ := SigMap.ok_put LoginError g2 now (seedKey E s ⟨addr⟩) dh
      rw [hput] at f1; cases f1
      obtain ⟨k1, k2, k3, rfl⟩ := (C26_create E s key _ d).mp hd
      have hrep : Represents sm' ⟨fun s' d' => (s' = seedKey E s ⟨addr⟩ ∧ d' = dh) ∨
          (m.pairs s' d' ∧ ∀ e ∈ removed, ¬(e.seedHash = s' ∧ e.delegationHash = d')),
          ⟨seedKey E s ⟨addr⟩, dh, satAdd now delegationSignatureExpiresAt⟩ :: sm.expirationQueue⟩ :=
        ⟨fun s' d' => by rw [f4, g4, hm.pairs], by rw [f3]; exact heapPush_perm _ _⟩
      refine ⟨_, ?_, hrep, ⟨fun h => absurd (hs.symm.trans h) (fun h => (nomatch h)), ?_⟩⟩
      · rw [sheetOf_mapped hi m]
        exact .login sig addr key nonce bs _ _ s st.settings (generateSeed E s ⟨addr⟩) (seedKey E s ⟨addr⟩) dh _ _ _ _ _ h1 h2 hslot hslip
          ((check_ok h2 h1).mp hc) k1 k2 (config_some hs) (satAdd_toNat _ _) (isSeed_generate E s addr) (isEntry_seedKey hdh) rfl h4
          (.prune m now 10 removed sm.expirationQueue { g3 with split := hm.entries.symm.trans g3.split })
          (.put _ now _ _ _ (SigMap.isExpiryOf_satAdd now)) (commits_of_represents E hrep)
      · intro p b hb
        rcases ite_eq_or_eq (st.settings.disablePrincipalToEthMapping = true) st.principalAddress
          (st.principalAddress.insert (userPrincipal E s ⟨addr⟩) bs) with hh | hh
        · exact hv.bytes p b (by rw [← hh]; exact hb)
        · have hb : (st.principalAddress.insert (userPrincipal E s ⟨addr⟩) bs).lookup p = some b := by rw [← hh]; exact hb
          rw [stableMap_lookup_insert] at hb
          split at hb
          · cases hb; exact h3
          · exact hv.bytes p b hb
  | getDelegation c a k e => exact ⟨m, .fetch c a k e _ (hget c a k e rfl), hm, hv⟩
  | getAddress p => exact ⟨m, .address p _ (addressReply hv m p), hm, hv⟩
  | getCallerAddress p =>
    refine ⟨m, .callerAddress p _ ?_, hm, hv⟩
    unfold Siwe.getCallerAddress
    split
    · next hd => exact .off ((off_iff hv m (·.disablePrincipalToEthMapping) rfl).mpr hd)
    · exact addressReply hv m p
  | getPrincipal p => exact ⟨m, .principal p _ (principalReply hv m p), hm, hv⟩

theorem sheetInv_fresh (E : Env) : SheetInv (State.fresh E) := ⟨fun _ => rfl, fun _ _ h => (nomatch h)⟩

theorem sheet_run (E : Env) (h : History) :
    ∃ m, SheetRun E (trace E h) (sheetOf (stateAfter E h) m) ∧ Represents (stateAfter E h).sigMap m ∧ SheetInv (stateAfter E h) := by
  induction h using history_induction with
  | nil => exact ⟨.empty, .start _ (commits_of_represents E SigMap.represents_empty), SigMap.represents_empty, sheetInv_fresh E⟩
  | snoc h now op ih =>
    obtain ⟨m, h1, h2, h3⟩ := ih
    obtain ⟨m', g1, g2, g3⟩ := sheet_step (inv_stateAfter E h) h3 h2 now op
    rw [show stateAfter E (h ++ [(now, op)]) = (step (stateAfter E h) now op).1 from run_snoc _ _ _ _,
      show trace E (h ++ [(now, op)]) = _ from traceFrom_snoc _ _ _ _]
    exact ⟨m', .step h1 g1, g2, g3⟩

/-- C94: whatever calls the canister has answered, the specification machine allows these answers in this order, and ends up with the
certified data of the canister. -/
theorem C94_refines (E : Env) (h : History) :
    ∃ a, SheetRun E (trace E h) a ∧ a.certified = (stateAfter E h).certifiedData := by
  obtain ⟨m, h1, _⟩ := sheet_run E h
  exact ⟨_, h1, rfl⟩

/-! ### the machine leaves no choice -/

theorem alike_refl {E : Env} (a : Sheet E) : Alike a a := ⟨rfl, rfl, rfl, rfl, rfl⟩

theorem isSlot_unique {E : Env} {addr nonce : Bytes} {k k' : Hash} (h : IsSlot E addr nonce k) (h' : IsSlot E addr nonce k') : k = k' := by
  obtain ⟨bs, _, h1, rfl⟩ := h
  obtain ⟨bs', _, h1', rfl⟩ := h'
  rw [spells_unique h1 h1']

theorem alike_unexpired {E : Env} {a b : Sheet E} (h : Alike a b) (now : UInt64) : a.unexpired now = b.unexpired now := by
  funext k; rw [Sheet.unexpired, Sheet.unexpired, h.pending]

theorem update_none {β : Type} {f : Hash → Option β} {k : Hash} (h : f k = none) : update f k none = f := by
  funext k'
  unfold update
  split
  · next hk => rw [hk, h]
  · rfl

/-- What a login does to the sheet, as told by its answer. -/
structure LoginEffect {E : Env} (a : Sheet E) (now : UInt64) (addr nonce : Bytes) (b : Sheet E) (r : Reply) : Prop where
  config : b.config = a.config
  random : b.random = a.random
  pending : ((∃ e, r = .err (.eth e)) ∧ b.pending = a.pending) ∨
    ((∀ e, r ≠ .err (.eth e)) ∧ ∃ k, IsSlot E addr nonce k ∧ b.pending = update (a.unexpired now) k none)
  other : (∀ d, r ≠ .loggedIn d) → b.addressOf = a.addressOf ∧ b.principalOf = a.principalOf
  mapped : ∀ d, r = .loggedIn d → ∃ s p bs, a.config = some (s, p) ∧ Spells (addr.drop 2) bs ∧
    b.addressOf = (if p.disablePrincipalToEthMapping then a.addressOf else update a.addressOf (principalOfKey E d.userCanisterPubkey) (some bs)) ∧
    b.principalOf = (if p.disableEthToPrincipalMapping then a.principalOf else update a.principalOf bs (some (principalOfKey E d.userCanisterPubkey)))

theorem login_effect {E : Env} {a b : Sheet E} {now : UInt64} {sig addr key nonce : Bytes} {r : Reply}
    (h : SheetStep a now (.login sig addr key nonce) b r) : LoginEffect a now addr nonce b r := by
  cases h with
  | loginBadAddress _ _ _ _ e h1 => exact ⟨rfl, rfl, .inl ⟨⟨e, rfl⟩, rfl⟩, fun _ => ⟨rfl, rfl⟩, fun d h => (nomatch h)⟩
  | loginBadSignature _ _ _ _ e h1 h2 => exact ⟨rfl, rfl, .inl ⟨⟨e, rfl⟩, rfl⟩, fun _ => ⟨rfl, rfl⟩, fun d h => (nomatch h)⟩
  | loginNotFound _ _ _ _ k h1 h2 h3 h4 =>
    exact ⟨rfl, rfl, .inr ⟨fun e h => (nomatch h), k, h3, (update_none h4).symm⟩, fun _ => ⟨rfl, rfl⟩, fun d h => (nomatch h)⟩
  | loginNoKey _ _ _ _ k slip e h1 h2 h3 h4 h5 =>
    exact ⟨rfl, rfl, .inr ⟨fun e h => (nomatch h), k, h3, rfl⟩, fun _ => ⟨rfl, rfl⟩, fun d h => (nomatch h)⟩
  | loginOtherSigner _ _ _ _ k slip pub h1 h2 h3 h4 h5 h6 =>
    exact ⟨rfl, rfl, .inr ⟨fun e h => (nomatch h), k, h3, rfl⟩, fun _ => ⟨rfl, rfl⟩, fun d h => (nomatch h)⟩
  | loginBadKey _ _ _ _ k slip sigs root e h1 h2 h3 =>
    exact ⟨rfl, rfl, .inr ⟨fun e h => (nomatch h), k, h3, rfl⟩, fun _ => ⟨rfl, rfl⟩, fun d h => (nomatch h)⟩
  | login _ _ _ _ bs k slip s p seed sh dh ex pruned sigs root pub h1 h2 h3 h4 h5 h6 h7 h8 h9 h10 h11 h12 h13 =>
    refine ⟨rfl, rfl, .inr ⟨fun e h => (nomatch h), k, h3, rfl⟩, fun h => absurd rfl (h _), fun d h => ?_⟩
    cases h
    exact ⟨s, p, bs, h8, h13, rfl, rfl⟩

/-- Two sheets that are alike stay alike when the same call is answered in the same way. -/
theorem alike_step {E : Env} {a a' b b' : Sheet E} (hab : Alike a a') {now : UInt64} {op : Op} {r : Reply} (h : SheetStep a now op b r)
    (h' : SheetStep a' now op b' r) : Alike b b' := by
  cases op with
  | install i =>
    cases h with
    | install _ s p root h1 h2 h3 =>
      cases h' with
      | install _ s' p' root' g1 g2 g3 =>
        obtain ⟨rfl, rfl⟩ := configures_unique h1 g1
        exact ⟨rfl, rfl, rfl, rfl, rfl⟩
    | refusedInstall _ h1 => cases h' with
      | refusedInstall _ h1 => exact hab
  | upgrade i =>
    cases h with
    | upgrade _ s p root h1 h2 h3 =>
      cases h' with
      | upgrade _ s' p' root' g1 g2 g3 =>
        obtain ⟨rfl, rfl⟩ := configures_unique h1 g1
        exact ⟨rfl, rfl, rfl, hab.addressOf, hab.principalOf⟩
    | refusedUpgrade _ h1 => cases h' with
      | refusedUpgrade _ h1 => exact hab
  | rngSeeded seed =>
    cases h; cases h'
    exact ⟨hab.config, rfl, hab.pending, hab.addressOf, hab.principalOf⟩
  | prepareLogin addr =>
    cases h with
    | prepareBadAddress _ e h1 => cases h' with
      | prepareBadAddress _ e g1 => exact hab
    | prepareNotReady _ h1 h2 => cases h' with
      | prepareNotReady _ g1 g2 => exact hab
    | prepare _ g s p k slip nonce h1 h2 h3 h4 h5 h6 h7 h8 h9 =>
      generalize hr : Reply.prepared ⟨slip.text, nonce⟩ = r at h'
      cases h' with
      | prepareBadAddress _ e g1 => cases hr
      | prepareNotReady _ g1 g2 => cases hr
      | prepare _ g' s' p' k' slip' nonce' g1 g2 g3 g4 g5 g6 g7 g8 g9 =>
        have hr := Reply.prepared.inj hr
        have e1 : slip.text = slip'.text := congrArg (·.siweMessage) hr
        have e2 : nonce = nonce' := congrArg (·.nonce) hr
        subst e2
        have := hab.config; rw [h3, g3] at this; cases this
        have := hab.random; rw [h2, g2] at this; cases this
        have := isSlot_unique h6 g6; subst this
        have : slip = slip' := by
          cases slip; cases slip'; simp only [Slip.mk.injEq]; exact ⟨e1, h7.trans g7.symm, h8.trans g8.symm⟩
        subst this
        exact ⟨hab.config, rfl, by rw [hab.pending], hab.addressOf, hab.principalOf⟩
  | login sig addr key nonce =>
    have l := login_effect h
    have l' := login_effect h'
    have hp : b.pending = b'.pending := by
      rcases l.pending with ⟨⟨e, h1⟩, h2⟩ | ⟨h1, k, h2, h3⟩ <;> rcases l'.pending with ⟨⟨e', g1⟩, g2⟩ | ⟨g1, k', g2, g3⟩
      · rw [h2, g2, hab.pending]
      · exact absurd h1 (g1 e)
      · exact absurd g1 (h1 e')
      · rw [h3, g3, isSlot_unique h2 g2, alike_unexpired hab]
    by_cases hd : ∃ d, r = .loggedIn d
    · obtain ⟨d, hd⟩ := hd
      obtain ⟨s, p, bs, h1, h2, h3, h4⟩ := l.mapped d hd
      obtain ⟨s', p', bs', g1, g2, g3, g4⟩ := l'.mapped d hd
      have := hab.config; rw [h1, g1] at this; cases this
      have := spells_unique h2 g2; subst this
      exact ⟨by rw [l.config, l'.config, hab.config], by rw [l.random, l'.random, hab.random], hp, by rw [h3, g3, hab.addressOf],
        by rw [h4, g4, hab.principalOf]⟩
    · have hn : ∀ d, r ≠ .loggedIn d := fun d h => hd ⟨d, h⟩
      exact ⟨by rw [l.config, l'.config, hab.config], by rw [l.random, l'.random, hab.random], hp,
        by rw [(l.other hn).1, (l'.other hn).1, hab.addressOf], by rw [(l.other hn).2, (l'.other hn).2, hab.principalOf]⟩
  | getDelegation c x y z => cases h; cases h'; exact hab
  | getAddress p => cases h; cases h'; exact hab
  | getCallerAddress p => cases h; cases h'; exact hab
  | getPrincipal p => cases h; cases h'; exact hab

theorem sheetRun_snoc {E : Env} {es : List Event} {e : Event} {b : Sheet E} (h : SheetRun E (es ++ [e]) b) :
    ∃ a, SheetRun E es a ∧ SheetStep a e.time e.call b e.reply := by
  generalize hx : es ++ [e] = l at h
  cases h with
  | start => simp at hx
  | @step es' e' a _ h1 h2 =>
    obtain ⟨rfl, h3⟩ := List.append_inj' hx rfl
    cases h3
    exact ⟨a, h1, h2⟩

theorem sheetRun_alike {E : Env} (h : History) {a b : Sheet E} (ha : SheetRun E (trace E h) a) (hb : SheetRun E (trace E h) b) : Alike a b := by
  induction h using history_induction generalizing a b with
  | nil =>
    have nil : ∀ es a, SheetRun E es a → es = [] → ∃ root, a = .blank E root := by
      intro es a h he
      cases h with
      | start root => exact ⟨root, rfl⟩
      | step => simp at he
    obtain ⟨x, rfl⟩ := nil _ _ ha rfl
    obtain ⟨y, rfl⟩ := nil _ _ hb rfl
    exact ⟨rfl, rfl, rfl, rfl, rfl⟩
  | snoc h now op ih =>
    rw [show trace E (h ++ [(now, op)]) = _ from traceFrom_snoc _ _ _ _] at ha hb
    obtain ⟨a0, h1, h2⟩ := sheetRun_snoc ha
    obtain ⟨b0, g1, g2⟩ := sheetRun_snoc hb
    exact alike_step (ih h1 g1) h2 g2

theorem addressReply_unique {E : Env} {a a' : Sheet E} (hab : Alike a a') {p : Bytes} {r r' : Reply} (h : AddressReply a p r)
    (h' : AddressReply a' p r') : r = r' := by
  have ho : a.off (·.disablePrincipalToEthMapping) ↔ a'.off (·.disablePrincipalToEthMapping) := by
    unfold Sheet.off; rw [hab.config]
  have hA := hab.addressOf
  cases h with
  | off h1 => cases h' with
    | off => rfl
    | tooLong g1 => exact absurd (ho.mp h1) g1
    | unknown g1 => exact absurd (ho.mp h1) g1
    | known _ _ g1 => exact absurd (ho.mp h1) g1
  | tooLong h1 h2 => cases h' with
    | off g1 => exact absurd (ho.mpr g1) h1
    | tooLong => rfl
    | unknown _ g2 => omega
    | known _ _ _ g2 => omega
  | unknown h1 h2 h3 => cases h' with
    | off g1 => exact absurd (ho.mpr g1) h1
    | tooLong _ g2 => omega
    | unknown => rfl
    | known _ _ _ _ g3 => rw [hA, g3] at h3; cases h3
  | known bs addr h1 h2 h3 h4 h5 => cases h' with
    | off g1 => exact absurd (ho.mpr g1) h1
    | tooLong _ g2 => omega
    | unknown _ _ g3 => rw [hA, g3] at h3; cases h3
    | known bs' addr' _ _ g3 g4 g5 =>
      rw [hA, g3] at h3; cases h3
      rw [addr_of_bytes h4 g4 h5 g5]

theorem principalReply_unique {E : Env} {a a' : Sheet E} (hab : Alike a a') {addr : Bytes} {r r' : Reply} (h : PrincipalReply a addr r)
    (h' : PrincipalReply a' addr r') : r = r' := by
  have ho : a.off (·.disableEthToPrincipalMapping) ↔ a'.off (·.disableEthToPrincipalMapping) := by
    unfold Sheet.off; rw [hab.config]
  have hA := hab.principalOf
  cases h with
  | off h1 => cases h' with
    | off => rfl
    | badAddress _ g1 => exact absurd (ho.mp h1) g1
    | unknown _ g1 => exact absurd (ho.mp h1) g1
    | known _ _ g1 => exact absurd (ho.mp h1) g1
  | badAddress e h1 h2 => cases h' with
    | off g1 => exact absurd (ho.mpr g1) h1
    | badAddress e' _ g2 =>
      have := (addressError_iff E addr e).mpr h2
      rw [(addressError_iff E addr e').mpr g2] at this; cases this; rfl
    | unknown _ _ g2 => exact absurd g2 (isAddress_not_error h2)
    | known _ _ _ g2 => exact absurd g2 (isAddress_not_error h2)
  | unknown bs h1 h2 h3 h4 => cases h' with
    | off g1 => exact absurd (ho.mpr g1) h1
    | badAddress _ _ g2 => exact absurd h2 (isAddress_not_error g2)
    | unknown => rfl
    | known bs' p g1 g2 g3 g4 => rw [hA, spells_unique h3 g3, g4] at h4; cases h4
  | known bs p h1 h2 h3 h4 => cases h' with
    | off g1 => exact absurd (ho.mpr g1) h1
    | badAddress _ _ g2 => exact absurd h2 (isAddress_not_error g2)
    | unknown _ _ _ g3 g4 => rw [hA, spells_unique h3 g3, g4] at h4; cases h4
    | known bs' p' g1 g2 g3 g4 => rw [hA, spells_unique h3 g3, g4] at h4; cases h4; rfl

theorem loginReply_of_sheet {E : Env} {st : State E} (hi : Inv st) {m : AbsMap} {a b : Sheet E} (hab : Alike a (sheetOf st m)) {now : UInt64}
    {sig addr key nonce : Bytes} {r : Reply} (h : SheetStep a now (.login sig addr key nonce) b r) : LoginReply st now sig addr key nonce r := by
  have usable : ∀ k slip, IsSlot E addr nonce k → a.unexpired now k = some slip →
      ∃ x, Usable st now addr nonce x slip.text ∧ slip.issuedAt = x.issuedAt.toNat := by
    rintro k slip ⟨bs, h1, h2, rfl⟩ h3
    rw [alike_unexpired hab, unexpired_sheetOf hi] at h3
    obtain ⟨x, h4, h5⟩ := Option.bind_eq_some_iff.mp h3
    obtain ⟨g1, g2⟩ := (lookup_prune hi.keys now _ x).mp h4
    obtain ⟨txt, t1, _⟩ := C09_text_total Empty x
    have := slipOf_text fun ε => text_poly ε t1
    rw [h5] at this
    have := Option.some.inj this
    subst this
    exact ⟨x, ⟨(pending_iff h1 h2).mpr g1, g2, t1⟩, rfl⟩
  cases h with
  | loginBadAddress _ _ _ _ e h1 => exact .badAddress e h1
  | loginBadSignature _ _ _ _ e h1 h2 => exact .badSignature e h1 h2
  | loginNotFound _ _ _ _ k h1 h2 h3 h4 =>
    refine .notFound h1 h2 ?_
    rintro ⟨x, txt, hp, hlt, _⟩
    obtain ⟨bs, g1, g2, rfl⟩ := h3
    rw [alike_unexpired hab, unexpired_sheetOf hi, show E.sha256 (pendingKey bs nonce) = storeKey E bs nonce from rfl,
      (lookup_prune hi.keys now _ x).mpr ⟨(pending_iff g1 g2).mp hp, hlt⟩, Option.bind_some] at h4
    exact slipOf_ne_none x h4
  | loginNoKey _ _ _ _ k slip e h1 h2 h3 h4 h5 =>
    obtain ⟨x, u, _⟩ := usable k slip h3 h4
    exact .unrecoverable x slip.text e h1 h2 u h5
  | loginOtherSigner _ _ _ _ k slip pub h1 h2 h3 h4 h5 h6 =>
    obtain ⟨x, u, _⟩ := usable k slip h3 h4
    exact .otherSigner x slip.text pub h1 h2 u h5 h6
  | loginBadKey _ _ _ _ k slip sigs root e h1 h2 h3 h4 h5 h6 =>
    obtain ⟨x, u, _⟩ := usable k slip h3 h4
    exact .badKey x slip.text e h1 h2 u h5 h6
  | login _ _ _ _ bs k slip s p seed sh dh ex pruned sigs root pub h1 h2 h3 h4 h5 h6 h7 h8 h9 h10 h11 h12 h13 =>
    obtain ⟨x, u, hx⟩ := usable k slip h3 h4
    have hs : st.lib.settings = some s := by
      have := hab.config; rw [h8] at this
      obtain ⟨s', q1, q2⟩ := Option.map_eq_some_iff.mp this.symm
      cases q2; exact q1
    exact .success x slip.text s seed _ h1 h2 u h5 h6 h7 hs h10 (by rw [← hx]; exact h9) h12

theorem spells_lower_unique {s t bs : Bytes} (h : Spells s bs) (h' : Spells t bs) (hs : ∀ c ∈ s, isUpperLetter c = false)
    (ht : ∀ c ∈ t, isUpperLetter c = false) : s = t := by
  have key : ∀ x : UInt8, isUpperLetter x = false → lowerDigit x = x := by
    apply u8_all; decide +kernel
  have id : ∀ l : Bytes, (∀ c ∈ l, isUpperLetter c = false) → l.map lowerDigit = l := fun l hl =>
    (List.map_congr_left fun c hc => key c (hl c hc)).trans (List.map_id' l)
  rw [← id s hs, ← id t ht, spells_lower h h']

theorem prepare_same {E : Env} {a a' b b' : Sheet E} (hab : Alike a a') {now : UInt64} {addr : Bytes} {r r' : Reply}
    (h : SheetStep a now (.prepareLogin addr) b r) (h' : SheetStep a' now (.prepareLogin addr) b' r') : SameAnswer r r' := by
  cases h with
  | prepareBadAddress _ e h1 => cases h' with
    | prepareBadAddress _ e' g1 =>
      have := (addressError_iff E addr e).mpr h1
      rw [(addressError_iff E addr e').mpr g1] at this; cases this; exact .inl rfl
    | prepareNotReady _ g1 => exact absurd g1 (isAddress_not_error h1)
    | prepare _ _ _ _ _ _ _ g1 => exact absurd g1 (isAddress_not_error h1)
  | prepareNotReady _ h1 h2 => cases h' with
    | prepareBadAddress _ e' g1 => exact absurd h1 (isAddress_not_error g1)
    | prepareNotReady _ g1 => exact .inl rfl
    | prepare _ _ _ _ _ _ _ g1 g2 g3 =>
      rw [hab.random, hab.config, g2, g3] at h2; rcases h2 with h2 | h2 <;> cases h2
  | prepare _ g s p k slip nonce h1 h2 h3 h4 h5 h6 h7 h8 h9 => cases h' with
    | prepareBadAddress _ e' g1 => exact absurd h1 (isAddress_not_error g1)
    | prepareNotReady _ g1 g2 => rw [← hab.random, ← hab.config, h2, h3] at g2; rcases g2 with g2 | g2 <;> cases g2
    | prepare _ g' s' p' k' slip' nonce' g1 g2 g3 g4 g5 g6 g7 g8 g9 =>
      have := hab.config; rw [h3, g3] at this; cases this
      have := hab.random; rw [h2, g2] at this; cases this
      have := spells_lower_unique h4 g4 h5 g5
      subst this
      exact .inr ⟨_, slip.text, slip'.text, nonce, rfl, rfl, h9, by rw [h7, h8]; rw [g7, g8] at g9; exact g9⟩

/-- C94: the machine leaves no choice. Whatever sheet it can have reached through the calls answered so far, whatever answer it allows to
another call is the canister's answer, a delegation's retrieval excepted. -/
theorem C94_no_choice (E : Env) (h : History) (now : UInt64) (op : Op) (a b : Sheet E) (r : Reply) (ha : SheetRun E (trace E h) a)
    (hs : SheetStep a now op b r) (hop : ∀ c addr key expiration, op ≠ .getDelegation c addr key expiration) :
    SameAnswer r (step (stateAfter E h) now op).2 := by
  obtain ⟨m, h1, h2, h3⟩ := sheet_run E h
  have hab := sheetRun_alike h ha h1
  have hi := inv_stateAfter E h
  obtain ⟨m', g, _, _⟩ := sheet_step hi h3 h2 now op
  generalize hr' : (step (stateAfter E h) now op).2 = r' at g ⊢
  generalize sheetOf (step (stateAfter E h) now op).1 m' = b' at g
  cases op with
  | install i =>
    cases hs with
    | install _ s p root k1 k2 => cases g with
      | install => exact .inl rfl
      | refusedInstall _ q => exact absurd k2 (q s p k1)
    | refusedInstall _ q => cases g with
      | install _ s p root k1 k2 => exact absurd k2 (q s p k1)
      | refusedInstall => exact .inl rfl
  | upgrade i =>
    cases hs with
    | upgrade _ s p root k1 k2 => cases g with
      | upgrade => exact .inl rfl
      | refusedUpgrade _ q => exact absurd k2 (q s p k1)
    | refusedUpgrade _ q => cases g with
      | upgrade _ s p root k1 k2 => exact absurd k2 (q s p k1)
      | refusedUpgrade => exact .inl rfl
  | rngSeeded seed => cases hs; cases g; exact .inl rfl
  | prepareLogin addr => exact prepare_same hab hs g
  | login sig addr key nonce =>
    refine .inl (C14_one_answer _ now sig addr key nonce _ _ (loginReply_of_sheet hi hab hs) ?_)
    rw [← hr']; exact C14_decision E h now sig addr key nonce
  | getDelegation c x y z => exact absurd rfl (hop c x y z)
  | getAddress p =>
    cases hs with | address _ _ k => cases g with | address _ _ k' => exact .inl (addressReply_unique hab k k')
  | getCallerAddress p =>
    cases hs with | callerAddress _ _ k => cases g with | callerAddress _ _ k' => exact .inl (addressReply_unique hab k k')
  | getPrincipal p =>
    cases hs with | principal _ _ k => cases g with | principal _ _ k' => exact .inl (principalReply_unique hab k k')

/-- Non-vacuity: after the example login the machine has Alice's signature and her mapping, and answers a question for her address. -/
example : ∃ a : Sheet Toy.env, SheetRun Toy.env (trace Toy.env Ex.loggedIn) a ∧ a.sigs.entries.length = 1 ∧
    a.addressOf Ex.alicePrincipal ≠ none ∧ SheetStep a 200 (.getAddress Ex.alicePrincipal) a (.bytes Ex.alice) := by
  obtain ⟨m, h1, h2, h3⟩ := sheet_run Toy.env Ex.loggedIn
  refine ⟨_, h1, ?_, ?_, ?_⟩
  · rw [show (sheetOf (stateAfter Toy.env Ex.loggedIn) m).sigs = m from rfl, ← h2.entries.length_eq]; decide +kernel
  · rw [sheetOf_addressOf]
    decide +kernel
  · have := addressReply h3 m Ex.alicePrincipal
    rw [show reply Reply.bytes (Siwe.getAddress (stateAfter Toy.env Ex.loggedIn) Ex.alicePrincipal) = .bytes Ex.alice by decide +kernel] at this
    exact .address _ _ this

end Siwe
