import Verif.Spec.Embedding
import Verif.Lemmas.Grants
/- Helper lemmas about a canister that embeds the library. -/
namespace Siwe
open Spec

/-! ### one use of the library -/

/-- The outcome of the library's `login` when the message is found. -/
inductive LibFound {E : Env} (l : LibState E) (sm : SigMap) (now : UInt64) (addr key cid bs nonce : Bytes) (m : SiweMessage)
    (check : Res LoginError Unit) : LibState E × SigMap × Res LoginError LoginDetails → Prop
  | badSignature (e : LoginError) : check = .err e →
      LibFound l sm now addr key cid bs nonce m check (usedLib l now (storeKey E bs nonce), sm, .err e)
  | badKey (s : Settings) (n : Nat) (sm1 : SigMap) (e : DelegationError) : check = .ok () → l.settings = some s →
      (sm.pruneExpired now maxSigsToPrune : Res LoginError _) = .ok (n, sm1) →
      createDelegation E s key (satAdd m.issuedAt s.sessionExpiresIn) = .err e →
      LibFound l sm now addr key cid bs nonce m check
        (usedLib l now (storeKey E bs nonce), sm1, .err (.delegation e))
  | success (s : Settings) (n : Nat) (sm1 sm2 : SigMap) (d : Delegation) (dh : Hash) : check = .ok () →
      l.settings = some s → (sm.pruneExpired now maxSigsToPrune : Res LoginError _) = .ok (n, sm1) →
      createDelegation E s key (satAdd m.issuedAt s.sessionExpiresIn) = .ok d → IsDelegationHash E d dh →
      (sm1.put now (seedKey E s ⟨addr⟩) dh : Res LoginError _) = .ok sm2 →
      LibFound l sm now addr key cid bs nonce m check (usedLib l now (storeKey E bs nonce), sm2,
        .ok ⟨satAdd m.issuedAt s.sessionExpiresIn, createUserCanisterPubkey cid (generateSeed E s ⟨addr⟩).bytes⟩)

/-- Everything the library's `login` can do. -/
theorem login_cases {E : Env} (l : LibState E) {sm : SigMap} (hs : sm.Ok) (hl : l.messages ≠ [] → l.settings ≠ none)
    (now : UInt64) {sig addr : Bytes} (key cid nonce : Bytes) (hA : IsAddress E.keccak addr) (hS : HexString 130 sig) :
    ∃ bs, bs.length = 20 ∧ Spells (addr.drop 2) bs ∧
      ((l.messages.pruneExpired now).lookup (storeKey E bs nonce) = none ∧
        login l sm now ⟨sig⟩ ⟨addr⟩ key cid nonce = (prunedLib l now, sm, .err .messageNotFound) ∨
      ∃ m txt, (l.messages.pruneExpired now).lookup (storeKey E bs nonce) = some m ∧ (m.text : Res Empty Bytes) = .ok txt ∧
        LibFound l sm now addr key cid bs nonce m (checkSignature E txt ⟨sig⟩ ⟨addr⟩)
          (login l sm now ⟨sig⟩ ⟨addr⟩ key cid nonce)) := by
  obtain ⟨ds, bs, e0, _, sp, hb, hbytes, harr⟩ := isAddress_bytes hA
  refine ⟨bs, hb, by rw [e0]; simpa using sp, ?_⟩
  have hk := mapHash_eq LoginError (E := E) hbytes hb nonce
  have hget : (SiweMessageMap.get E (l.messages.pruneExpired now) ⟨addr⟩ nonce : Res LoginError _) =
      .ok ((l.messages.pruneExpired now).lookup (storeKey E bs nonce)) := by
    simp [SiweMessageMap.get, hk, storeKey]
  have hrem : (SiweMessageMap.remove E (l.messages.pruneExpired now) ⟨addr⟩ nonce : Res LoginError _) =
      .ok (SiweMessageMap.erase (l.messages.pruneExpired now) (storeKey E bs nonce)) := by
    simp [SiweMessageMap.remove, hk, storeKey]
  cases hlk : (l.messages.pruneExpired now).lookup (storeKey E bs nonce) with
  | none =>
    left
    refine ⟨rfl, ?_⟩
    simp only [login, hget, hlk]; rfl
  | some m =>
    right
    obtain ⟨txt, ht, _⟩ := message_text_ok LoginError m
    have hne : l.messages ≠ [] := by
      intro h0
      rw [h0] at hlk
      simp [SiweMessageMap.pruneExpired] at hlk
    obtain ⟨s, hset⟩ := Option.ne_none_iff_exists'.mp (hl hne)
    have hlogin : login l sm now ⟨sig⟩ ⟨addr⟩ key cid nonce =
        loginWith (prunedLib l now) sm now ⟨sig⟩ ⟨addr⟩ key cid nonce m txt := by
      simp only [login, hget, hlk, ht, Res.elim_ok]; rfl
    rw [hlogin]
    refine ⟨m, txt, rfl, text_poly Empty ht, ?_⟩
    obtain ⟨_, sm1, hp, hok, _⟩ := SigMap.ok_prune LoginError hs now maxSigsToPrune
    cases hc : checkSignature E txt ⟨sig⟩ ⟨addr⟩ with
    | panic => exact absurd hc (check_no_panic hS)
    | err e =>
      have : loginWith (prunedLib l now) sm now ⟨sig⟩ ⟨addr⟩ key cid nonce m txt =
          (usedLib l now (storeKey E bs nonce), sm, .err e) := by
        simp only [loginWith, prunedLib, hrem, hc]; rfl
      rw [this]; exact .badSignature e rfl
    | ok u =>
      cases hd : createDelegation E s key (satAdd m.issuedAt s.sessionExpiresIn) with
      | panic => exact absurd hd (createDelegation_no_panic _ _ _ _)
      | err e =>
        have : loginWith (prunedLib l now) sm now ⟨sig⟩ ⟨addr⟩ key cid nonce m txt =
            (usedLib l now (storeKey E bs nonce), sm1, .err (.delegation e)) := by
          simp only [loginWith, prunedLib, hrem, hc, hset, grant, hp, hd, usedLib]
        rw [this]; exact .badKey s _ sm1 e rfl hset hp hd
      | ok d =>
        obtain ⟨dh, hdh, hdspec⟩ := delegationHash_ok LoginError E d
        obtain ⟨sm2, hput, _⟩ := SigMap.ok_put LoginError hok now (seedKey E s ⟨addr⟩) dh
        have hput' : (sm1.put now (hashBytes E (generateSeed E s ⟨addr⟩).bytes) dh : Res LoginError _) = .ok sm2 := hput
        have : loginWith (prunedLib l now) sm now ⟨sig⟩ ⟨addr⟩ key cid nonce m txt =
            (usedLib l now (storeKey E bs nonce), sm2, .ok ⟨satAdd m.issuedAt s.sessionExpiresIn,
              createUserCanisterPubkey cid (generateSeed E s ⟨addr⟩).bytes⟩) := by
          simp only [loginWith, prunedLib, hrem, hc, hset, grant, hp, hd, hdh, hput', usedLib]
        rw [this]; exact .success s _ sm1 sm2 d dh rfl hset hp hd hdspec hput

/-- Invariant of every state. -/
structure AppInv {E : Env} (st : AppState E) : Prop where
  keys : UniqueKeys st.lib.messages
  sigs : ∀ i, (st.maps i).Ok
  configured : st.lib.messages ≠ [] → st.lib.settings ≠ none

/-- Everything one use can do. -/
inductive AppCase {E : Env} (st : AppState E) (now : UInt64) : LibCall → AppState E → LibReply → Prop
  | restart : AppCase st now .restart (AppState.fresh E) .done
  | init (s : Settings) : AppCase st now (.init s) { st with lib := libInit st.lib s } .done
  | seeded (seed : Bytes) : AppCase st now (.rngSeeded seed) { st with lib := seedRng st.lib seed } .done
  | badPrepare (addr : Bytes) (e : EthError) : AddressError E.keccak addr e →
      AppCase st now (.prepareLogin addr) st (.addressErr e)
  | notReady (addr : Bytes) : IsAddress E.keccak addr → (st.lib.rng = none ∨ st.lib.settings = none) →
      AppCase st now (.prepareLogin addr) st .trap
  | prepared (addr bs : Bytes) (g : E.Rng) (s : Settings) : IsAddress E.keccak addr → bs.length = 20 →
      Spells (addr.drop 2) bs → st.lib.rng = some g → st.lib.settings = some s →
      AppCase st now (.prepareLogin addr) { st with lib := preparedLib st.lib g s now ⟨addr⟩ bs }
        (.prepared (SiweMessage.new s now ⟨addr⟩ (nonceOf E g)) (nonceOf E g))
  | badAddress (i : Nat) (sig addr key cid nonce : Bytes) (e : EthError) : AddressError E.keccak addr e →
      AppCase st now (.login i sig addr key cid nonce) st (.addressErr e)
  | badSignature (i : Nat) (sig addr key cid nonce : Bytes) (e : EthError) : IsAddress E.keccak addr → SignatureError sig e →
      AppCase st now (.login i sig addr key cid nonce) st (.signatureErr e)
  | notFound (i : Nat) (sig addr key cid nonce bs : Bytes) : IsAddress E.keccak addr → HexString 130 sig →
      bs.length = 20 → Spells (addr.drop 2) bs →
      (st.lib.messages.pruneExpired now).lookup (storeKey E bs nonce) = none →
      AppCase st now (.login i sig addr key cid nonce) ⟨prunedLib st.lib now, setMap st.maps i (st.maps i)⟩
        (.loginErr .messageNotFound)
  | refused (i : Nat) (sig addr key cid nonce bs : Bytes) (m : SiweMessage) (txt : Bytes) (l : LibState E) (sm : SigMap)
      (e : LoginError) : IsAddress E.keccak addr → HexString 130 sig → bs.length = 20 → Spells (addr.drop 2) bs →
      (st.lib.messages.pruneExpired now).lookup (storeKey E bs nonce) = some m → (m.text : Res Empty Bytes) = .ok txt →
      LibFound st.lib (st.maps i) now addr key cid bs nonce m (checkSignature E txt ⟨sig⟩ ⟨addr⟩) (l, sm, .err e) →
      AppCase st now (.login i sig addr key cid nonce) ⟨l, setMap st.maps i sm⟩ (.loginErr e)
  | loggedIn (i : Nat) (sig addr key cid nonce bs : Bytes) (m : SiweMessage) (txt : Bytes) (l : LibState E) (sm : SigMap)
      (d : LoginDetails) : IsAddress E.keccak addr → HexString 130 sig → bs.length = 20 → Spells (addr.drop 2) bs →
      (st.lib.messages.pruneExpired now).lookup (storeKey E bs nonce) = some m → (m.text : Res Empty Bytes) = .ok txt →
      LibFound st.lib (st.maps i) now addr key cid bs nonce m (checkSignature E txt ⟨sig⟩ ⟨addr⟩) (l, sm, .ok d) →
      AppCase st now (.login i sig addr key cid nonce) ⟨l, setMap st.maps i sm⟩ (.loggedIn d)
  | newMap (i : Nat) : AppCase st now (.newMap i) { st with maps := setMap st.maps i .empty } .done
  | put (i : Nat) (sh dh : Hash) (m : SigMap) : ((st.maps i).put now sh dh : Res Empty _) = .ok m →
      AppCase st now (.put i sh dh) { st with maps := setMap st.maps i m } .done
  | delete (i : Nat) (sh dh : Hash) (m : SigMap) : ((st.maps i).delete sh dh : Res Empty _) = .ok m →
      AppCase st now (.delete i sh dh) { st with maps := setMap st.maps i m } .done
  | prune (i k n : Nat) (m : SigMap) : ((st.maps i).pruneExpired now k : Res Empty _) = .ok (n, m) →
      AppCase st now (.prune i k) { st with maps := setMap st.maps i m } (.pruned n)
  | witness (i : Nat) (addr key : Bytes) (x : UInt64) : AppCase st now (.witness i addr key x) st (appWitness st now i addr key x)

theorem app_case {E : Env} {st : AppState E} (hi : AppInv st) (now : UInt64) (c : LibCall) :
    AppCase st now c (appStep st now c).1 (appStep st now c).2 := by
  cases c with
  | restart => exact .restart
  | init s => exact .init s
  | rngSeeded seed => exact .seeded seed
  | prepareLogin addr =>
    simp only [appStep, appPrepare]
    cases hn : EthAddress.new E addr with
    | panic => exact absurd hn (ethAddress_new_no_panic E addr)
    | err e => exact .badPrepare addr e ((addressError_iff E addr e).mp hn)
    | ok a =>
      obtain ⟨hA, ha⟩ := (ethAddress_new_ok_iff E addr a).mp hn
      have : a = ⟨addr⟩ := by cases a; simp_all
      subst this
      obtain ⟨ds, bs, e0, _, sp, hl, hb, _⟩ := isAddress_bytes hA
      by_cases h : st.lib.rng = none ∨ st.lib.settings = none
      · have : prepareLogin st.lib now ⟨addr⟩ = .panic := by
          unfold prepareLogin generateNonce
          cases hr : st.lib.rng with
          | none => rfl
          | some r =>
            rcases h with h | h
            · rw [h] at hr; cases hr
            · simp only [Res.ok_bind, h]
        simp only [this]
        exact .notReady addr hA h
      · rw [not_or] at h
        obtain ⟨r, hr⟩ := Option.ne_none_iff_exists'.mp h.1
        obtain ⟨s, hs⟩ := Option.ne_none_iff_exists'.mp h.2
        simp only [prepareLogin_eq st.lib now hb hl hr hs]
        exact .prepared addr bs r s hA hl (by rw [e0]; simpa using sp) hr hs
  | login i sig addr key cid nonce =>
    simp only [appStep, appLogin]
    cases hn : EthAddress.new E addr with
    | panic => exact absurd hn (ethAddress_new_no_panic E addr)
    | err e => exact .badAddress i sig addr key cid nonce e ((addressError_iff E addr e).mp hn)
    | ok a =>
      obtain ⟨hA, ha⟩ := (ethAddress_new_ok_iff E addr a).mp hn
      have : a = ⟨addr⟩ := by cases a; simp_all
      subst this
      cases hg : EthSignature.new sig with
      | panic => exact absurd hg (ethSignature_new_no_panic sig)
      | err e => exact .badSignature i sig addr key cid nonce e hA ((signatureError_iff sig e).mp hg)
      | ok g =>
        obtain ⟨hS, hg'⟩ := (ethSignature_new_ok_iff sig g).mp hg
        have : g = ⟨sig⟩ := by cases g; simp_all
        subst this
        obtain ⟨bs, hb, sp, ⟨h1, h2⟩ | ⟨m, txt, h1, h2, h3⟩⟩ :=
          login_cases st.lib (hi.sigs i) hi.configured now key cid nonce hA hS
        · simp only [h2]; exact .notFound i sig addr key cid nonce bs hA hS hb sp h1
        · simp only
          generalize hx : login st.lib (st.maps i) now ⟨sig⟩ ⟨addr⟩ key cid nonce = x at h3 ⊢
          obtain ⟨l, sm, r⟩ := x
          cases r with
          | ok d => exact .loggedIn i sig addr key cid nonce bs m txt l sm d hA hS hb sp h1 h2 h3
          | err e => exact .refused i sig addr key cid nonce bs m txt l sm e hA hS hb sp h1 h2 h3
          | panic => cases h3
  | newMap i => exact .newMap i
  | put i sh dh =>
    obtain ⟨m, h, _⟩ := SigMap.ok_put Empty (hi.sigs i) now sh dh
    simp only [appStep, h, Res.ok_bind, appMap]
    exact .put i sh dh m h
  | delete i sh dh =>
    obtain ⟨m, h, _⟩ := SigMap.ok_delete Empty (hi.sigs i) sh dh
    simp only [appStep, h, Res.ok_bind, appMap]
    exact .delete i sh dh m h
  | prune i k =>
    obtain ⟨_, m, h, _⟩ := SigMap.ok_prune Empty (hi.sigs i) now k
    simp only [appStep, h, appMap]
    exact .prune i k _ m h
  | witness i addr key x => exact .witness i addr key x

/-- What happens to the library's state. -/
inductive LibEffect {E : Env} (l l' : LibState E) (now : UInt64) (c : LibCall) (r : LibReply) : Prop
  | reset : c = .restart → l' = .initial E → LibEffect l l' now c r
  | init (s : Settings) : c = .init s → l' = libInit l s → LibEffect l l' now c r
  | seeded (seed : Bytes) : c = .rngSeeded seed → l' = seedRng l seed → LibEffect l l' now c r
  | issued (addr bs nonce : Bytes) (m : SiweMessage) (s : Settings) : IsAddress E.keccak addr → bs.length = 20 →
      Spells (addr.drop 2) bs → c = .prepareLogin addr → r = .prepared m nonce → l.settings = some s →
      l'.settings = some s → l.rng ≠ none → l'.rng ≠ none → m = SiweMessage.new s now ⟨addr⟩ nonce →
      (∀ k, l'.messages.lookup k = if k = storeKey E bs nonce then some m else l.messages.lookup k) →
      UniqueKeys l'.messages → LibEffect l l' now c r
  | attempted (i : Nat) (sig addr key cid nonce bs : Bytes) : IsAddress E.keccak addr → HexString 130 sig → bs.length = 20 →
      Spells (addr.drop 2) bs → c = .login i sig addr key cid nonce → l'.settings = l.settings → l'.rng = l.rng →
      (∀ k m, l'.messages.lookup k = some m ↔
        l.messages.lookup k = some m ∧ now.toNat < m.expirationTime.toNat ∧ k ≠ storeKey E bs nonce) →
      UniqueKeys l'.messages → (l'.messages ≠ [] → l.messages ≠ []) →
      ((∃ e, r = .loginErr e) ∨ ∃ d m, r = .loggedIn d ∧ l.messages.lookup (storeKey E bs nonce) = some m) →
      LibEffect l l' now c r
  | same : c ≠ .restart → (∀ s, c ≠ .init s) → (∀ x, c ≠ .rngSeeded x) → (∀ m n, r ≠ .prepared m n) → (∀ d, r ≠ .loggedIn d) →
      (∀ e, r ≠ .loginErr e) → l' = l → LibEffect l l' now c r

theorem LibFound.lib {E : Env} {l : LibState E} {sm : SigMap} {now : UInt64} {addr key cid bs nonce : Bytes} {m : SiweMessage}
    {check : Res LoginError Unit} {x : LibState E × SigMap × Res LoginError LoginDetails}
    (h : LibFound l sm now addr key cid bs nonce m check x) : x.1 = usedLib l now (storeKey E bs nonce) := by
  cases h <;> rfl

theorem appWitness_reply {E : Env} (st : AppState E) (now : UInt64) (i : Nat) (addr key : Bytes) (x : UInt64) :
    (∀ m n, appWitness st now i addr key x ≠ .prepared m n) ∧ (∀ d, appWitness st now i addr key x ≠ .loggedIn d) ∧
      (∀ e, appWitness st now i addr key x ≠ .loginErr e) := by
  unfold appWitness
  split
  · simp
  · simp
  · split
    · simp
    · split
      · simp
      · simp
      · split
        · simp
        · simp
        · split <;> simp

theorem usedLib_lookup {E : Env} {l : LibState E} (hk : UniqueKeys l.messages) (now : UInt64) (k0 k : Hash) (m : SiweMessage) :
    (usedLib l now k0).messages.lookup k = some m ↔
      l.messages.lookup k = some m ∧ now.toNat < m.expirationTime.toNat ∧ k ≠ k0 := lookup_used hk now k0 k m

theorem lib_effect {E : Env} {st : AppState E} (hi : AppInv st) (now : UInt64) (c : LibCall) :
    LibEffect st.lib (appStep st now c).1.lib now c (appStep st now c).2 := by
  have h := app_case hi now c
  generalize (appStep st now c).1 = st' at h ⊢
  generalize (appStep st now c).2 = r at h ⊢
  have used : ∀ k0, UniqueKeys (usedLib st.lib now k0).messages ∧ ((usedLib st.lib now k0).messages ≠ [] → st.lib.messages ≠ []) :=
    fun k0 => ⟨uniqueKeys_filter (uniqueKeys_filter hi.keys _) _, fun h => filter_ne_nil (filter_ne_nil h)⟩
  cases h with
  | restart => exact .reset rfl rfl
  | init s => exact .init s rfl rfl
  | seeded seed => exact .seeded seed rfl rfl
  | prepared addr bs g s h1 h2 h3 h4 h5 =>
    refine .issued addr bs (nonceOf E g) _ s h1 h2 h3 rfl rfl h5 h5 (by simp [h4]) (by simp [preparedLib]) rfl (fun k => ?_)
      (uniqueKeys_insert hi.keys _ _)
    by_cases hk : k = storeKey E bs (nonceOf E g)
    · subst hk; simp [preparedLib, storeKey]
    · rw [if_neg hk]
      simp only [preparedLib, List.lookup_cons]
      rw [show (k == E.sha256 (pendingKey bs (nonceOf E g))) = false by simpa using (show k ≠ E.sha256 _ from hk)]
      exact lookup_erase_ne _ hk
  | notFound i sig addr key cid nonce bs h1 h2 h3 h4 h5 =>
    refine .attempted i sig addr key cid nonce bs h1 h2 h3 h4 rfl rfl rfl (fun k m => ?_) (uniqueKeys_filter hi.keys _)
      (fun h => filter_ne_nil h) (.inl ⟨_, rfl⟩)
    simp only [prunedLib]
    rw [lookup_prune hi.keys]
    constructor
    · rintro ⟨g1, g2⟩
      refine ⟨g1, g2, ?_⟩
      rintro rfl
      rw [(lookup_prune hi.keys now _ m).mpr ⟨g1, g2⟩] at h5; cases h5
    · rintro ⟨g1, g2, _⟩; exact ⟨g1, g2⟩
  | refused i sig addr key cid nonce bs m txt l sm e h1 h2 h3 h4 h5 h6 hf =>
    have : l = _ := hf.lib
    subst this
    exact .attempted i sig addr key cid nonce bs h1 h2 h3 h4 rfl rfl rfl (usedLib_lookup hi.keys now _) (used _).1 (used _).2
      (.inl ⟨e, rfl⟩)
  | loggedIn i sig addr key cid nonce bs m txt l sm d h1 h2 h3 h4 h5 h6 hf =>
    have : l = _ := hf.lib
    subst this
    exact .attempted i sig addr key cid nonce bs h1 h2 h3 h4 rfl rfl rfl (usedLib_lookup hi.keys now _) (used _).1 (used _).2
      (.inr ⟨d, m, rfl, ((lookup_prune hi.keys now _ m).mp h5).1⟩)
  | witness i addr key x =>
    obtain ⟨g1, g2, g3⟩ := appWitness_reply st now i addr key x
    exact .same (by simp) (by simp) (by simp) g1 g2 g3 rfl
  | _ => exact .same (by simp) (by simp) (by simp) (by simp) (by simp) (by simp) rfl

/-- The use puts the pair into the map. -/
def PutsInto (E : Env) (i : Nat) (c : LibCall) (s : Option Settings) (r : LibReply) (sh dh : Hash) : Prop :=
  c = .put i sh dh ∨ ∃ sig addr key cid nonce d st, c = .login i sig addr key cid nonce ∧ r = .loggedIn d ∧ s = some st ∧
    IsEntry E st addr key d.expiration sh dh

/-- What happens to one signature map. -/
inductive LibMapEffect (E : Env) (m m' : SigMap) (i : Nat) (now : UInt64) (c : LibCall) (s : Option Settings) (r : LibReply) : Prop
  | emptied : (c = .restart ∨ c = .newMap i) → m' = .empty → LibMapEffect E m m' i now c s r
  | same : m' = m → c ≠ .restart → c ≠ .newMap i → (∀ sh dh, c ≠ .delete i sh dh) →
      (∀ sh dh, ¬PutsInto E i c s r sh dh) → LibMapEffect E m m' i now c s r
  | changed : c ≠ .restart → c ≠ .newMap i → m'.Ok →
      (∀ sh dh, Holds m' sh dh → PutsInto E i c s r sh dh ∨ (Holds m sh dh ∧ c ≠ .delete i sh dh)) →
      (∀ x ∈ m'.expirationQueue, x ∈ m.expirationQueue ∨
        (IsExpiryOf now x.expiresAt ∧ PutsInto E i c s r x.seedHash x.delegationHash)) →
      (∀ sh dh, PutsInto E i c s r sh dh → Holds m' sh dh) →
      (∀ sh dh, Holds m sh dh → Holds m' sh dh ∨ c = .delete i sh dh ∨
        ∃ x ∈ m.expirationQueue, x.seedHash = sh ∧ x.delegationHash = dh ∧ x.expiresAt.toNat ≤ now.toNat) →
      LibMapEffect E m m' i now c s r

theorem setMap_self (maps : Nat → SigMap) (i : Nat) (m : SigMap) : setMap maps i m i = m := if_pos rfl
theorem setMap_ne (maps : Nat → SigMap) {i j : Nat} (m : SigMap) (h : j ≠ i) : setMap maps i m j = maps j := if_neg h

theorem mem_heapPush {q : List SigExpiration} {x y : SigExpiration} : x ∈ heapPush q y ↔ x = y ∨ x ∈ q := by
  rw [(heapPush_perm _ _).mem_iff, List.mem_cons]

theorem expiry_entry (s d : Hash) (now : UInt64) :
    IsExpiryOf now (⟨s, d, satAdd now delegationSignatureExpiresAt⟩ : SigExpiration).expiresAt := by
  dsimp only; exact SigMap.isExpiryOf_satAdd now

theorem prune_keeps {m m' : SigMap} {now : UInt64} {k : Nat} {removed : List SigExpiration}
    (h3 : Pruned now k m.expirationQueue removed m'.expirationQueue)
    (h4 : ∀ s d, Holds m' s d ↔ Holds m s d ∧ ∀ e ∈ removed, ¬(e.seedHash = s ∧ e.delegationHash = d)) (sh dh : Hash)
    (hh : Holds m sh dh) : Holds m' sh dh ∨
      ∃ x ∈ m.expirationQueue, x.seedHash = sh ∧ x.delegationHash = dh ∧ x.expiresAt.toNat ≤ now.toNat := by
  by_cases h : ∃ e ∈ removed, e.seedHash = sh ∧ e.delegationHash = dh
  · obtain ⟨e, he, h1, h2⟩ := h
    exact .inr ⟨e, h3.split.mem_iff.mpr (List.mem_append_left _ he), h1, h2, h3.due e he⟩
  · exact .inl ((h4 sh dh).mpr ⟨hh, fun e he hc => h ⟨e, he, hc⟩⟩)

theorem libMap_effect {E : Env} {st : AppState E} (hi : AppInv st) (now : UInt64) (c : LibCall) (j : Nat) :
    LibMapEffect E (st.maps j) ((appStep st now c).1.maps j) j now c st.lib.settings (appStep st now c).2 := by
  have h := app_case hi now c
  generalize (appStep st now c).1 = st' at h ⊢
  generalize (appStep st now c).2 = r at h ⊢
  cases h with
  | restart => exact .emptied (.inl rfl) rfl
  | newMap i =>
    by_cases hj : j = i
    · subst hj; exact .emptied (.inr rfl) (setMap_self _ _ _)
    · exact .same (setMap_ne _ _ hj) (by simp) (by simpa using Ne.symm hj) (by simp) (by simp [PutsInto])
  | put i sh dh m hm =>
    by_cases hj : j = i
    · subst hj
      obtain ⟨m', h1, h2, h3, h4⟩ := SigMap.ok_put Empty (hi.sigs j) now sh dh
      rw [hm] at h1; cases h1
      show LibMapEffect _ _ (setMap st.maps j m j) _ _ _ _ _
      rw [setMap_self]
      refine .changed (by simp) (by simp) h2 (fun s d hh => ?_) (fun x hx => ?_) (fun s d hp => ?_)
        (fun s d hh => .inl ((h4 s d).mpr (.inr hh)))
      · rcases (h4 s d).mp hh with ⟨rfl, rfl⟩ | hh
        · exact .inl (.inl rfl)
        · exact .inr ⟨hh, by simp⟩
      · rw [h3, mem_heapPush] at hx
        rcases hx with rfl | hx
        · exact .inr ⟨expiry_entry sh dh now, .inl rfl⟩
        · exact .inl hx
      · rcases hp with hp | ⟨_, _, _, _, _, _, _, hp, _⟩
        · obtain ⟨_, rfl, rfl⟩ := LibCall.put.inj hp
          exact (h4 _ _).mpr (.inl ⟨rfl, rfl⟩)
        · cases hp
    · exact .same (setMap_ne _ _ hj) (by simp) (by simp) (by simp) (fun s d h => by
        rcases h with h | ⟨_, _, _, _, _, _, _, h, _⟩
        · exact hj (LibCall.put.inj h).1.symm
        · cases h)
  | delete i sh dh m hm =>
    by_cases hj : j = i
    · subst hj
      obtain ⟨m', h1, h2, h3, h4⟩ := SigMap.ok_delete Empty (hi.sigs j) sh dh
      rw [hm] at h1; cases h1
      show LibMapEffect _ _ (setMap st.maps j m j) _ _ _ _ _
      rw [setMap_self]
      refine .changed (by simp) (by simp) h2 (fun s d hh => ?_) (fun x hx => .inl (h3 ▸ hx)) (by simp [PutsInto])
        (fun s d hh => ?_)
      · obtain ⟨g1, g2⟩ := (h4 s d).mp hh
        exact .inr ⟨g2, by rintro ⟨⟩; exact g1 ⟨rfl, rfl⟩⟩
      · by_cases hs : s = sh ∧ d = dh
        · obtain ⟨rfl, rfl⟩ := hs; exact .inr (.inl rfl)
        · exact .inl ((h4 s d).mpr ⟨hs, hh⟩)
    · exact .same (setMap_ne _ _ hj) (by simp) (by simp) (fun _ _ h => hj (LibCall.delete.inj h).1.symm) (by simp [PutsInto])
  | prune i k n m hm =>
    by_cases hj : j = i
    · subst hj
      obtain ⟨removed, m', h1, h2, h3, h4⟩ := SigMap.ok_prune Empty (hi.sigs j) now k
      rw [hm] at h1; cases h1
      show LibMapEffect _ _ (setMap st.maps j m j) _ _ _ _ _
      rw [setMap_self]
      refine .changed (by simp) (by simp) h2 (fun s d hh => .inr ⟨((h4 s d).mp hh).1, by simp⟩) (fun x hx => .inl ?_)
        (by simp [PutsInto]) (fun s d hh => (prune_keeps h3 h4 s d hh).imp_right .inr)
      exact h3.split.mem_iff.mpr (List.mem_append_right _ hx)
    · exact .same (setMap_ne _ _ hj) (by simp) (by simp) (by simp) (by simp [PutsInto])
  | notFound i sig addr key cid nonce bs h1 h2 h3 h4 h5 =>
    refine .same ?_ (by simp) (by simp) (by simp) (by simp [PutsInto])
    show setMap st.maps i (st.maps i) j = _
    by_cases hj : j = i
    · subst hj; exact setMap_self _ _ _
    · exact setMap_ne _ _ hj
  | refused i sig addr key cid nonce bs m txt l sm e h1 h2 h3 h4 h5 h6 hf =>
    by_cases hj : j = i
    · subst hj
      show LibMapEffect _ _ (setMap st.maps j sm j) _ _ _ _ _
      rw [setMap_self]
      cases hf with
      | badSignature => exact .same rfl (by simp) (by simp) (by simp) (by simp [PutsInto])
      | badKey s n sm1 e _ _ hp =>
        obtain ⟨removed, m', h1, h2, h3, h4⟩ := SigMap.ok_prune LoginError (hi.sigs j) now maxSigsToPrune
        rw [hp] at h1; cases h1
        refine .changed (by simp) (by simp) h2 (fun s d hh => .inr ⟨((h4 s d).mp hh).1, by simp⟩) (fun x hx => .inl ?_)
          (by simp [PutsInto]) (fun s d hh => (prune_keeps h3 h4 s d hh).imp_right .inr)
        exact h3.split.mem_iff.mpr (List.mem_append_right _ hx)
    · exact .same (setMap_ne _ _ hj) (by simp) (by simp) (by simp) (by simp [PutsInto])
  | loggedIn i sig addr key cid nonce bs m txt l sm d h1 h2 h3 h4 h5 h6 hf =>
    by_cases hj : j = i
    · subst hj
      show LibMapEffect _ _ (setMap st.maps j sm j) _ _ _ _ _
      rw [setMap_self]
      cases hf with
      | success s n sm1 sm2 dl dh hc hs hp hd hdh hput =>
        obtain ⟨removed, m', g1, g2, g3, g4⟩ := SigMap.ok_prune LoginError (hi.sigs j) now maxSigsToPrune
        rw [hp] at g1; cases g1
        obtain ⟨m2, k1, k2, k3, k4⟩ := SigMap.ok_put LoginError g2 now (seedKey E s ⟨addr⟩) dh
        rw [hput] at k1; cases k1
        have hdl : dl = granted s key (satAdd m.issuedAt s.sessionExpiresIn) := ((C26_create E s key _ dl).mp hd).2.2.2
        rw [hdl] at hdh
        have hent : IsEntry E s addr key (satAdd m.issuedAt s.sessionExpiresIn) (seedKey E s ⟨addr⟩) dh := isEntry_seedKey hdh
        refine .changed (by simp) (by simp) k2 (fun sh d hh => ?_) (fun x hx => ?_) (fun sh d hp => ?_) (fun sh d hh => ?_)
        · rcases (k4 sh d).mp hh with ⟨rfl, rfl⟩ | hh
          · exact .inl (.inr ⟨sig, addr, key, cid, nonce, _, s, rfl, rfl, hs, hent⟩)
          · exact .inr ⟨((g4 sh d).mp hh).1, by simp⟩
        · rw [k3, mem_heapPush] at hx
          rcases hx with rfl | hx
          · exact .inr ⟨expiry_entry _ dh now, .inr ⟨sig, addr, key, cid, nonce, _, s, rfl, rfl, hs, hent⟩⟩
          · exact .inl (g3.split.mem_iff.mpr (List.mem_append_right _ hx))
        · rcases hp with hp | ⟨sig', addr', key', cid', nonce', d', s', hp, hr, hs', he⟩
          · cases hp
          · cases hp
            cases hr
            rw [hs] at hs'; cases hs'
            obtain ⟨rfl, rfl⟩ := isEntry_unique he hent
            exact (k4 _ _).mpr (.inl ⟨rfl, rfl⟩)
        · rcases prune_keeps g3 g4 sh d hh with h | h
          · exact .inl ((k4 sh d).mpr (.inr h))
          · exact .inr (.inr h)
    · exact .same (setMap_ne _ _ hj) (by simp) (by simp) (by simp) (fun s d h => by
        rcases h with h | ⟨_, _, _, _, _, _, _, h, _⟩
        · cases h
        · exact hj (LibCall.login.inj h).1.symm)
  | witness => exact .same rfl (by simp) (by simp) (by simp) (by simp [PutsInto])
  | _ => exact .same rfl (by simp) (by simp) (by simp) (by simp [PutsInto])

theorem appInv_fresh (E : Env) : AppInv (AppState.fresh E) :=
  ⟨uniqueKeys_nil, fun _ => SigMap.ok_empty, fun h => absurd rfl h⟩

theorem appInv_step {E : Env} {st : AppState E} (hi : AppInv st) (now : UInt64) (c : LibCall) :
    AppInv (appStep st now c).1 := by
  refine ⟨?_, fun j => ?_, ?_⟩
  · cases lib_effect hi now c with
    | reset _ h => rw [h]; exact uniqueKeys_nil
    | init s _ h => rw [h]; exact hi.keys
    | seeded _ _ h => rw [h]; exact hi.keys
    | issued _ _ _ _ _ _ _ _ _ _ _ _ _ _ _ _ h => exact h
    | attempted _ _ _ _ _ _ _ _ _ _ _ _ _ _ _ h => exact h
    | same _ _ _ _ _ _ h => rw [h]; exact hi.keys
  · cases libMap_effect hi now c j with
    | emptied _ h => rw [h]; exact SigMap.ok_empty
    | same h => rw [h]; exact hi.sigs j
    | changed _ _ h => exact h
  · cases lib_effect hi now c with
    | reset _ h => rw [h]; exact fun h => absurd rfl h
    | init s _ h => rw [h]; exact fun _ => by simp [libInit]
    | seeded _ _ h => rw [h]; exact hi.configured
    | issued _ _ _ _ s _ _ _ _ _ _ h => rw [h]; exact fun _ => by simp
    | attempted _ _ _ _ _ _ _ _ _ _ _ _ h _ _ _ h' => rw [h]; exact fun g => hi.configured (h' g)
    | same _ _ _ _ _ _ h => rw [h]; exact hi.configured

/-! ### histories -/

theorem appRun_append {E : Env} (s : AppState E) (h h' : LibHistory) : appRun s (h ++ h') = appRun (appRun s h) h' := by
  induction h generalizing s with
  | nil => rfl
  | cons x h ih => obtain ⟨now, c⟩ := x; simp only [List.cons_append, appRun, ih]

theorem libTraceFrom_append {E : Env} (s : AppState E) (h h' : LibHistory) :
    libTraceFrom s (h ++ h') = libTraceFrom s h ++ libTraceFrom (appRun s h) h' := by
  induction h generalizing s with
  | nil => rfl
  | cons x h ih => obtain ⟨now, c⟩ := x; simp only [List.cons_append, libTraceFrom, appRun, ih]

theorem appAfter_snoc (E : Env) (h : LibHistory) (now : UInt64) (c : LibCall) :
    appAfter E (h ++ [(now, c)]) = (appStep (appAfter E h) now c).1 := appRun_append _ _ _

theorem libTrace_snoc (E : Env) (h : LibHistory) (now : UInt64) (c : LibCall) :
    libTrace E (h ++ [(now, c)]) = libTrace E h ++ [⟨now, c, (appStep (appAfter E h) now c).2⟩] := libTraceFrom_append _ _ _

/-- Induction on a history, last use last. -/
theorem libHistory_induction {P : LibHistory → Prop} (nil : P []) (snoc : ∀ h now c, P h → P (h ++ [(now, c)]))
    (h : LibHistory) : P h := by
  have : ∀ r : LibHistory, P r.reverse := by
    intro r
    induction r with
    | nil => exact nil
    | cons x r ih => rw [List.reverse_cons]; exact snoc _ x.1 x.2 ih
  simpa using this h.reverse

theorem appInv_after (E : Env) (h : LibHistory) : AppInv (appAfter E h) := by
  induction h using libHistory_induction with
  | nil => exact appInv_fresh E
  | snoc h now c ih => rw [appAfter_snoc]; exact appInv_step ih now c

/-- Splitting the uses splits the history. -/
theorem libTraceFrom_split {E : Env} {s : AppState E} {h : LibHistory} {before : List LibEvent} {e : LibEvent}
    {after : List LibEvent} (ht : libTraceFrom s h = before ++ e :: after) :
    ∃ h1 h2, h = h1 ++ (e.time, e.call) :: h2 ∧ before = libTraceFrom s h1 ∧
      e.reply = (appStep (appRun s h1) e.time e.call).2 ∧ after = libTraceFrom (appStep (appRun s h1) e.time e.call).1 h2 := by
  induction h generalizing s before with
  | nil => simp [libTraceFrom] at ht
  | cons x h ih =>
    obtain ⟨now, c⟩ := x
    simp only [libTraceFrom] at ht
    cases before with
    | nil =>
      simp only [List.nil_append, List.cons.injEq] at ht
      obtain ⟨h1, h2⟩ := ht
      subst h1
      exact ⟨[], h, rfl, rfl, rfl, h2.symm⟩
    | cons b before =>
      simp only [List.cons_append, List.cons.injEq] at ht
      obtain ⟨h1, h2⟩ := ht
      obtain ⟨g1, g2, e1, e2, e3, e4⟩ := ih h2
      exact ⟨(now, c) :: g1, g2, by rw [e1]; rfl, by rw [← h1, e2]; rfl, e3, e4⟩

theorem sameRun_nil : SameRun [] := fun _ h => by simp at h

theorem sameRun_snoc {es : List LibEvent} {e : LibEvent} : SameRun (es ++ [e]) ↔ SameRun es ∧ e.call ≠ .restart := by
  simp [SameRun, or_imp, forall_and]

/-! ### the configuration in force -/

theorem configured_snoc {es : List LibEvent} {e : LibEvent} {s : Settings} :
    ConfiguredWith (es ++ [e]) s ↔ e.call = .init s ∨ (ConfiguredWith es s ∧ e.call ≠ .restart ∧ ∀ s', e.call ≠ .init s') := by
  constructor
  · rintro ⟨before, x, after, h1, h2, h3, h4⟩
    rcases List.eq_nil_or_concat after with rfl | ⟨a, y, rfl⟩
    · have := List.append_inj' h1 rfl
      simp only [List.cons.injEq, and_true] at this
      exact .inl (this.2 ▸ h4)
    · rw [List.concat_eq_append] at *
      rw [show before ++ x :: (a ++ [y]) = (before ++ x :: a) ++ [y] by simp] at h1
      obtain ⟨e1, e2⟩ := List.append_inj' h1 rfl
      simp only [List.cons.injEq, and_true] at e2
      subst e2
      obtain ⟨g1, g2⟩ := sameRun_snoc.mp (by simpa using h2)
      exact .inr ⟨⟨before, x, a, e1, g1, fun z hz => h3 z (by simp [hz]), h4⟩, g2, h3 e (by simp)⟩
  · rintro (h | ⟨⟨before, x, after, h1, h2, h3, h4⟩, g1, g2⟩)
    · exact ⟨es, e, [], rfl, sameRun_nil, by simp, h⟩
    · refine ⟨before, x, after ++ [e], by rw [h1]; simp, sameRun_snoc.mpr ⟨h2, g1⟩, fun z hz => ?_, h4⟩
      rcases List.mem_append.mp hz with hz | hz
      · exact h3 z hz
      · rw [List.mem_singleton] at hz; subst hz; exact g2

theorem not_configured_nil {s : Settings} : ¬ConfiguredWith [] s := by
  rintro ⟨b, e, a, h, _⟩; simp at h

/-- The stored settings are those in force. -/
theorem configured_iff (E : Env) (h : LibHistory) (s : Settings) :
    ConfiguredWith (libTrace E h) s ↔ (appAfter E h).lib.settings = some s := by
  induction h using libHistory_induction generalizing s with
  | nil => exact ⟨fun h => absurd h not_configured_nil, fun h => by cases h⟩
  | snoc h now c ih =>
    rw [appAfter_snoc, libTrace_snoc, configured_snoc, ih]
    have key : ∀ l' : LibState E, l'.settings = (appAfter E h).lib.settings → c ≠ .restart → (∀ s, c ≠ .init s) →
        (c = .init s ∨ ((appAfter E h).lib.settings = some s ∧ c ≠ .restart ∧ ∀ s', c ≠ .init s') ↔ l'.settings = some s) := by
      intro l' h1 h2 h3
      rw [h1]
      exact ⟨fun h => h.elim (fun h => absurd h (h3 s)) (·.1), fun h => .inr ⟨h, h2, h3⟩⟩
    cases lib_effect (appInv_after E h) now c with
    | reset h1 h2 => rw [h2]; subst h1; simp [LibState.initial]
    | init s' h1 h2 => rw [h2]; subst h1; simp [libInit]
    | seeded x h1 h2 => rw [h2]; exact key (seedRng _ x) rfl (by simp [h1]) (by simp [h1])
    | issued _ _ _ _ s' _ _ _ h1 _ h2 h3 => exact key _ (h3.trans h2.symm) (by simp [h1]) (by simp [h1])
    | attempted _ _ _ _ _ _ _ _ _ _ _ h1 h2 => exact key _ h2 (by simp [h1]) (by simp [h1])
    | same h1 h2 _ _ _ _ h3 => exact key _ (by rw [h3]) h1 h2

theorem seeded_snoc {es : List LibEvent} {e : LibEvent} :
    Seeded (es ++ [e]) ↔ (∃ x, e.call = .rngSeeded x) ∨ (Seeded es ∧ e.call ≠ .restart) := by
  constructor
  · rintro ⟨before, x, after, seed, h1, h2, h4⟩
    rcases List.eq_nil_or_concat after with rfl | ⟨a, y, rfl⟩
    · have := List.append_inj' h1 rfl
      simp only [List.cons.injEq, and_true] at this
      exact .inl ⟨seed, this.2 ▸ h4⟩
    · rw [List.concat_eq_append] at *
      rw [show before ++ x :: (a ++ [y]) = (before ++ x :: a) ++ [y] by simp] at h1
      obtain ⟨e1, e2⟩ := List.append_inj' h1 rfl
      simp only [List.cons.injEq, and_true] at e2
      subst e2
      obtain ⟨g1, g2⟩ := sameRun_snoc.mp (by simpa using h2)
      exact .inr ⟨⟨before, x, a, seed, e1, g1, h4⟩, g2⟩
  · rintro (⟨x, h⟩ | ⟨⟨before, x, after, seed, h1, h2, h4⟩, g1⟩)
    · exact ⟨es, e, [], x, rfl, sameRun_nil, h⟩
    · exact ⟨before, x, after ++ [e], seed, by rw [h1]; simp, sameRun_snoc.mpr ⟨h2, g1⟩, h4⟩

/-- The generator exists iff it was seeded. -/
theorem seeded_iff (E : Env) (h : LibHistory) : Seeded (libTrace E h) ↔ (appAfter E h).lib.rng ≠ none := by
  induction h using libHistory_induction with
  | nil =>
    refine ⟨fun h => ?_, fun h => absurd rfl h⟩
    obtain ⟨b, e, a, _, h, _⟩ := h
    simp [libTrace, libTraceFrom] at h
  | snoc h now c ih =>
    rw [appAfter_snoc, libTrace_snoc, seeded_snoc, ih]
    cases lib_effect (appInv_after E h) now c with
    | reset h1 h2 => rw [h2]; subst h1; simp [LibState.initial]
    | init s' h1 h2 => rw [h2]; subst h1; simp [libInit]
    | seeded x h1 h2 => rw [h2]; subst h1; simp [seedRng]
    | issued _ _ _ _ s' _ _ _ h1 _ _ _ h2 h3 => subst h1; simp [h2, h3]
    | attempted _ _ _ _ _ _ _ _ _ _ _ h1 _ h2 => subst h1; simp [h2]
    | same h1 h2 h3 _ _ _ h4 =>
      rw [h4]
      exact ⟨fun h => h.elim (fun ⟨x, h⟩ => absurd h (h3 x)) (·.1), fun h => .inr ⟨h, h1⟩⟩

/-- Where a kept message comes from: the last message issued under its key, and no attempt since. -/
theorem kept_origin (E : Env) (h : LibHistory) (k : Hash) (m : SiweMessage)
    (hp : (appAfter E h).lib.messages.lookup k = some m) :
    ∃ before e after addr nonce bs s, libTrace E h = before ++ e :: after ∧ SameRun after ∧ e.Prepares addr nonce m ∧
      IsAddress E.keccak addr ∧ bs.length = 20 ∧ Spells (addr.drop 2) bs ∧ k = storeKey E bs nonce ∧
      ConfiguredWith before s ∧ m = SiweMessage.new s e.time ⟨addr⟩ nonce ∧
      ∀ x ∈ after, ∀ addr' nonce' bs', x.Tries addr' nonce' → bs'.length = 20 → Spells (addr'.drop 2) bs' →
        k ≠ storeKey E bs' nonce' := by
  induction h using libHistory_induction with
  | nil => cases hp
  | snoc h now c ih =>
    rw [appAfter_snoc] at hp
    rw [libTrace_snoc]
    have hi := appInv_after E h
    have carry : ∀ r, c ≠ .restart → (∀ addr' nonce' bs', LibEvent.Tries ⟨now, c, r⟩ addr' nonce' → bs'.length = 20 →
          Spells (addr'.drop 2) bs' → k ≠ storeKey E bs' nonce') →
        (appAfter E h).lib.messages.lookup k = some m →
        ∃ before e after addr nonce bs s, libTrace E h ++ [⟨now, c, r⟩] = before ++ e :: after ∧ SameRun after ∧
          e.Prepares addr nonce m ∧ IsAddress E.keccak addr ∧ bs.length = 20 ∧ Spells (addr.drop 2) bs ∧ k = storeKey E bs nonce ∧
          ConfiguredWith before s ∧ m = SiweMessage.new s e.time ⟨addr⟩ nonce ∧
          ∀ x ∈ after, ∀ addr' nonce' bs', x.Tries addr' nonce' → bs'.length = 20 → Spells (addr'.drop 2) bs' →
            k ≠ storeKey E bs' nonce' := by
      intro r hc ht hl
      obtain ⟨before, e, after, addr, nonce, bs, s, g1, g2, g3, g4, g5, g6, g7, g8, g9, g10⟩ := ih hl
      refine ⟨before, e, after ++ [⟨now, c, r⟩], addr, nonce, bs, s, by rw [g1]; simp, sameRun_snoc.mpr ⟨g2, hc⟩, g3, g4, g5, g6,
        g7, g8, g9, fun x hx => ?_⟩
      rcases List.mem_append.mp hx with hx | hx
      · exact g10 x hx
      · rw [List.mem_singleton] at hx; subst hx; exact ht
    have noTry : ∀ r, (∀ i sig a k cid n, c ≠ .login i sig a k cid n) → ∀ addr' nonce' bs', LibEvent.Tries ⟨now, c, r⟩ addr' nonce' →
        bs'.length = 20 → Spells (addr'.drop 2) bs' → k ≠ storeKey E bs' nonce' := by
      rintro r hc addr' nonce' bs' ⟨⟨i, sig, key, cid, hl⟩, _⟩
      exact absurd hl (hc _ _ _ _ _ _)
    cases lib_effect hi now c with
    | reset h1 h2 => rw [h2] at hp; cases hp
    | init s' h1 h2 => rw [h2] at hp; exact carry _ (by simp [h1]) (noTry _ (by simp [h1])) hp
    | seeded x h1 h2 => rw [h2] at hp; exact carry _ (by simp [h1]) (noTry _ (by simp [h1])) hp
    | issued addr bs nonce m' s g1 g2 g3 g4 g5 g6 g7 _ _ g8 g9 _ =>
      rw [g9 k] at hp
      by_cases hk : k = storeKey E bs nonce
      · rw [if_pos hk] at hp
        have := Option.some.inj hp
        subst this
        exact ⟨libTrace E h, _, [], addr, nonce, bs, s, rfl, sameRun_nil, ⟨g4, g5⟩, g1, g2, g3, hk,
          (configured_iff E h s).mpr g6, g8, by simp⟩
      · rw [if_neg hk] at hp
        exact carry _ (by simp [g4]) (noTry _ (by simp [g4])) hp
    | attempted i sig addr key cid nonce bs g1 g2 g3 g4 g5 _ _ g7 _ _ _ =>
      obtain ⟨f1, f2, f3⟩ := (g7 k m).mp hp
      refine carry _ (by simp [g5]) ?_ f1
      rintro addr' nonce' bs' ⟨⟨i', sig', key', cid', hl⟩, _⟩ hb hsp
      simp only [g5, LibCall.login.injEq] at hl
      obtain ⟨_, _, rfl, _, _, rfl⟩ := hl
      rwa [spells_unique hsp g4]
    | same h1 _ _ _ g4 g5 g6 =>
      rw [g6] at hp
      refine carry _ h1 ?_ hp
      rintro addr' nonce' bs' ⟨_, ⟨e, he⟩ | ⟨d, hd⟩⟩
      · exact absurd he (g5 e)
      · exact absurd hd (g4 d)

theorem kept_iff {E : Env} {l : LibState E} {addr nonce bs : Bytes} {m : SiweMessage} (hl : bs.length = 20)
    (hs : Spells (addr.drop 2) bs) : Kept l addr nonce m ↔ l.messages.lookup (storeKey E bs nonce) = some m := by
  constructor
  · rintro ⟨bs', _, h2, h3⟩
    rw [spells_unique h2 hs] at h3
    exact h3
  · intro h; exact ⟨bs, hl, hs, h⟩

theorem messageFor_new (s : Settings) (now : UInt64) (addr nonce : Bytes) :
    MessageFor s now addr nonce (SiweMessage.new s now ⟨addr⟩ nonce) :=
  ⟨rfl, rfl, rfl, rfl, rfl, rfl, rfl, rfl, rfl, by simp [SiweMessage.new, satAdd_toNat]⟩

end Siwe
