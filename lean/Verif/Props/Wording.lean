import Verif.Spec.Wording
import Verif.Props.Login
import Verif.Props.Settings
import Verif.Examples.Histories
/-
C144: domain, scheme, chain id, statement and, unless it is part of the seed, URI influence nothing but the text that is signed.
-/
namespace Siwe
open Spec

/-- Two messages that agree on everything but the wording, or but the scheme if `only` holds. -/
def MessageTwin (only : Prop) (m m' : SiweMessage) : Prop :=
  ∃ d u sc c st, m' = { m with domain := d, uri := u, scheme := sc, chainId := c, statement := st } ∧
    (only → d = m.domain ∧ u = m.uri ∧ c = m.chainId ∧ st = m.statement)

theorem MessageTwin.text {only : Prop} {m m' : SiweMessage} (h : MessageTwin only m m') (ho : only) (ε : Type) :
    m'.text (ε := ε) = m.text := by
  obtain ⟨d, u, sc, c, st, rfl, g⟩ := h
  obtain ⟨rfl, rfl, rfl, rfl⟩ := g ho
  rfl

/-- Two settings that do. -/
def SettingsTwin (only : Prop) (x x' : Settings) : Prop :=
  ∃ d u sc c st, x' = { x with domain := d, uri := u, scheme := sc, chainId := c, statement := st } ∧
    (u = x.uri ∨ uriInSeed x = false) ∧ (only → d = x.domain ∧ u = x.uri ∧ c = x.chainId ∧ st = x.statement)

theorem SettingsTwin.message {only : Prop} {x x' : Settings} (h : SettingsTwin only x x') (now : UInt64) (a : EthAddress) (n : Bytes) :
    MessageTwin only (SiweMessage.new x now a n) (SiweMessage.new x' now a n) := by
  obtain ⟨d, u, sc, c, st, rfl, _, g⟩ := h
  exact ⟨d, u, sc, c, st, rfl, g⟩

theorem SettingsTwin.seed {only : Prop} {x x' : Settings} (h : SettingsTwin only x x') (E : Env) (a : EthAddress) : generateSeed E x' a = generateSeed E x a := by
  obtain ⟨d, u, sc, c, st, rfl, hu, _⟩ := h
  unfold generateSeed seedInput
  rcases hu with rfl | hu
  · rfl
  · have : uriInSeed { x with domain := d, uri := u, scheme := sc, chainId := c, statement := st } = false := hu
    rw [this, hu]
    rfl

theorem SettingsTwin.delegation {only : Prop} {x x' : Settings} (h : SettingsTwin only x x') (E : Env) (k : Bytes) (e : UInt64) :
    createDelegation E x' k e = createDelegation E x k e := by
  obtain ⟨d, u, sc, c, st, rfl, _⟩ := h
  rfl

theorem SettingsTwin.session {only : Prop} {x x' : Settings} (h : SettingsTwin only x x') : x'.sessionExpiresIn = x.sessionExpiresIn := by
  obtain ⟨d, u, sc, c, st, rfl, _⟩ := h
  rfl

/-- Two maps of pending messages that do, entry by entry. -/
inductive MessagesTwin (only : Prop) : SiweMessageMap → SiweMessageMap → Prop
  | nil : MessagesTwin only [] []
  | cons (h : Hash) {m m' : SiweMessage} {l l' : SiweMessageMap} : MessageTwin only m m' → MessagesTwin only l l' →
      MessagesTwin only ((h, m) :: l) ((h, m') :: l')

theorem MessagesTwin.filter {only : Prop} {l l' : SiweMessageMap} (h : MessagesTwin only l l') (p : Hash × SiweMessage → Bool)
    (hp : ∀ k m m', MessageTwin only m m' → p (k, m) = p (k, m')) : MessagesTwin only (l.filter p) (l'.filter p) := by
  induction h with
  | nil => exact .nil
  | cons k hm _ ih =>
    simp only [List.filter_cons, ← hp k _ _ hm]
    split
    · exact .cons k hm ih
    · exact ih

theorem MessagesTwin.pruned {only : Prop} {l l' : SiweMessageMap} (h : MessagesTwin only l l') (now : UInt64) :
    MessagesTwin only (l.pruneExpired now) (l'.pruneExpired now) :=
  h.filter _ fun k m m' hm => by obtain ⟨d, u, sc, c, st, rfl, _⟩ := hm; rfl

theorem MessagesTwin.erased {only : Prop} {l l' : SiweMessageMap} (h : MessagesTwin only l l') (k : Hash) :
    MessagesTwin only (SiweMessageMap.erase l k) (SiweMessageMap.erase l' k) :=
  h.filter _ fun _ _ _ _ => rfl

theorem MessagesTwin.found {only : Prop} {l l' : SiweMessageMap} (h : MessagesTwin only l l') (k : Hash) :
    (l.lookup k = none ∧ l'.lookup k = none) ∨ ∃ m m', l.lookup k = some m ∧ l'.lookup k = some m' ∧ MessageTwin only m m' := by
  induction h with
  | nil => exact .inl ⟨rfl, rfl⟩
  | cons j hm _ ih =>
    simp only [List.lookup_cons]
    cases hj : k == j with
    | true => exact .inr ⟨_, _, rfl, rfl, hm⟩
    | false => exact ih

/-- Two states that agree on everything but the wording. -/
structure WordingTwin {E : Env} (only : Prop) (s s' : State E) : Prop where
  rng : s.lib.rng = s'.lib.rng
  messages : MessagesTwin only s.lib.messages s'.lib.messages
  provider : s.settings = s'.settings
  addresses : s.principalAddress = s'.principalAddress
  principals : s.addressPrincipal = s'.addressPrincipal
  sigs : s.sigMap = s'.sigMap
  settings : (s.lib.settings = none ∧ s'.lib.settings = none) ∨
    ∃ x x', s.lib.settings = some x ∧ s'.lib.settings = some x' ∧ SettingsTwin only x x'

theorem wordingTwin_fresh (E : Env) (only : Prop) : WordingTwin only (State.fresh E) (State.fresh E) :=
  ⟨rfl, .nil, rfl, rfl, rfl, rfl, .inl ⟨rfl, rfl⟩⟩

theorem map_some_injective {α : Type} : ∀ {l l' : List α}, l.map some = l'.map some → l = l'
  | [], [], _ => rfl
  | [], _ :: _, h => nomatch h
  | _ :: _, [], h => nomatch h
  | _ :: _, _ :: _, h => by
    simp only [List.map_cons, List.cons.injEq, Option.some.injEq] at h
    rw [h.1, map_some_injective h.2]

theorem configures_wording {E : Env} {only : Prop} {i i' : SettingsInput} {x x' : Settings} {p p' : ProviderSettings} (h : Configures E i x p)
    (h' : Configures E i' x' p') {d u : Bytes} {sc : Option Bytes} {c : Option UInt32} {st : Option Bytes}
    (hi : i' = { i with domain := d, uri := u, scheme := sc, chainId := c, statement := st })
    (hu : u = i.uri ∨ .includeUriInSeed ∉ i.runtimeFeatures.getD [])
    (ho : only → d = i.domain ∧ u = i.uri ∧ c = i.chainId ∧ st = i.statement) : SettingsTwin only x x' ∧ p = p' := by
  subst hi
  have ht : x'.targets = x.targets := by
    cases hts : i.targets with
    | none => rw [h.noTargets hts, h'.noTargets hts]
    | some ts =>
      obtain ⟨q, h1, h2, _⟩ := h.targets ts hts
      obtain ⟨q', h1', h2', _⟩ := h'.targets ts hts
      rw [h1, h1', map_some_injective (h2.symm.trans h2')]
  refine ⟨⟨x'.domain, x'.uri, x'.scheme, x'.chainId, x'.statement, ?_, ?_, fun g => ?_⟩, ?_⟩
  · have h2 := h.salt.trans h'.salt.symm
    have h3 := h.signIn.trans h'.signIn.symm
    have h4 := h.session.trans h'.session.symm
    have h5 := h.uriFeature.trans h'.uriFeature.symm
    cases x; cases x'
    simp_all
  · rcases hu with hu | hu
    · exact .inl ((h'.uri.trans hu).trans h.uri.symm)
    · right
      have := h.uriFeature
      rw [if_neg hu] at this
      unfold uriInSeed
      rw [this]
  · obtain ⟨rfl, rfl, rfl, rfl⟩ := ho g
    exact ⟨h'.domain.trans h.domain.symm, h'.uri.trans h.uri.symm, h'.chainId.trans h.chainId.symm,
      h'.statement.trans h.statement.symm⟩
  · have h1 := h.ethToPrincipal.trans h'.ethToPrincipal.symm
    have h2 := h.principalToEth.trans h'.principalToEth.symm
    cases p; cases p'
    simp only at h1 h2
    rw [Bool.eq_iff_iff.mpr h1, Bool.eq_iff_iff.mpr h2]

theorem installs_settings {E : Env} {i : SettingsInput} (h : Installs E i) : ∃ x p, Configures E i x p ∧ ValidSettings E x := by
  unfold Installs at h
  simp only [step] at h
  cases hi : siweInit (State.fresh E) i with
  | err e => exact nomatch e
  | panic => rw [hi] at h; cases h
  | ok t =>
    obtain ⟨x, p, h1, h2, _⟩ := (siweInit_ok _ _ _ rfl).mp hi
    exact ⟨x, p, h1, h2⟩

theorem init_wording {E : Env} {only : Prop} {a a' s s' : State E} {i i' : SettingsInput} (hs : SameButWording E i i')
    (ho : only → i'.domain = i.domain ∧ i'.uri = i.uri ∧ i'.chainId = i.chainId ∧ i'.statement = i.statement)
    (h1 : a.settings = ⟨false, false⟩) (h2 : a'.settings = ⟨false, false⟩) (ht : WordingTwin only a a') :
    WordingTwin only (commitInit s (siweInit a i)).1 (commitInit s' (siweInit a' i')).1 ∧
      (commitInit s (siweInit a i)).2 = (commitInit s' (siweInit a' i')).2 := by
  obtain ⟨g, g', d, u, sc, c, st, hi, hu⟩ := hs
  obtain ⟨x, p, hc, hv⟩ := installs_settings g
  obtain ⟨x', p', hc', hv'⟩ := installs_settings g'
  obtain ⟨hx, hp⟩ := configures_wording (only := only) hc hc' hi hu (by subst hi; exact ho)
  rw [(siweInit_ok a _ i h1).mpr ⟨x, p, hc, hv, rfl⟩, (siweInit_ok a' _ i' h2).mpr ⟨x', p', hc', hv', rfl⟩]
  exact ⟨⟨ht.rng, ht.messages, hp, ht.addresses, ht.principals, ht.sigs, .inr ⟨x, x', rfl, rfl, hx⟩⟩, rfl⟩

/-- The same configuration for both. -/
theorem init_same {E : Env} {only : Prop} {a a' s s' : State E} (i : SettingsInput) (h1 : a.settings = ⟨false, false⟩)
    (h2 : a'.settings = ⟨false, false⟩) (ht : WordingTwin only a a') (hss : WordingTwin only s s') :
    WordingTwin only (commitInit s (siweInit a i)).1 (commitInit s' (siweInit a' i)).1 ∧
      (commitInit s (siweInit a i)).2 = (commitInit s' (siweInit a' i)).2 := by
  cases h : siweInit a i with
  | err e => exact nomatch e
  | ok t =>
    obtain ⟨x, p, hc, hv, rfl⟩ := (siweInit_ok a t i h1).mp h
    rw [(siweInit_ok a' _ i h2).mpr ⟨x, p, hc, hv, rfl⟩]
    exact ⟨⟨ht.rng, ht.messages, rfl, ht.addresses, ht.principals, ht.sigs, .inr ⟨x, x, rfl, rfl, _, _, _, _, _, rfl, .inl rfl, fun _ => ⟨rfl, rfl, rfl, rfl⟩⟩⟩, rfl⟩
  | panic =>
    cases h' : siweInit a' i with
    | err e => exact nomatch e
    | panic => exact ⟨hss, rfl⟩
    | ok t' =>
      obtain ⟨x, p, hc, hv, rfl⟩ := (siweInit_ok a' t' i h2).mp h'
      rw [(siweInit_ok a _ i h1).mpr ⟨x, p, hc, hv, rfl⟩] at h
      cases h

theorem prepare_wording {E : Env} {only : Prop} {s s' : State E} (ht : WordingTwin only s s') (now : UInt64) (a : Bytes) :
    WordingTwin only (step s now (.prepareLogin a)).1 (step s' now (.prepareLogin a)).1 ∧
      SameButText (.prepareLogin a) (step s now (.prepareLogin a)).2 (step s' now (.prepareLogin a)).2 ∧
      (only → (step s now (.prepareLogin a)).2 = (step s' now (.prepareLogin a)).2) := by
  simp only [step]
  by_cases hA : IsAddress E.keccak a
  · rcases siwePrepareLogin_cases s now a with ⟨_, h, _⟩ | ⟨_, hn, hc⟩ | ⟨bs, r, x, txt, _, hb, hl, hr, hx, htx, _, hc⟩
    · exact absurd hA h
    · have hn' : s'.lib.rng = none ∨ s'.lib.settings = none := by
        rcases hn with hn | hn
        · exact .inl (ht.rng ▸ hn)
        · rcases ht.settings with ⟨_, h⟩ | ⟨x, x', h, _⟩
          · exact .inr h
          · rw [hn] at h; cases h
      rcases siwePrepareLogin_cases s' now a with ⟨_, h, _⟩ | ⟨_, _, hc'⟩ | ⟨bs, r, x, txt, _, hb, hl, hr, hx, htx, _, hc'⟩
      · exact absurd hA h
      · rw [hc, hc']; exact ⟨ht, .equal _ _, fun _ => rfl⟩
      · rcases hn' with h | h
        · rw [h] at hr; cases hr
        · rw [h] at hx; cases hx
    · rcases siwePrepareLogin_cases s' now a with ⟨_, h, _⟩ | ⟨_, hn', hc'⟩ | ⟨bs', r', x', txt', _, hb', hl', hr', hx', htx', _, hc'⟩
      · exact absurd hA h
      · exfalso
        rcases hn' with h | h
        · rw [ht.rng, h] at hr; cases hr
        · rcases ht.settings with ⟨h', _⟩ | ⟨y, y', _, h', _⟩
          · rw [h'] at hx; cases hx
          · rw [h] at h'; cases h'
      · have e1 : bs = bs' := by rw [hb] at hb'; cases hb'; rfl
        have e2 : r = r' := by rw [ht.rng, hr'] at hr; cases hr; rfl
        subst e1 e2
        rcases ht.settings with ⟨h', _⟩ | ⟨y, y', h1, h2, h3⟩
        · rw [h'] at hx; cases hx
        · rw [hx] at h1; cases h1
          rw [hx'] at h2; cases h2
          rw [hc, hc']
          refine ⟨⟨rfl, ?_, ht.provider, ht.addresses, ht.principals, ht.sigs, .inr ⟨x, x', hx, hx', h3⟩⟩, .prepared _ _ _ _, fun ho => ?_⟩
          · exact .cons _ (h3.message _ _ _) (ht.messages.erased _)
          · have e3 : txt = txt' := Res.ok.inj ((htx.symm.trans ((h3.message _ _ _).text ho _).symm).trans htx')
            subst e3
            rfl
  · have key : ∀ t : State E, ∃ e, EthAddress.new E a = .err e ∧ siwePrepareLogin t now a = (t, .err (.eth e)) := by
      intro t
      cases hn : EthAddress.new E a with
      | panic => exact absurd hn (ethAddress_new_no_panic E a)
      | ok y => exact absurd ((ethAddress_new_ok_iff E a y).mp hn).1 hA
      | err e => exact ⟨e, rfl, by simp only [siwePrepareLogin, hn]⟩
    obtain ⟨e, h1, hc⟩ := key s
    obtain ⟨e', h2, hc'⟩ := key s'
    rw [h1] at h2; cases h2
    rw [hc, hc']
    exact ⟨ht, .equal _ _, fun _ => rfl⟩

theorem check_error {E : Env} {text : Bytes} {sig : EthSignature} {addr : EthAddress} {e : LoginError}
    (h : checkSignature E text sig addr = .err e) : OfSignature e := by
  unfold checkSignature at h
  split at h
  · split at h
    · cases h; trivial
    · cases h
  · cases h; trivial
  · cases h

/-- Two logins for which the message is found. -/
theorem found_wording {E : Env} {only : Prop} {s s' t t' : State E} (ht : WordingTwin only s s') {now : UInt64}
    {a k bs n sig : Bytes} {m m' : SiweMessage} {c c' : Res LoginError Unit} (hm : MessageTwin only m m') (hcc : c = .ok () ↔ c' = .ok ())
    (he : ∀ e, c = .err e → OfSignature e) (he' : ∀ e, c' = .err e → OfSignature e) {r r' : Res ProviderError LoginDetails}
    (h : LoginFound s now a k bs n m c t r) (h' : LoginFound s' now a k bs n m' c' t' r') :
    WordingTwin only t t' ∧ SameButText (.login sig a k n) (reply .loggedIn r) (reply .loggedIn r') ∧ (c = c' → r = r') := by
  have hi : m'.issuedAt = m.issuedAt := by obtain ⟨d, u, sc, c, st, rfl, _⟩ := hm; rfl
  have used : ∀ {u u' : State E}, u.lib = usedLib s.lib now (storeKey E bs n) → u'.lib = usedLib s'.lib now (storeKey E bs n) →
      u.settings = u'.settings → u.principalAddress = u'.principalAddress → u.addressPrincipal = u'.addressPrincipal →
      u.sigMap = u'.sigMap → WordingTwin only u u' := by
    intro u u' h1 h2 h3 h4 h5 h6
    exact ⟨by rw [h1, h2]; exact ht.rng, by rw [h1, h2]; exact (ht.messages.pruned now).erased _, h3, h4, h5, h6,
      by rw [h1, h2]; exact ht.settings⟩
  have twin : ∀ {x x'}, s.lib.settings = some x → s'.lib.settings = some x' → SettingsTwin only x x' := by
    intro x x' hx hx'
    rcases ht.settings with ⟨g, _⟩ | ⟨y, y', g1, g2, g3⟩
    · rw [hx] at g; cases g
    · rw [hx] at g1; cases g1
      rw [hx'] at g2; cases g2
      exact g3
  cases h with
  | badSignature e hc =>
    cases h' with
    | badSignature e' hc' =>
      refine ⟨used rfl rfl ht.provider ht.addresses ht.principals ht.sigs, .refused _ _ _ _ _ _ (he e hc) (he' e' hc'), fun h => ?_⟩
      rw [h, hc'] at hc; cases hc; rfl
    | badKey x q sm e' hc' => rw [hcc.mpr hc'] at hc; cases hc
    | success x q sm sm' d dh hc' => rw [hcc.mpr hc'] at hc; cases hc
  | badKey x q sm e hc hx hpr hd =>
    cases h' with
    | badSignature e' hc' => rw [hcc.mp hc] at hc'; cases hc'
    | badKey x' q' sm' e' hc' hx' hpr' hd' =>
      rw [hi, (twin hx hx').delegation, (twin hx hx').session] at hd'
      have h1 : e = e' := Res.err.inj (hd.symm.trans hd')
      rw [ht.sigs] at hpr
      have h2 := Prod.mk.inj (Res.ok.inj (hpr.symm.trans hpr'))
      rw [h1]
      exact ⟨used rfl rfl ht.provider ht.addresses ht.principals h2.2, .equal _ _, fun _ => rfl⟩
    | success x' q' sm' sm'' d dh hc' hx' hpr' hd' =>
      rw [hi, (twin hx hx').delegation, (twin hx hx').session] at hd'
      have := hd.symm.trans hd'
      cases this
  | success x q sm sm1 d dh hc hx hpr hd hdh hput =>
    cases h' with
    | badSignature e' hc' => rw [hcc.mp hc] at hc'; cases hc'
    | badKey x' q' sm' e' hc' hx' hpr' hd' =>
      rw [hi, (twin hx hx').delegation, (twin hx hx').session] at hd'
      have := hd.symm.trans hd'
      cases this
    | success x' q' sm' sm1' d' dh' hc' hx' hpr' hd' hdh' hput' =>
      have hseed := (twin hx hx').seed E ⟨a⟩
      have hk : seedKey E x' ⟨a⟩ = seedKey E x ⟨a⟩ := by unfold seedKey; rw [hseed]
      have hU : userKey E x' ⟨a⟩ = userKey E x ⟨a⟩ := by unfold userKey; rw [hseed]
      have hP : userPrincipal E x' ⟨a⟩ = userPrincipal E x ⟨a⟩ := by unfold userPrincipal; rw [hU]
      rw [hi, (twin hx hx').delegation, (twin hx hx').session] at hd'
      rw [hk] at hput'
      rw [hP, hU, hi, (twin hx hx').session]
      have h1 : d = d' := Res.ok.inj (hd.symm.trans hd')
      subst h1
      have h2 : dh = dh' := delegationHash_unique hdh hdh'
      subst h2
      rw [ht.sigs] at hpr
      have h3 := (Prod.mk.inj (Res.ok.inj (hpr.symm.trans hpr'))).2
      subst h3
      have h4 : sm1 = sm1' := Res.ok.inj (hput.symm.trans hput')
      subst h4
      refine ⟨used rfl rfl ht.provider ?_ ?_ rfl, .equal _ _, fun _ => rfl⟩
      · simp only [mappedState, ht.provider, ht.addresses]
      · simp only [mappedState, ht.provider, ht.principals]

theorem login_wording {E : Env} {only : Prop} {s s' : State E} (ht : WordingTwin only s s') (hi : Inv s) (hi' : Inv s') (now : UInt64)
    (sig sig' a k n : Bytes) (hs : HexString 130 sig) (hs' : HexString 130 sig')
    (hw : SignsWaiting s now sig a n ↔ SignsWaiting s' now sig' a n) :
    WordingTwin only (step s now (.login sig a k n)).1 (step s' now (.login sig' a k n)).1 ∧
      SameButText (.login sig a k n) (step s now (.login sig a k n)).2 (step s' now (.login sig' a k n)).2 ∧
      (only → sig' = sig → (step s now (.login sig a k n)).2 = (step s' now (.login sig' a k n)).2) := by
  simp only [step]
  rcases siweLogin_cases s hi.sigs hi.configured now sig a k n with ⟨e, h1, he, hc⟩ | ⟨e, h1, h2, he, hc⟩ |
    ⟨h1, h2, bs, hb, hsp, hc⟩ <;>
  rcases siweLogin_cases s' hi'.sigs hi'.configured now sig' a k n with ⟨e', h1', he', hc'⟩ | ⟨e', h1', h2', he', hc'⟩ |
    ⟨h1', h2', bs', hb', hsp', hc'⟩
  · rw [he] at he'; cases he'
    rw [hc, hc']; exact ⟨ht, .equal _ _, fun _ _ => rfl⟩
  · exact absurd h1' h1
  · exact absurd h1' h1
  · exact absurd h1 h1'
  · exact absurd hs h2
  · exact absurd hs h2
  · exact absurd h1 h1'
  · exact absurd hs' h2'
  · have : bs = bs' := spells_unique hsp hsp'
    subst this
    have hfound := (ht.messages.pruned now).found (storeKey E bs n)
    rcases hc with ⟨hl, hc⟩ | ⟨m, txt, t, r, hl, htx, _, hf, hc⟩ <;>
    rcases hc' with ⟨hl', hc'⟩ | ⟨m', txt', t', r', hl', htx', _, hf', hc'⟩
    · rw [hc, hc']
      exact ⟨⟨ht.rng, ht.messages.pruned now, ht.provider, ht.addresses, ht.principals, ht.sigs, ht.settings⟩, .equal _ _, fun _ _ => rfl⟩
    · rw [hl, hl'] at hfound
      rcases hfound with ⟨_, h⟩ | ⟨_, _, h, _⟩ <;> cases h
    · rw [hl, hl'] at hfound
      rcases hfound with ⟨h, _⟩ | ⟨_, _, _, h, _⟩ <;> cases h
    · have hm : MessageTwin only m m' := by
        rw [hl, hl'] at hfound
        rcases hfound with ⟨h, _⟩ | ⟨_, _, g, g', h⟩
        · cases h
        · cases g; cases g'; exact h
      have waiting : ∀ {u : State E} {v txt : Bytes} {m : SiweMessage}, Inv u →
          (u.lib.messages.pruneExpired now).lookup (storeKey E bs n) = some m → (∀ ε, m.text (ε := ε) = .ok txt) →
          (SignsWaiting u now v a n ↔ Signs E v txt a) := by
        intro u v txt m hu hlk htx
        obtain ⟨g1, g2⟩ := (lookup_prune hu.keys now _ m).mp hlk
        have hU : Usable u now a n m txt := ⟨(pending_iff hb hsp).mpr g1, g2, htx Empty⟩
        exact ⟨fun ⟨_, _, hu', hs⟩ => (usable_unique hU hu').2 ▸ hs, fun h => ⟨m, txt, hU, h⟩⟩
      have hcc := ((check_ok (text := txt) hs h1).trans (waiting hi hl htx).symm).trans
        (hw.trans ((waiting hi' hl' htx').trans (check_ok (text := txt') hs' h1').symm))
      have k1 := found_wording (sig := sig) ht hm hcc (fun _ => check_error) (fun _ => check_error) hf hf'
      have hp := hf.no_panic
      have hp' := hf'.no_panic
      have hr : only → sig' = sig → r = r' := by
        rintro ho rfl
        refine k1.2.2 ?_
        rw [Res.ok.inj ((htx' Empty).symm.trans ((hm.text ho Empty).trans (htx Empty)))]
      rw [hc, hc']
      cases r with
      | panic => exact absurd rfl hp
      | ok d => cases r' with
        | panic => exact absurd rfl hp'
        | ok d' => exact ⟨k1.1, k1.2.1, fun h g => congrArg Reply.loggedIn (Res.ok.inj (hr h g))⟩
        | err e' => exact ⟨k1.1, k1.2.1, fun h g => nomatch hr h g⟩
      | err e => cases r' with
        | panic => exact absurd rfl hp'
        | ok d' => exact ⟨k1.1, k1.2.1, fun h g => nomatch hr h g⟩
        | err e' => exact ⟨k1.1, k1.2.1, fun h g => congrArg Reply.err (Res.err.inj (hr h g))⟩

/-- One call. -/
theorem step_wording {E : Env} {s s' : State E} (ht : WordingTwin False s s') (hi : Inv s) (hi' : Inv s') (now : UInt64) {op op' : Op}
    (ho : WordingCalls s s' now op op') :
    WordingTwin False (step s now op).1 (step s' now op').1 ∧ SameButText op (step s now op).2 (step s' now op').2 := by
  have hup : WordingTwin False s.afterUpgrade s'.afterUpgrade := ⟨rfl, .nil, rfl, ht.addresses, ht.principals, rfl, .inl ⟨rfl, rfl⟩⟩
  have eq : ∀ {r r' : Reply}, r = r' → SameButText op r r' := fun h => h ▸ .equal _ _
  cases ho with
  | install i i' h =>
    have := init_wording (s := s) (s' := s') h False.elim rfl rfl (wordingTwin_fresh E False)
    exact ⟨this.1, eq this.2⟩
  | upgrade i i' h =>
    have := init_wording (s := s) (s' := s') h False.elim rfl rfl hup
    exact ⟨this.1, eq this.2⟩
  | login sig sig' a k n h1 h2 h3 => exact (login_wording ht hi hi' now sig sig' a k n h1 h2 h3).imp id And.left
  | same op hop =>
    cases op with
    | install i => exact ⟨(init_same i rfl rfl (wordingTwin_fresh E False) ht).1, eq (init_same i rfl rfl (wordingTwin_fresh E False) ht).2⟩
    | upgrade i => exact ⟨(init_same i rfl rfl hup ht).1, eq (init_same i rfl rfl hup ht).2⟩
    | rngSeeded seed => exact ⟨⟨rfl, ht.messages, ht.provider, ht.addresses, ht.principals, ht.sigs, ht.settings⟩, eq rfl⟩
    | prepareLogin a => exact (prepare_wording ht now a).imp id And.left
    | login sig a k n =>
      have hs := hop _ _ _ _ rfl
      simp only [step]
      rcases siweLogin_cases s hi.sigs hi.configured now sig a k n with ⟨e, h1, he, hc⟩ | ⟨e, h1, h2, he, hc⟩ |
        ⟨_, h2, _⟩ <;>
      rcases siweLogin_cases s' hi'.sigs hi'.configured now sig a k n with ⟨e', h1', he', hc'⟩ | ⟨e', h1', h2', he', hc'⟩ |
        ⟨_, h2', _⟩
      · rw [he] at he'; cases he'
        rw [hc, hc']; exact ⟨ht, .equal _ _⟩
      · exact absurd h1' h1
      · exact absurd h2' hs
      · exact absurd h1 h1'
      · rw [he] at he'; cases he'
        rw [hc, hc']; exact ⟨ht, .equal _ _⟩
      · exact absurd h2' hs
      · exact absurd h2 hs
      · exact absurd h2 hs
      · exact absurd h2 hs
    | getDelegation c a k e =>
      refine ⟨ht, eq ?_⟩
      rcases ht.settings with ⟨g, g'⟩ | ⟨x, x', g, g', hx⟩
      · simp only [step, siweGetDelegation, g, g']
      · simp only [step, siweGetDelegation, g, g', ht.sigs, hx.seed, hx.delegation]
    | getAddress p => exact ⟨ht, eq (by simp only [step, getAddress, ht.provider, ht.addresses])⟩
    | getCallerAddress p => exact ⟨ht, eq (by simp only [step, getCallerAddress, getAddress, ht.provider, ht.addresses])⟩
    | getPrincipal a => exact ⟨ht, eq (by simp only [step, getPrincipal, ht.provider, ht.principals])⟩

theorem histories_wording {E : Env} {h h' : History} (hh : WordingHistories E h h') : WordingTwin False (stateAfter E h) (stateAfter E h') := by
  induction hh with
  | nil => exact wordingTwin_fresh E False
  | snoc now hh ho ih =>
    have := (step_wording ih (inv_stateAfter E _) (inv_stateAfter E _) now ho).1
    unfold stateAfter at this ⊢
    rw [run_snoc, run_snoc]
    exact this

/-- C144: two canisters configured with different domains, schemes, chain ids, statements and, unless they are part of the seed, URIs, at the
installation and at any upgrades, that otherwise receive corresponding calls, answer every call alike, except for the text of the messages they issue and the reason for which they
refuse a signature. -/
theorem C144_wording (E : Env) (h h' : History) (hh : WordingHistories E h h') (now : UInt64) (op op' : Op)
    (ho : WordingCalls (stateAfter E h) (stateAfter E h') now op op') :
    SameButText op (step (stateAfter E h) now op).2 (step (stateAfter E h') now op').2 :=
  (step_wording (histories_wording hh) (inv_stateAfter E h) (inv_stateAfter E h') now ho).2

/-- C144: in particular a user who signs each canister's own message becomes the same user on both, for the same time. -/
theorem C144_same_user (E : Env) (h h' : History) (hh : WordingHistories E h h') (now : UInt64) (sig sig' addr key nonce : Bytes)
    (h1 : HexString 130 sig) (h2 : HexString 130 sig') (h3 : SignsWaiting (stateAfter E h) now sig addr nonce)
    (h4 : SignsWaiting (stateAfter E h') now sig' addr nonce) (d : LoginDetails) :
    (step (stateAfter E h) now (.login sig addr key nonce)).2 = .loggedIn d ↔
      (step (stateAfter E h') now (.login sig' addr key nonce)).2 = .loggedIn d := by
  have := C144_wording E h h' hh now _ _ (.login sig sig' addr key nonce h1 h2 ⟨fun _ => h4, fun _ => h3⟩)
  generalize (step (stateAfter E h) now (.login sig addr key nonce)).2 = r at this ⊢
  generalize (step (stateAfter E h') now (.login sig' addr key nonce)).2 = r' at this ⊢
  cases this with
  | equal => exact Iff.rfl
  | refused => constructor <;> intro h <;> cases h

theorem usable_scheme {E : Env} {s s' : State E} (ht : WordingTwin True s s') {now : UInt64} {a n txt : Bytes} {m : SiweMessage}
    (h : Usable s now a n m txt) : ∃ m', Usable s' now a n m' txt := by
  obtain ⟨⟨bs, h1, h2, h3⟩, h4, h5⟩ := h
  rcases ht.messages.found (E.sha256 (pendingKey bs n)) with ⟨g, _⟩ | ⟨x, m', g, g', hm⟩
  · rw [h3] at g; cases g
  · rw [h3] at g
    cases Option.some.inj g
    refine ⟨m', ⟨bs, h1, h2, g'⟩, ?_, (hm.text trivial Empty).trans h5⟩
    obtain ⟨d, u, sc, c, st, rfl, _⟩ := hm
    exact h4

theorem MessagesTwin.symm {only : Prop} {l l' : SiweMessageMap} (h : MessagesTwin only l l') : MessagesTwin only l' l := by
  induction h with
  | nil => exact .nil
  | cons k hm _ ih =>
    refine .cons k ?_ ih
    obtain ⟨d, u, sc, c, st, rfl, g⟩ := hm
    exact ⟨_, _, _, _, _, rfl, fun ho => ⟨(g ho).1.symm, (g ho).2.1.symm, (g ho).2.2.1.symm, (g ho).2.2.2.symm⟩⟩

theorem WordingTwin.symm_scheme {E : Env} {s s' : State E} (ht : WordingTwin True s s') : WordingTwin True s' s := by
  refine ⟨ht.rng.symm, ht.messages.symm, ht.provider.symm, ht.addresses.symm, ht.principals.symm, ht.sigs.symm, ?_⟩
  rcases ht.settings with ⟨g, g'⟩ | ⟨x, x', g, g', d, u, sc, c, st, rfl, hu, ho⟩
  · exact .inl ⟨g', g⟩
  · obtain ⟨rfl, rfl, rfl, rfl⟩ := ho trivial
    exact .inr ⟨_, _, g', g, _, _, _, _, _, rfl, .inl rfl, fun _ => ⟨rfl, rfl, rfl, rfl⟩⟩

/-- One call, if only the schemes differ. -/
theorem step_scheme {E : Env} {s s' : State E} (ht : WordingTwin True s s') (hi : Inv s) (hi' : Inv s') (now : UInt64) {op op' : Op}
    (ho : SchemeCalls E op op') :
    WordingTwin True (step s now op).1 (step s' now op').1 ∧ (step s now op).2 = (step s' now op').2 := by
  have hup : WordingTwin True s.afterUpgrade s'.afterUpgrade := ⟨rfl, .nil, rfl, ht.addresses, ht.principals, rfl, .inl ⟨rfl, rfl⟩⟩
  have wording : ∀ {i : SettingsInput} {sc : Option Bytes}, Installs E i → Installs E { i with scheme := sc } →
      SameButWording E i { i with scheme := sc } := fun h h' => ⟨h, h', _, _, _, _, _, rfl, .inl rfl⟩
  cases ho with
  | install i sc h h' => exact init_wording (wording h h') (fun _ => ⟨rfl, rfl, rfl, rfl⟩) rfl rfl (wordingTwin_fresh E True)
  | upgrade i sc h h' => exact init_wording (wording h h') (fun _ => ⟨rfl, rfl, rfl, rfl⟩) rfl rfl hup
  | same op =>
    cases op with
    | install i => exact init_same i rfl rfl (wordingTwin_fresh E True) ht
    | upgrade i => exact init_same i rfl rfl hup ht
    | rngSeeded seed => exact ⟨⟨rfl, ht.messages, ht.provider, ht.addresses, ht.principals, ht.sigs, ht.settings⟩, rfl⟩
    | prepareLogin a => exact (prepare_wording ht now a).imp id fun h => h.2 trivial
    | login sig a k n =>
      by_cases hs : HexString 130 sig
      · refine (login_wording ht hi hi' now sig sig a k n hs hs ?_).imp id fun h => h.2 trivial rfl
        constructor
        · rintro ⟨m, txt, hu, h⟩
          obtain ⟨m', hu'⟩ := usable_scheme ht hu
          exact ⟨m', txt, hu', h⟩
        · rintro ⟨m, txt, hu, h⟩
          obtain ⟨m', hu'⟩ := usable_scheme ht.symm_scheme hu
          exact ⟨m', txt, hu', h⟩
      · simp only [step]
        rcases siweLogin_cases s hi.sigs hi.configured now sig a k n with ⟨e, h1, he, hc⟩ | ⟨e, h1, h2, he, hc⟩ |
          ⟨_, h2, _⟩ <;>
        rcases siweLogin_cases s' hi'.sigs hi'.configured now sig a k n with ⟨e', h1', he', hc'⟩ | ⟨e', h1', h2', he', hc'⟩ |
          ⟨_, h2', _⟩
        · rw [he] at he'; cases he'
          rw [hc, hc']; exact ⟨ht, rfl⟩
        · exact absurd h1' h1
        · exact absurd h2' hs
        · exact absurd h1 h1'
        · rw [he] at he'; cases he'
          rw [hc, hc']; exact ⟨ht, rfl⟩
        · exact absurd h2' hs
        · exact absurd h2 hs
        · exact absurd h2 hs
        · exact absurd h2 hs
    | getDelegation c a k e =>
      refine ⟨ht, ?_⟩
      rcases ht.settings with ⟨g, g'⟩ | ⟨x, x', g, g', hx⟩
      · simp only [step, siweGetDelegation, g, g']
      · simp only [step, siweGetDelegation, g, g', ht.sigs, hx.seed, hx.delegation]
    | getAddress p => exact ⟨ht, by simp only [step, getAddress, ht.provider, ht.addresses]⟩
    | getCallerAddress p => exact ⟨ht, by simp only [step, getCallerAddress, getAddress, ht.provider, ht.addresses]⟩
    | getPrincipal a => exact ⟨ht, by simp only [step, getPrincipal, ht.provider, ht.principals]⟩

theorem run_scheme {E : Env} {s s' : State E} (ht : WordingTwin True s s') (hi : Inv s) (hi' : Inv s') {h h' : History}
    (hh : SchemeHistories E h h') : WordingTwin True (run s h).1 (run s' h').1 ∧ (run s h).2 = (run s' h').2 := by
  induction hh generalizing s s' with
  | nil => exact ⟨ht, rfl⟩
  | cons now ho _ ih =>
    have h1 := step_scheme ht hi hi' now ho
    have h2 := ih h1.1 (inv_step hi now _) (inv_step hi' now _)
    exact ⟨h2.1, congrArg₂ List.cons h1.2 h2.2⟩

/-- C144: the scheme influences nothing at all: it is no part of the text. Two canisters configured with different schemes that otherwise
receive the same calls give the same answers. -/
theorem C144_scheme (E : Env) (h h' : History) (hh : SchemeHistories E h h') :
    (run (State.fresh E) h).2 = (run (State.fresh E) h').2 :=
  (run_scheme (wordingTwin_fresh E True) (inv_fresh E) (inv_fresh E) hh).2

/-- Non-vacuity: a prepared message and a login on canisters with the schemes `https` and `http`. -/
example :
    let calls : History := [(2, .rngSeeded [1, 2, 3]), (5, .prepareLogin Ex.alice), (100, .login Ex.aliceSig Ex.alice Ex.key (Ex.nonce 3))]
    SchemeHistories Toy.env ((1, .install Ex.input) :: calls) ((1, .install { Ex.input with scheme := some (ascii "http") }) :: calls) ∧
    (match (run (State.fresh Toy.env) ((1, .install Ex.input) :: calls)).2 with
      | [.done, .done, .prepared _, .loggedIn _] => true | _ => false) = true := by
  refine ⟨.cons 1 (.install _ _ ?_ ?_) (.cons 2 (.same _) (.cons 5 (.same _) (.cons 100 (.same _) .nil))), by decide +kernel⟩
  · unfold Installs; decide +kernel
  · unfold Installs; decide +kernel

/-- The example's configuration with another wording. -/
def Ex.inputReworded : SettingsInput :=
  { Ex.input with domain := ascii "b.com", uri := ascii "http://b.com", scheme := some (ascii "http"), chainId := some 10, statement := some (ascii "Hello") }

/-- Non-vacuity: the example's calls on two such canisters; the texts differ, the logins succeed alike. -/
example :
    let h := [(1, .install Ex.input), (2, .rngSeeded [1, 2, 3]), (5, .prepareLogin Ex.alice)]
    let h' := [(1, .install Ex.inputReworded), (2, .rngSeeded [1, 2, 3]), (5, .prepareLogin Ex.alice)]
    WordingHistories Toy.env h h' ∧
    (match (step (stateAfter Toy.env (h.take 2)) 5 (.prepareLogin Ex.alice)).2, (step (stateAfter Toy.env (h'.take 2)) 5 (.prepareLogin Ex.alice)).2 with
      | .prepared p, .prepared p' => decide (p.siweMessage ≠ p'.siweMessage) | _, _ => false) = true ∧
    (match (step (stateAfter Toy.env h) 100 (.login Ex.aliceSig Ex.alice Ex.key (Ex.nonce 3))).2,
      (step (stateAfter Toy.env h') 100 (.login Ex.aliceSig Ex.alice Ex.key (Ex.nonce 3))).2 with
      | .loggedIn d, .loggedIn d' => decide (d = d') | _, _ => false) = true := by
  refine ⟨?_, by decide +kernel, by decide +kernel⟩
  refine .snoc 5 (h := [_, _]) (h' := [_, _]) (.snoc 2 (h := [_]) (h' := [_]) (.snoc 1 (h := []) (h' := []) .nil
    (.install _ _ ⟨?_, ?_, _, _, _, _, _, rfl, .inr ?_⟩)) (.same _ ?_)) (.same _ ?_)
  · unfold Installs; decide +kernel
  · unfold Installs; decide +kernel
  · decide
  · intro _ _ _ _ h; cases h
  · intro _ _ _ _ h; cases h

/-- Non-vacuity: on each of the two the signature is well formed, and is one of the waiting message. -/
example : ∀ i ∈ [Ex.input, Ex.inputReworded],
    let h : History := [(1, .install i), (2, .rngSeeded [1, 2, 3]), (5, .prepareLogin Ex.alice)]
    HexString 130 Ex.aliceSig ∧ SignsWaiting (stateAfter Toy.env h) 100 Ex.aliceSig Ex.alice (Ex.nonce 3) := by
  have ok : ∀ i ∈ [Ex.input, Ex.inputReworded],
      (match (step (stateAfter Toy.env [(1, .install i), (2, .rngSeeded [1, 2, 3]), (5, .prepareLogin Ex.alice)]) 100
        (.login Ex.aliceSig Ex.alice Ex.key (Ex.nonce 3))).2 with | .loggedIn _ => true | _ => false) = true := by decide +kernel
  intro i hi
  have g := ok i hi
  obtain ⟨_, h1, h2, _⟩ := (C14_success_iff Toy.env [(1, .install i), (2, .rngSeeded [1, 2, 3]), (5, .prepareLogin Ex.alice)] 100
    Ex.aliceSig Ex.alice Ex.key (Ex.nonce 3)).mp (by
      revert g
      generalize (step _ _ _).2 = r
      intro g
      cases r with
      | loggedIn d => exact ⟨d, rfl⟩
      | _ => cases g)
  exact ⟨h1, h2⟩

end Siwe
