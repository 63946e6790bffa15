import Verif.Model.Cells
/-
Executions with cells: no borrow conflicts, so they compute what the functions of `Model/Provider.lean` do.
-/
namespace Siwe.Cells

variable {E : Env}

theorem bind_ok {α β : Type} (x : Prog E α) (f : α → Prog E β) (m m' : Memory E) (a : α) (h : x m = .ok (a, m')) :
    (x >>= f) m = f a m' := by
  show (match x m with | .ok (a, m) => f a m | .error e => .error e) = _
  rw [h]

theorem bind_error {α β : Type} (x : Prog E α) (f : α → Prog E β) (m : Memory E) (e : Stop) (h : x m = .error e) :
    (x >>= f) m = .error e := by
  show (match x m with | .ok (a, m) => f a m | .error e => .error e) = _
  rw [h]

theorem pure_apply {α : Type} (a : α) (m : Memory E) : (pure a : Prog E α) m = .ok (a, m) := rfl

theorem call_ok {ε α β : Type} (x : Res ε α) (f : Except ε α → Prog E β) (m : Memory E) (a : α) (h : x = .ok a) :
    (call x >>= f) m = f (.ok a) m := by
  subst h; rfl

theorem call_err {ε α β : Type} (x : Res ε α) (f : Except ε α → Prog E β) (m : Memory E) (e : ε) (h : x = .err e) :
    (call x >>= f) m = f (.error e) m := by
  subst h; rfl

theorem call_panic {ε α β : Type} (x : Res ε α) (f : Except ε α → Prog E β) (m : Memory E) (h : x = .panic) :
    (call x >>= f) m = .error .panic := by
  subst h; rfl

/-- The borrows while a cell is held exclusively as well. -/
def hold (b : Cell → Borrow) (c : Cell) : Cell → Borrow := fun c' => if c' = c then .exclusive else b c'

theorem hold_other (b : Cell → Borrow) (c c' : Cell) (h : c' ≠ c) : hold b c c' = b c' := by
  simp [hold, h]

theorem borrow_pure {α : Type} (c : Cell) (g : Content E c → α) (s : State E) (b : Cell → Borrow) (n : Nat)
    (h : b c = .shared n) : withBorrow c (fun x => pure (g x)) ⟨s, b⟩ = .ok (g (contents s c), ⟨s, b⟩) := by
  have hb : (fun c' => if c' = c then Borrow.shared n else if c' = c then Borrow.shared (n + 1) else b c') = b := by
    funext c'
    by_cases hc : c' = c
    · subst hc; simp [h]
    · simp [hc]
  simp only [withBorrow, h, pure_apply, Memory.flag, if_true, Nat.add_sub_cancel, hb]

theorem settings_none {α : Type} (f : Settings → Prog E α) (s : State E) (b : Cell → Borrow) (n : Nat)
    (h : b .libSettings = .shared n) (hs : s.lib.settings = none) : withSettings f ⟨s, b⟩ = .error .panic := by
  simp only [withSettings, withBorrow, h, contents, hs]
  rfl

theorem settings_some {α : Type} (g : Settings → α) (s : State E) (b : Cell → Borrow) (n : Nat)
    (h : b .libSettings = .shared n) (t : Settings) (hs : s.lib.settings = some t) :
    withSettings (fun x => pure (g x)) ⟨s, b⟩ = .ok (g t, ⟨s, b⟩) := by
  have hb : (fun c' => if c' = Cell.libSettings then Borrow.shared n else
      if c' = Cell.libSettings then Borrow.shared (n + 1) else b c') = b := by
    funext c'
    by_cases hc : c' = Cell.libSettings
    · subst hc; simp [h]
    · simp [hc]
  simp only [withSettings, withBorrow, h, contents, hs, pure_apply, Memory.flag, if_true, Nat.add_sub_cancel, hb]

theorem mut_ok {α : Type} (c : Cell) (f : Content E c → Prog E (α × Content E c)) (s s' : State E) (b : Cell → Borrow) (a : α)
    (x : Content E c) (h : b c = .shared 0) (hf : f (contents s c) ⟨s, hold b c⟩ = .ok ((a, x), ⟨s', hold b c⟩)) :
    withBorrowMut c f ⟨s, b⟩ = .ok (a, ⟨update s' c x, b⟩) := by
  have hb : (fun c' => if c' = c then Borrow.shared 0 else hold b c c') = b := by
    funext c'
    by_cases hc : c' = c
    · subst hc; simp [h]
    · simp [hc, hold]
  have hm : Memory.flag ⟨s, b⟩ c .exclusive = ⟨s, hold b c⟩ := rfl
  simp only [withBorrowMut, h, hm, hf]
  simp only [Memory.flag, hb]

theorem mut_error {α : Type} (c : Cell) (f : Content E c → Prog E (α × Content E c)) (s : State E) (b : Cell → Borrow)
    (h : b c = .shared 0) (hf : f (contents s c) ⟨s, hold b c⟩ = .error .panic) : withBorrowMut c f ⟨s, b⟩ = .error .panic := by
  have hm : Memory.flag ⟨s, b⟩ c .exclusive = ⟨s, hold b c⟩ := rfl
  simp only [withBorrowMut, h, hm, hf]

/-- The library's cells are not in use. -/
structure LibFree (b : Cell → Borrow) : Prop where
  rng : b .rng = .shared 0
  settings : b .libSettings = .shared 0
  messages : b .messages = .shared 0

theorem insert_no_err {ε : Type} (m : SiweMessageMap) (msg : SiweMessage) (a : EthAddress) (n : Bytes) (e : ε) :
    m.insert E msg a n ≠ .err e := by
  unfold SiweMessageMap.insert siweMessageMapHash
  cases a.asBytes <;> simp

theorem prepareLogin_eq (now : UInt64) (a : EthAddress) (s : State E) (b : Cell → Borrow) (h : LibFree b) :
    prepareLogin now a ⟨s, b⟩ = match Siwe.prepareLogin s.lib now a with
      | .ok (l, msg, n) => .ok (.ok (msg, n), ⟨{ s with lib := l }, b⟩)
      | .err e => .ok (.error e, ⟨s, b⟩)
      | .panic => .error .panic := by
  unfold prepareLogin Siwe.prepareLogin Siwe.generateNonce
  cases hr : s.lib.rng with
  | none =>
    rw [bind_error _ _ _ .panic]
    · rfl
    · refine mut_error _ _ _ _ h.rng ?_
      simp only [contents, hr]
      rfl
  | some rng =>
    rw [bind_ok _ _ _ ⟨{ s with lib := { s.lib with rng := some (E.rngFill10 rng).2 } }, b⟩ (hexEncode (E.rngFill10 rng).1.val)]
    · simp only [Res.ok_bind]
      cases hs : s.lib.settings with
      | none =>
        rw [bind_error _ _ _ .panic]
        exact settings_none _ _ _ 0 h.settings rfl
      | some t =>
        rw [bind_ok (newMessage _ _ _) _ _ _ _ (settings_some
          (fun t => SiweMessage.new t now a (hexEncode (E.rngFill10 rng).1.val)) _ b 0 h.settings t rfl)]
        simp only
        cases hi : (SiweMessageMap.insert E s.lib.messages (SiweMessage.new t now a (hexEncode (E.rngFill10 rng).1.val)) a
            (hexEncode (E.rngFill10 rng).1.val) : Res EthError _) with
        | err e => exact absurd hi (insert_no_err _ _ _ _ _)
        | panic =>
          rw [bind_error _ _ _ .panic]
          · rfl
          · refine mut_error _ _ _ _ h.messages ?_
            exact call_panic _ _ _ hi
        | ok ms =>
          rw [bind_ok _ _ _ _ _ (mut_ok (α := Except EthError Unit) .messages _ _ _ b (Except.ok ()) ms h.messages
            ((call_ok _ _ _ ms hi).trans rfl))]
          rfl
    · refine mut_ok _ _ _ _ _ _ _ h.rng ?_
      simp only [contents, hr]
      rfl

/-- The outcome of `login`-like results: the signature map and the result, in a memory. -/
def outcome {α ε : Type} (sm : SigMap) (r : Res ε α) (m : Memory E) : Except Stop ((SigMap × Except ε α) × Memory E) :=
  match r with
  | .ok a => .ok ((sm, .ok a), m)
  | .err e => .ok ((sm, .error e), m)
  | .panic => .error .panic

theorem createDelegation_eq (k : Bytes) (e : UInt64) (s : State E) (b : Cell → Borrow) (n : Nat)
    (h : b .libSettings = .shared n) (t : Settings) (hs : s.lib.settings = some t) :
    (∃ d, Siwe.createDelegation E t k e = .ok d ∧ createDelegation k e ⟨s, b⟩ = .ok (.ok d, ⟨s, b⟩)) ∨
    ∃ x, Siwe.createDelegation E t k e = .err x ∧ createDelegation k e ⟨s, b⟩ = .ok (.error x, ⟨s, b⟩) := by
  unfold createDelegation Siwe.createDelegation
  split
  · exact .inr ⟨_, rfl, rfl⟩
  · split
    · exact .inr ⟨_, rfl, rfl⟩
    · split
      · exact .inr ⟨_, rfl, rfl⟩
      · exact .inl ⟨_, rfl, settings_some _ s b n h t hs⟩

theorem grant_eq (sm : SigMap) (now : UInt64) (msg : SiweMessage) (a : EthAddress) (k cid : Bytes) (s : State E)
    (b : Cell → Borrow) (n : Nat) (h : b .libSettings = .shared n) (t : Settings) (hs : s.lib.settings = some t) :
    grant sm now msg a k cid ⟨s, b⟩ =
      outcome (Siwe.grant E t sm now msg a k cid).1 (Siwe.grant E t sm now msg a k cid).2 ⟨s, b⟩ := by
  unfold grant Siwe.grant
  rw [bind_ok _ _ _ _ _ (settings_some _ s b n h t hs)]
  rw [bind_ok (generateSeed a) _ _ _ _ (settings_some _ s b n h t hs)]
  cases hp : (sm.pruneExpired now maxSigsToPrune : Res LoginError _) with
  | err e => rw [call_err _ _ _ e rfl]; rfl
  | panic => rw [call_panic _ _ _ rfl]; rfl
  | ok x =>
    obtain ⟨_, sm'⟩ := x
    rw [call_ok _ _ _ _ rfl]
    simp only
    rcases createDelegation_eq k (satAdd msg.issuedAt t.sessionExpiresIn) s b n h t hs with ⟨d, hd, hc⟩ | ⟨x, hx, hc⟩
    · rw [bind_ok _ _ _ _ _ hc, hd]
      simp only
      cases hh : (createDelegationHash E d : Res LoginError _) with
      | err e => rw [call_err _ _ _ e rfl]; rfl
      | panic => rw [call_panic _ _ _ rfl]; rfl
      | ok dh =>
        rw [call_ok _ _ _ _ rfl]
        simp only
        cases hq : (sm'.put now (hashBytes E (Siwe.generateSeed E t a).bytes) dh : Res LoginError _) with
        | err e => rw [call_err _ _ _ e rfl]; rfl
        | panic => rw [call_panic _ _ _ rfl]; rfl
        | ok sm'' => rw [call_ok _ _ _ _ rfl]; rfl
    · rw [bind_ok _ _ _ _ _ hc, hx]
      rfl

theorem grant_none (sm : SigMap) (now : UInt64) (msg : SiweMessage) (a : EthAddress) (k cid : Bytes) (s : State E)
    (b : Cell → Borrow) (n : Nat) (h : b .libSettings = .shared n) (hs : s.lib.settings = none) :
    grant sm now msg a k cid ⟨s, b⟩ = .error .panic := by
  unfold grant
  rw [bind_error _ _ _ _ (settings_none _ s b n h hs)]

theorem remove_no_err {ε : Type} (m : SiweMessageMap) (a : EthAddress) (n : Bytes) (e : ε) : m.remove E a n ≠ .err e := by
  unfold SiweMessageMap.remove siweMessageMapHash
  cases a.asBytes <;> simp

/-- The outcome of `login` in its closure. -/
def bodyOutcome (x : LibState E × SigMap × Res LoginError LoginDetails) (m : Memory E) :
    Except Stop (((SigMap × Except LoginError LoginDetails) × SiweMessageMap) × Memory E) :=
  match x.2.2 with
  | .ok d => .ok (((x.2.1, .ok d), x.1.messages), m)
  | .err e => .ok (((x.2.1, .error e), x.1.messages), m)
  | .panic => .error .panic

theorem loginWith_eq (sm : SigMap) (now : UInt64) (sig : EthSignature) (a : EthAddress) (k cid nonce : Bytes) (l : LibState E)
    (msg : SiweMessage) (text : Bytes) (s : State E) (b : Cell → Borrow) (n : Nat) (h : b .libSettings = .shared n)
    (hl : s.lib.settings = l.settings) :
    loginWith sm now sig a k cid nonce l.messages msg text ⟨s, b⟩ =
      bodyOutcome (Siwe.loginWith l sm now sig a k cid nonce msg text) ⟨s, b⟩ := by
  unfold loginWith Siwe.loginWith
  dsimp only
  cases hr : (SiweMessageMap.remove E l.messages a nonce : Res LoginError _) with
  | err e => exact absurd hr (remove_no_err _ _ _ _)
  | panic =>
    cases hc : checkSignature E text sig a with
    | err e => rw [call_err _ _ _ _ rfl, call_panic _ _ _ rfl]; rfl
    | panic => rw [call_panic _ _ _ rfl]; rfl
    | ok u => rw [call_ok _ _ _ _ rfl, call_panic _ _ _ rfl]; rfl
  | ok ms =>
    cases hc : checkSignature E text sig a with
    | err e => rw [call_err _ _ _ _ rfl, call_ok _ _ _ _ rfl]; rfl
    | panic => rw [call_panic _ _ _ rfl]; rfl
    | ok u =>
      rw [call_ok _ _ _ _ rfl, call_ok _ _ _ _ rfl]
      dsimp only
      cases hs : l.settings with
      | none => rw [bind_error _ _ _ _ (grant_none _ _ _ _ _ _ _ _ n h (hl.trans hs))]; rfl
      | some t =>
        have hgr := grant_eq sm now msg a k cid s b n h t (hl.trans hs)
        dsimp only
        generalize Siwe.grant E t sm now msg a k cid = x at hgr ⊢
        obtain ⟨sm', r⟩ := x
        cases r with
        | panic => rw [bind_error _ _ _ _ hgr]; rfl
        | err e => rw [bind_ok _ _ _ _ _ hgr]; rfl
        | ok d => rw [bind_ok _ _ _ _ _ hgr]; rfl

theorem loginBody_text (sm : SigMap) (now : UInt64) (sig : EthSignature) (a : EthAddress) (k cid nonce : Bytes) (l : LibState E)
    (msg : SiweMessage) (s : State E) (b : Cell → Borrow) (n : Nat) (h : b .libSettings = .shared n)
    (hl : s.lib.settings = l.settings) (text : Res LoginError Bytes) :
    callElim text (fun e => pure ((sm, .error e), l.messages))
        (fun text => loginWith sm now sig a k cid nonce l.messages msg text) ⟨s, b⟩ =
      bodyOutcome (text.elim (fun e => (l, sm, .err e)) (l, sm, .panic)
        fun text => Siwe.loginWith l sm now sig a k cid nonce msg text) ⟨s, b⟩ := by
  cases text with
  | err e => rfl
  | panic => rfl
  | ok text => exact loginWith_eq sm now sig a k cid nonce l msg text s b n h hl

theorem loginBody_eq (sm : SigMap) (now : UInt64) (sig : EthSignature) (a : EthAddress) (k cid nonce : Bytes) (l : LibState E)
    (s : State E) (b : Cell → Borrow) (n : Nat) (h : b .libSettings = .shared n) (hl : s.lib.settings = l.settings) :
    loginBody sm now sig a k cid nonce l.messages ⟨s, b⟩ = bodyOutcome (Siwe.login l sm now sig a k cid nonce) ⟨s, b⟩ := by
  unfold loginBody Siwe.login
  dsimp only
  cases hg : (SiweMessageMap.get E (SiweMessageMap.pruneExpired l.messages now) a nonce : Res LoginError _) with
  | err e => rw [call_err _ _ _ e rfl]; rfl
  | panic => rw [call_panic _ _ _ rfl]; rfl
  | ok x =>
    rw [call_ok _ _ _ _ rfl]
    cases x with
    | none => rfl
    | some msg =>
      exact loginBody_text sm now sig a k cid nonce { l with messages := l.messages.pruneExpired now } msg s b n h hl _

theorem loginWith_messages_only (l : LibState E) (sm : SigMap) (now : UInt64) (sig : EthSignature) (a : EthAddress)
    (k cid nonce : Bytes) (msg : SiweMessage) (text : Bytes) : (Siwe.loginWith l sm now sig a k cid nonce msg text).1 =
      { l with messages := (Siwe.loginWith l sm now sig a k cid nonce msg text).1.messages } := by
  unfold Siwe.loginWith
  dsimp only
  cases (SiweMessageMap.remove E l.messages a nonce : Res LoginError _) with
  | err e => rfl
  | panic => rfl
  | ok ms =>
    cases checkSignature E text sig a with
    | err e => rfl
    | panic => rfl
    | ok u =>
      dsimp only
      cases l.settings <;> rfl

theorem elim_messages_only (l : LibState E) (text : Res LoginError Bytes) (sm : SigMap)
    (f : Bytes → LibState E × SigMap × Res LoginError LoginDetails) (hf : ∀ t, (f t).1 = { l with messages := (f t).1.messages }) :
    (text.elim (fun e => (l, sm, .err e)) (l, sm, .panic) f).1 =
      { l with messages := (text.elim (fun e => (l, sm, .err e)) (l, sm, .panic) f).1.messages } := by
  cases text with
  | err e => rfl
  | panic => rfl
  | ok t => exact hf t

theorem login_messages_only (l : LibState E) (sm : SigMap) (now : UInt64) (sig : EthSignature) (a : EthAddress)
    (k cid nonce : Bytes) : (Siwe.login l sm now sig a k cid nonce).1 =
      { l with messages := (Siwe.login l sm now sig a k cid nonce).1.messages } := by
  unfold Siwe.login
  dsimp only
  cases (SiweMessageMap.get E (SiweMessageMap.pruneExpired l.messages now) a nonce : Res LoginError _) with
  | err e => rfl
  | panic => rfl
  | ok x =>
    cases x with
    | none => rfl
    | some msg =>
      exact elim_messages_only { l with messages := l.messages.pruneExpired now } _ sm _
        (fun t => loginWith_messages_only _ _ _ _ _ _ _ _ _ t)

theorem login_eq (sm : SigMap) (now : UInt64) (sig : EthSignature) (a : EthAddress) (k cid nonce : Bytes) (s : State E)
    (b : Cell → Borrow) (h : LibFree b) :
    login sm now sig a k cid nonce ⟨s, b⟩ = match Siwe.login s.lib sm now sig a k cid nonce with
      | (l', sm', .ok d) => .ok ((sm', .ok d), ⟨{ s with lib := l' }, b⟩)
      | (l', sm', .err e) => .ok ((sm', .error e), ⟨{ s with lib := l' }, b⟩)
      | (_, _, .panic) => .error .panic := by
  have hset : hold b .messages .libSettings = .shared 0 := by rw [hold_other _ _ _ (by decide), h.settings]
  have hb := loginBody_eq sm now sig a k cid nonce s.lib s (hold b .messages) 0 hset rfl
  have hm := login_messages_only s.lib sm now sig a k cid nonce
  unfold login
  generalize Siwe.login s.lib sm now sig a k cid nonce = x at hb hm ⊢
  obtain ⟨l, sm', r⟩ := x
  dsimp only at hm
  cases r with
  | panic => exact mut_error _ _ _ _ h.messages hb
  | err e =>
    rw [mut_ok .messages _ s s b _ _ h.messages hb]
    simp only [update]
    rw [← hm]
  | ok d =>
    rw [mut_ok .messages _ s s b _ _ h.messages hb]
    simp only [update]
    rw [← hm]

/-- A provider method's state and result as the outcome of an execution. -/
def ofStep {α : Type} (x : State E × Res ProviderError α) (b : Cell → Borrow) : Except Stop (Except ProviderError α × Memory E) :=
  match x.2 with
  | .ok a => .ok (.ok a, ⟨x.1, b⟩)
  | .err e => .ok (.error e, ⟨x.1, b⟩)
  | .panic => .error .panic

theorem prepareText (s : State E) (l : LibState E) (n : Bytes) (b : Cell → Borrow) (text : Res ProviderError Bytes) :
    (callElim text (fun e => pure (.error e)) (fun text => pure (.ok ⟨text, n⟩)) : Prog E (Except ProviderError PrepareLoginOkResponse))
        ⟨{ s with lib := l }, b⟩ =
      ofStep (text.elim (fun e => ({ s with lib := l }, .err e)) (s, .panic) fun text => ({ s with lib := l }, .ok ⟨text, n⟩)) b := by
  cases text <;> rfl

theorem prepareLogin_no_err (l : LibState E) (now : UInt64) (a : EthAddress) (e : EthError) :
    Siwe.prepareLogin l now a ≠ .err e := by
  unfold Siwe.prepareLogin Siwe.generateNonce
  cases l.rng with
  | none => simp
  | some rng =>
    simp only [Res.ok_bind]
    cases l.settings with
    | none => simp
    | some t =>
      simp only
      cases hi : (SiweMessageMap.insert E l.messages (SiweMessage.new t now a (hexEncode (E.rngFill10 rng).1.val)) a
          (hexEncode (E.rngFill10 rng).1.val) : Res EthError _) with
      | err e => exact absurd hi (insert_no_err _ _ _ _ _)
      | panic => simp
      | ok ms => simp

theorem siwePrepareLogin_eq (now : UInt64) (addr : Bytes) (s : State E) (b : Cell → Borrow) (h : LibFree b) :
    siwePrepareLogin now addr ⟨s, b⟩ = ofStep (Siwe.siwePrepareLogin s now addr) b := by
  unfold siwePrepareLogin Siwe.siwePrepareLogin
  cases EthAddress.new E addr with
  | err e => rw [call_err _ _ _ e rfl]; rfl
  | panic => rw [call_panic _ _ _ rfl]; rfl
  | ok a =>
    rw [call_ok _ _ _ _ rfl]
    dsimp only
    have hp := prepareLogin_eq now a s b h
    cases hx : Siwe.prepareLogin s.lib now a with
    | err e => exact absurd hx (prepareLogin_no_err _ _ _ _)
    | panic =>
      rw [hx] at hp
      rw [bind_error _ _ _ _ hp]; rfl
    | ok x =>
      obtain ⟨l, m, n⟩ := x
      rw [hx] at hp
      rw [bind_ok _ _ _ _ _ hp]
      exact prepareText s l n b _

/-- The cells of the provider's settings and mappings are not in use. -/
structure MappingsFree (b : Cell → Borrow) : Prop where
  settings : b .settings = .shared 0
  manager : b .memoryManager = .shared 0
  principalAddress : b .principalAddress = .shared 0
  addressPrincipal : b .addressPrincipal = .shared 0

theorem withMapping_eq {α : Type} (f : Prog E α) (s : State E) (b : Cell → Borrow) (h : MappingsFree b) :
    withMapping f ⟨s, b⟩ = f ⟨s, b⟩ := by
  unfold withMapping
  rw [bind_ok _ _ _ _ _ (borrow_pure .memoryManager (fun _ => ()) s b 0 h.manager)]

theorem insertPA_eq (p : Bytes) (a : EthAddress) (s : State E) (b : Cell → Borrow) (h : MappingsFree b) :
    insertPrincipalAddress p a ⟨s, b⟩ = match (a.asByteArray.unwrap : Res Empty _) with
      | .ok x => .ok ((), ⟨{ s with principalAddress := s.principalAddress.insert p x }, b⟩)
      | .err e => nomatch e
      | .panic => .error .panic := by
  unfold insertPrincipalAddress
  rw [withMapping_eq _ _ _ h]
  cases hx : (a.asByteArray.unwrap : Res Empty _) with
  | err e => exact nomatch e
  | panic => exact mut_error .principalAddress _ s b h.principalAddress (by rfl)
  | ok x => exact mut_ok .principalAddress _ s s b () (s.principalAddress.insert p x) h.principalAddress (by rfl)

theorem insertAP_eq (p : Bytes) (a : EthAddress) (s : State E) (b : Cell → Borrow) (h : MappingsFree b) :
    insertAddressPrincipal p a ⟨s, b⟩ = match (a.asByteArray.unwrap : Res Empty _) with
      | .ok x => .ok ((), ⟨{ s with addressPrincipal := s.addressPrincipal.insert x p }, b⟩)
      | .err e => nomatch e
      | .panic => .error .panic := by
  unfold insertAddressPrincipal
  rw [withMapping_eq _ _ _ h]
  cases hx : (a.asByteArray.unwrap : Res Empty _) with
  | err e => exact nomatch e
  | panic => exact mut_error .addressPrincipal _ s b h.addressPrincipal (by rfl)
  | ok x => exact mut_ok .addressPrincipal _ s s b () (s.addressPrincipal.insert x p) h.addressPrincipal (by rfl)

theorem unwrap_res {ε ε' α : Type} (x : Res ε α) : (x.unwrap : Res ε' α) = match (x.unwrap : Res Empty α) with
    | .ok a => .ok a
    | .err e => nomatch e
    | .panic => .panic := by
  cases x <;> rfl

theorem flag_eq (g : ProviderSettings → Bool) (s : State E) (b : Cell → Borrow) (h : MappingsFree b) :
    providerFlag g ⟨s, b⟩ = .ok (g s.settings, ⟨s, b⟩) :=
  borrow_pure .settings g s b 0 h.settings

/-- The two halves of `Siwe.managePrincipalAddressMappings`. -/
def storePA (s : State E) (p : Bytes) (a : EthAddress) : Res ProviderError (State E) :=
  if !s.settings.disablePrincipalToEthMapping then do
    let a ← a.asByteArray.unwrap
    .ok { s with principalAddress := s.principalAddress.insert p a }
  else .ok s

def storeAP (s : State E) (p : Bytes) (a : EthAddress) : Res ProviderError (State E) :=
  if !s.settings.disableEthToPrincipalMapping then do
    let a ← a.asByteArray.unwrap
    .ok { s with addressPrincipal := s.addressPrincipal.insert a p }
  else .ok s

theorem manage_split (s : State E) (p : Bytes) (a : EthAddress) :
    Siwe.managePrincipalAddressMappings s p a = (storePA s p a >>= fun s => storeAP s p a) := by
  unfold Siwe.managePrincipalAddressMappings storePA storeAP
  cases (a.asByteArray.unwrap : Res ProviderError _) <;>
    cases s.settings.disablePrincipalToEthMapping <;> simp

/-- A state or a panic as the outcome of an execution. -/
def ofState (x : Res ProviderError (State E)) (b : Cell → Borrow) : Except Stop (Unit × Memory E) :=
  match x with
  | .ok s' => .ok ((), ⟨s', b⟩)
  | _ => .error .panic

theorem storePA_eq (p : Bytes) (a : EthAddress) (s : State E) (b : Cell → Borrow) (h : MappingsFree b) :
    unlessDisabled s.settings.disablePrincipalToEthMapping (insertPrincipalAddress p a) ⟨s, b⟩ = ofState (storePA s p a) b := by
  unfold storePA
  rw [unwrap_res]
  cases s.settings.disablePrincipalToEthMapping with
  | true => rfl
  | false =>
    show insertPrincipalAddress p a ⟨s, b⟩ = _
    rw [insertPA_eq p a s b h]
    cases (a.asByteArray.unwrap : Res Empty _) with
    | err e => exact nomatch e
    | panic => rfl
    | ok x => rfl

theorem storeAP_eq (p : Bytes) (a : EthAddress) (s : State E) (b : Cell → Borrow) (h : MappingsFree b) :
    unlessDisabled s.settings.disableEthToPrincipalMapping (insertAddressPrincipal p a) ⟨s, b⟩ = ofState (storeAP s p a) b := by
  unfold storeAP
  rw [unwrap_res]
  cases s.settings.disableEthToPrincipalMapping with
  | true => rfl
  | false =>
    show insertAddressPrincipal p a ⟨s, b⟩ = _
    rw [insertAP_eq p a s b h]
    cases (a.asByteArray.unwrap : Res Empty _) with
    | err e => exact nomatch e
    | panic => rfl
    | ok x => rfl

theorem manage_eq (p : Bytes) (a : EthAddress) (s : State E) (b : Cell → Borrow) (h : MappingsFree b) :
    managePrincipalAddressMappings p a ⟨s, b⟩ = ofState (Siwe.managePrincipalAddressMappings s p a) b := by
  unfold managePrincipalAddressMappings
  rw [manage_split, bind_ok _ _ _ _ _ (flag_eq _ s b h)]
  have h1 := storePA_eq p a s b h
  cases hx : storePA s p a with
  | err e => rw [hx] at h1; rw [bind_error _ _ _ _ h1]; rfl
  | panic => rw [hx] at h1; rw [bind_error _ _ _ _ h1]; rfl
  | ok s' =>
    rw [hx] at h1
    rw [bind_ok _ _ _ _ _ h1, bind_ok _ _ _ _ _ (flag_eq _ s' b h)]
    exact storeAP_eq p a s' b h

theorem manage_no_err (s : State E) (p : Bytes) (a : EthAddress) (e : ProviderError) :
    Siwe.managePrincipalAddressMappings s p a ≠ .err e := by
  rw [manage_split]
  unfold storePA storeAP
  cases a.asByteArray <;> cases s.settings.disablePrincipalToEthMapping <;>
    cases hd : s.settings.disableEthToPrincipalMapping <;> simp [hd]

/-- The provider's cells are not in use. -/
structure ProviderFree (b : Cell → Borrow) : Prop extends LibFree b where
  mappings : MappingsFree b
  signatureMap : b .signatureMap = .shared 0
  assetHashes : b .assetHashes = .shared 0

theorem ProviderFree.unused : ProviderFree unused :=
  ⟨⟨rfl, rfl, rfl⟩, ⟨rfl, rfl, rfl, rfl⟩, rfl, rfl⟩

theorem LibFree.hold {b : Cell → Borrow} (h : LibFree b) (c : Cell) (h1 : c ≠ .rng) (h2 : c ≠ .libSettings) (h3 : c ≠ .messages) :
    LibFree (hold b c) :=
  ⟨(hold_other _ _ _ h1.symm).trans h.rng, (hold_other _ _ _ h2.symm).trans h.settings, (hold_other _ _ _ h3.symm).trans h.messages⟩

theorem MappingsFree.hold {b : Cell → Borrow} (h : MappingsFree b) : MappingsFree (hold b .signatureMap) :=
  ⟨(hold_other _ _ _ (by decide)).trans h.settings, (hold_other _ _ _ (by decide)).trans h.manager,
    (hold_other _ _ _ (by decide)).trans h.principalAddress, (hold_other _ _ _ (by decide)).trans h.addressPrincipal⟩

theorem updateRootHash_eq (sm : SigMap) (s : State E) (b : Cell → Borrow) (n : Nat) (h : b .assetHashes = .shared n) :
    updateRootHash sm ⟨s, b⟩ = .ok ((), ⟨{ s with certifiedData := (Siwe.updateRootHash { s with sigMap := sm }).certifiedData }, b⟩) := by
  have hb : (fun c' => if c' = Cell.assetHashes then Borrow.shared n else
      if c' = Cell.assetHashes then Borrow.shared (n + 1) else b c') = b := by
    funext c'
    by_cases hc : c' = Cell.assetHashes
    · subst hc; simp [h]
    · simp [hc]
  simp only [updateRootHash, withBorrow, h, setCertifiedData, Memory.flag, if_true, Nat.add_sub_cancel, hb, Siwe.updateRootHash]

theorem manage_sigMap (s : State E) (sm : SigMap) (p : Bytes) (a : EthAddress) :
    Siwe.managePrincipalAddressMappings { s with sigMap := sm } p a = match Siwe.managePrincipalAddressMappings s p a with
      | .ok s' => .ok { s' with sigMap := sm }
      | .err e => .err e
      | .panic => .panic := by
  rw [manage_split, manage_split]
  unfold storePA storeAP
  cases a.asByteArray <;> cases hp : s.settings.disablePrincipalToEthMapping <;>
    cases hd : s.settings.disableEthToPrincipalMapping <;> simp [hd]

theorem siweLogin_eq (now : UInt64) (sig addr k n : Bytes) (s : State E) (b : Cell → Borrow) (h : ProviderFree b) :
    siweLogin now sig addr k n ⟨s, b⟩ = ofStep (Siwe.siweLogin s now sig addr k n) b := by
  have hl : LibFree (hold b .signatureMap) := h.toLibFree.hold _ (by decide) (by decide) (by decide)
  have hm : MappingsFree (hold b .signatureMap) := h.mappings.hold
  have ha : hold b .signatureMap .assetHashes = .shared 0 := (hold_other _ _ _ (by decide)).trans h.assetHashes
  unfold siweLogin Siwe.siweLogin
  cases hA : EthAddress.new E addr with
  | err e =>
    refine mut_ok .signatureMap _ s s b (Except.error (ProviderError.eth e)) s.sigMap h.signatureMap ?_
    show siweLoginBody now sig addr k n s.sigMap _ = _
    unfold siweLoginBody
    rw [call_err _ _ _ e hA]; rfl
  | panic =>
    refine mut_error .signatureMap _ s b h.signatureMap ?_
    show siweLoginBody now sig addr k n s.sigMap _ = _
    unfold siweLoginBody
    rw [call_panic _ _ _ hA]; rfl
  | ok a =>
    dsimp only
    cases hS : EthSignature.new sig with
    | err e =>
      refine mut_ok .signatureMap _ s s b (Except.error (ProviderError.eth e)) s.sigMap h.signatureMap ?_
      show siweLoginBody now sig addr k n s.sigMap _ = _
      unfold siweLoginBody
      rw [call_ok _ _ _ _ hA]
      dsimp only
      rw [call_err _ _ _ e hS]; rfl
    | panic =>
      refine mut_error .signatureMap _ s b h.signatureMap ?_
      show siweLoginBody now sig addr k n s.sigMap _ = _
      unfold siweLoginBody
      rw [call_ok _ _ _ _ hA]
      dsimp only
      rw [call_panic _ _ _ hS]; rfl
    | ok g =>
      dsimp only
      have hL := login_eq s.sigMap now g a k E.canisterId n s (hold b .signatureMap) hl
      generalize Siwe.login s.lib s.sigMap now g a k E.canisterId n = x at hL ⊢
      obtain ⟨l, sm, r⟩ := x
      dsimp only at hL ⊢
      cases r with
      | panic =>
        refine mut_error .signatureMap _ s b h.signatureMap ?_
        show siweLoginBody now sig addr k n s.sigMap _ = _
        unfold siweLoginBody
        rw [call_ok _ _ _ _ hA]
        dsimp only
        rw [call_ok _ _ _ _ hS]
        dsimp only
        rw [bind_error _ _ _ _ hL]; rfl
      | err e =>
        refine mut_ok .signatureMap _ s { s with lib := l } b (Except.error (ProviderError.login e)) sm h.signatureMap ?_
        show siweLoginBody now sig addr k n s.sigMap _ = _
        unfold siweLoginBody
        rw [call_ok _ _ _ _ hA]
        dsimp only
        rw [call_ok _ _ _ _ hS]
        dsimp only
        rw [bind_ok _ _ _ _ _ hL]; rfl
      | ok d =>
        have hU := updateRootHash_eq sm { s with lib := l } (hold b .signatureMap) 0 ha
        have hM := manage_eq ((selfAuthenticating E d.userCanisterPubkey).take 29) a
          { s with lib := l, certifiedData := (Siwe.updateRootHash { s with lib := l, sigMap := sm }).certifiedData }
          (hold b .signatureMap) hm
        have hT := manage_sigMap
          { s with lib := l, certifiedData := (Siwe.updateRootHash { s with lib := l, sigMap := sm }).certifiedData } sm
          ((selfAuthenticating E d.userCanisterPubkey).take 29) a
        have hQ : Siwe.updateRootHash { s with lib := l, sigMap := sm } =
          { s with lib := l, sigMap := sm,
                   certifiedData := (Siwe.updateRootHash { s with lib := l, sigMap := sm }).certifiedData } := rfl
        dsimp only
        split
        · next hlen =>
          refine mut_error .signatureMap _ s b h.signatureMap ?_
          show siweLoginBody now sig addr k n s.sigMap _ = _
          unfold siweLoginBody
          rw [call_ok _ _ _ _ hA]
          dsimp only
          rw [call_ok _ _ _ _ hS]
          dsimp only
          rw [bind_ok _ _ _ _ _ hL]
          dsimp only
          rw [bind_ok _ _ _ _ _ hU, if_pos hlen]
          rfl
        · next hlen =>
          rw [hQ]
          rw [hT]
          generalize hy : Siwe.managePrincipalAddressMappings _ _ a = y at hM ⊢
          cases y with
          | err e => exact absurd hy (manage_no_err _ _ _ _)
          | panic =>
            refine mut_error .signatureMap _ s b h.signatureMap ?_
            show siweLoginBody now sig addr k n s.sigMap _ = _
            unfold siweLoginBody
            rw [call_ok _ _ _ _ hA]
            dsimp only
            rw [call_ok _ _ _ _ hS]
            dsimp only
            rw [bind_ok _ _ _ _ _ hL]
            dsimp only
            rw [bind_ok _ _ _ _ _ hU, if_neg hlen, bind_error _ _ _ _ hM]; rfl
          | ok s' =>
            refine mut_ok .signatureMap _ s s' b (Except.ok d) sm h.signatureMap ?_
            show siweLoginBody now sig addr k n s.sigMap _ = _
            unfold siweLoginBody
            rw [call_ok _ _ _ _ hA]
            dsimp only
            rw [call_ok _ _ _ _ hS]
            dsimp only
            rw [bind_ok _ _ _ _ _ hL]
            dsimp only
            rw [bind_ok _ _ _ _ _ hU, if_neg hlen, bind_ok _ _ _ _ _ hM]
            rfl

/-- What `siwe_get_delegation` computes once the settings are known. -/
def delegationFor (s : State E) (t : Settings) (now : UInt64) (cert : Bytes) (a : EthAddress) (k : Bytes) (e : UInt64) :
    Res ProviderError SignedDelegation := do
  let delegation ← (Siwe.createDelegation E t k e).mapErr ProviderError.delegation
  let delegationHash ← createDelegationHash E delegation
  let signatureWitness ← (witness E s.sigMap now (Siwe.generateSeed E t a) delegationHash).mapErr ProviderError.delegation
  let tree := HashTree.fork (.pruned (labeledHash E labelAssets (assetsRootHash E)))
    (.labeled labelSig signatureWitness)
  .ok ⟨delegation, createCertifiedSignature cert tree⟩

theorem siweGetDelegationBody_eq (now : UInt64) (cert : Bytes) (a : EthAddress) (k : Bytes) (e : UInt64) (s : State E)
    (b : Cell → Borrow) (t : Settings) (hs : s.lib.settings = some t) (h : ProviderFree b) :
    siweGetDelegationBody now cert a k e s.sigMap ⟨s, hold b .signatureMap⟩ =
      match delegationFor s t now cert a k e with
      | .ok d => .ok ((.ok d, s.sigMap), ⟨s, hold b .signatureMap⟩)
      | .err e => .ok ((.error e, s.sigMap), ⟨s, hold b .signatureMap⟩)
      | .panic => .error .panic := by
  have hl : hold b .signatureMap .libSettings = .shared 0 := (hold_other _ _ _ (by decide)).trans h.settings
  have ha : hold b .signatureMap .assetHashes = .shared 0 := (hold_other _ _ _ (by decide)).trans h.assetHashes
  unfold siweGetDelegationBody delegationFor
  rw [bind_ok (generateSeed a) _ _ _ _ (settings_some (fun t => Siwe.generateSeed E t a) s _ 0 hl t hs)]
  rcases createDelegation_eq k e s _ 0 hl t hs with ⟨d, hd, hc⟩ | ⟨x, hx, hc⟩
  · rw [bind_ok _ _ _ _ _ hc, hd]
    dsimp only [Res.mapErr, Res.ok_bind]
    cases hh : (createDelegationHash E d : Res ProviderError _) with
    | err e => rw [call_err _ _ _ e rfl]; rfl
    | panic => rw [call_panic _ _ _ rfl]; rfl
    | ok dh =>
      rw [call_ok _ _ _ _ rfl]
      simp only [Res.ok_bind]
      cases hw : witness E s.sigMap now (Siwe.generateSeed E t a) dh with
      | err e => rw [call_err _ _ _ e rfl]; rfl
      | panic => rw [call_panic _ _ _ rfl]; rfl
      | ok w =>
        rw [call_ok _ _ _ _ rfl]
        dsimp only
        rw [bind_ok _ _ _ _ _ (borrow_pure .assetHashes (fun _ => assetsRootHash E) s _ 0 ha)]
        rfl
  · rw [bind_ok _ _ _ _ _ hc, hx]
    rfl

theorem siweGetDelegation_eq (now : UInt64) (c : Option Bytes) (addr k : Bytes) (e : UInt64) (s : State E) (b : Cell → Borrow)
    (h : ProviderFree b) :
    siweGetDelegation now c addr k e ⟨s, b⟩ = ofStep (s, Siwe.siweGetDelegation s now c addr k e) b := by
  unfold siweGetDelegation Siwe.siweGetDelegation
  cases c with
  | none => rfl
  | some cert =>
    dsimp only
    cases hA : EthAddress.new E addr with
    | err e => rw [call_err _ _ _ e rfl]; rfl
    | panic => rw [call_panic _ _ _ rfl]; rfl
    | ok a =>
      rw [call_ok _ _ _ _ rfl]
      dsimp only [Res.mapErr]
      rw [Res.ok_bind]
      cases hs : s.lib.settings with
      | none =>
        refine mut_error .signatureMap _ s b h.signatureMap ?_
        unfold siweGetDelegationBody
        rw [bind_error (generateSeed a) _ _ _ (settings_none _ s (hold b .signatureMap) 0
          ((hold_other _ _ _ (by decide)).trans h.settings) hs)]
        rfl
      | some t =>
        dsimp only
        have hB := siweGetDelegationBody_eq now cert a k e s b t hs h
        show _ = ofStep (s, delegationFor s t now cert a k e) b
        cases hr : delegationFor s t now cert a k e with
        | ok d => rw [hr] at hB; exact mut_ok .signatureMap _ s s b (Except.ok d) s.sigMap h.signatureMap hB
        | err e => rw [hr] at hB; exact mut_ok .signatureMap _ s s b (Except.error e) s.sigMap h.signatureMap hB
        | panic => rw [hr] at hB; exact mut_error .signatureMap _ s b h.signatureMap hB

theorem getAddress_eq (p : Bytes) (s : State E) (b : Cell → Borrow) (h : MappingsFree b) :
    getAddress p ⟨s, b⟩ = ofStep (s, Siwe.getAddress s p) b := by
  unfold getAddress Siwe.getAddress
  rw [bind_ok _ _ _ _ _ (flag_eq _ s b h)]
  split
  · rfl
  · split
    · rfl
    · have hL : lookupAddress p ⟨s, b⟩ = .ok (List.lookup p s.principalAddress, ⟨s, b⟩) := by
        unfold lookupAddress
        rw [withMapping_eq _ _ _ h]
        exact borrow_pure .principalAddress (fun pa => List.lookup p (pa : StableMap)) s b 0 h.principalAddress
      rw [bind_ok _ _ _ _ _ hL]
      cases List.lookup p s.principalAddress with
      | none => rfl
      | some a =>
        dsimp only
        cases convertToEip55 E (bytesToEthAddress a) <;> rfl

theorem getCallerAddress_eq (p : Bytes) (s : State E) (b : Cell → Borrow) (h : MappingsFree b) :
    getCallerAddress p ⟨s, b⟩ = ofStep (s, Siwe.getCallerAddress s p) b := by
  unfold getCallerAddress Siwe.getCallerAddress
  rw [bind_ok _ _ _ _ _ (flag_eq _ s b h)]
  split
  · rfl
  · exact getAddress_eq p s b h

theorem getPrincipal_eq (addr : Bytes) (s : State E) (b : Cell → Borrow) (h : MappingsFree b) :
    getPrincipal addr ⟨s, b⟩ = ofStep (s, Siwe.getPrincipal s addr) b := by
  unfold getPrincipal Siwe.getPrincipal
  rw [bind_ok _ _ _ _ _ (flag_eq _ s b h)]
  split
  · rfl
  · cases hA : EthAddress.new E addr with
    | err e => rw [call_err _ _ _ e rfl]; rfl
    | panic => rw [call_panic _ _ _ rfl]; rfl
    | ok a =>
      rw [call_ok _ _ _ _ rfl]
      dsimp only [Res.mapErr]
      rw [Res.ok_bind]
      cases hB : a.asByteArray with
      | err e => rfl
      | panic => rfl
      | ok x =>
        dsimp only [Res.unwrap]
        rw [call_ok _ _ _ _ rfl, Res.ok_bind]
        have hL : lookupPrincipal x ⟨s, b⟩ = .ok (List.lookup x s.addressPrincipal, ⟨s, b⟩) := by
          unfold lookupPrincipal
          rw [withMapping_eq _ _ _ h]
          exact borrow_pure .addressPrincipal (fun pa => List.lookup x (pa : StableMap)) s b 0 h.addressPrincipal
        dsimp only
        rw [bind_ok _ _ _ _ _ hL]
        cases List.lookup x s.addressPrincipal <;> rfl

theorem seedRng_eq (seed : Bytes) (s : State E) (b : Cell → Borrow) (h : LibFree b) :
    seedRng seed ⟨s, b⟩ = .ok ((), ⟨{ s with lib := Siwe.seedRng s.lib seed }, b⟩) :=
  mut_ok .rng _ s s b () (some (E.rngFromSeed seed)) h.rng rfl

theorem libInit_eq (t : Settings) (s : State E) (b : Cell → Borrow) (h : LibFree b) :
    libInit t ⟨s, b⟩ = .ok ((), ⟨{ s with lib := Siwe.libInit s.lib t }, b⟩) :=
  mut_ok .libSettings _ s s b () (some t) h.settings rfl

theorem siweInit_eq (i : SettingsInput) (s : State E) (b : Cell → Borrow) (h : ProviderFree b) :
    siweInit i ⟨s, b⟩ = match Siwe.siweInit s i with
      | .ok s' => .ok ((), ⟨s', b⟩)
      | .err e => nomatch e
      | .panic => .error .panic := by
  unfold siweInit Siwe.siweInit
  cases applyTargets E i.targets (applyScalars i) with
  | err e => exact nomatch e
  | panic => rfl
  | ok t =>
    rw [call_ok _ _ _ _ rfl, Res.ok_bind]
    dsimp only
    cases hb : ((SettingsBuilder.build E (applyFeatureOption i.runtimeFeatures (t, s.settings)).1).unwrap : Res Empty _) with
    | err e => exact nomatch e
    | panic =>
      refine mut_error .settings _ s b h.mappings.settings ?_
      show siweInitBody i.runtimeFeatures t s.settings _ = _
      unfold siweInitBody
      rw [call_panic _ _ _ hb]; rfl
    | ok st =>
      refine mut_ok .settings _ s { s with lib := Siwe.libInit s.lib st } b () (applyFeatureOption i.runtimeFeatures (t, s.settings)).2
        h.mappings.settings ?_
      show siweInitBody i.runtimeFeatures t s.settings _ = _
      unfold siweInitBody
      rw [call_ok _ _ _ _ hb]
      dsimp only
      rw [bind_ok _ _ _ _ _ (libInit_eq st s _ (h.toLibFree.hold _ (by decide) (by decide) (by decide)))]
      rfl

/-- How an execution ends, in terms of the reply and the state of the model without cells. -/
def ofReply (x : State E × Reply) (b : Cell → Borrow) : Except Stop (Reply × Memory E) :=
  if x.2 = .trap then .error .panic else .ok (x.2, ⟨x.1, b⟩)

theorem answer_eq {α : Type} (f : α → Reply) (hf : ∀ a, f a ≠ .trap) (x : Prog E (Except ProviderError α)) (s : State E)
    (b : Cell → Borrow) (y : State E × Res ProviderError α) (h : x ⟨s, b⟩ = ofStep y b) :
    answer f x ⟨s, b⟩ = ofReply (commit s f y) b := by
  unfold answer
  obtain ⟨s', r⟩ := y
  cases r with
  | ok a => rw [bind_ok _ _ _ _ _ h]; simp [commit, reply, ofReply, hf, pure_apply]
  | err e => rw [bind_ok _ _ _ _ _ h]; simp [commit, reply, ofReply, pure_apply]
  | panic => rw [bind_error _ _ _ _ h]; simp [commit, ofReply]

theorem answer_query_eq {α : Type} (f : α → Reply) (hf : ∀ a, f a ≠ .trap) (x : Prog E (Except ProviderError α)) (s : State E)
    (b : Cell → Borrow) (r : Res ProviderError α) (h : x ⟨s, b⟩ = ofStep (s, r) b) :
    answer f x ⟨s, b⟩ = ofReply (s, reply f r) b := by
  rw [answer_eq f hf x s b _ h]
  cases r <;> rfl

theorem init_eq (i : SettingsInput) (s s' : State E) (b : Cell → Borrow) (h : ProviderFree b) :
    (do siweInit i; pure .done : Prog E Reply) ⟨s, b⟩ = ofReply (commitInit s' (Siwe.siweInit s i)) b := by
  have hi := siweInit_eq i s b h
  cases hr : Siwe.siweInit s i with
  | err e => exact nomatch e
  | panic => rw [hr] at hi; rw [bind_error _ _ _ _ hi]; simp [commitInit, ofReply]
  | ok s' => rw [hr] at hi; rw [bind_ok _ _ _ _ _ hi]; simp [commitInit, ofReply, pure_apply]

theorem program_eq (now : UInt64) (op : Op) (s : State E) :
    program now op (before ⟨s, unused⟩ op) = ofReply (Siwe.step s now op) unused := by
  have h : ProviderFree unused := .unused
  cases op with
  | install i => exact init_eq i _ s unused h
  | upgrade i => exact init_eq i _ s unused h
  | rngSeeded seed =>
    show ((do seedRng seed; pure .done) : Prog E Reply) ⟨s, unused⟩ = _
    rw [bind_ok _ _ _ _ _ (seedRng_eq seed s unused h.toLibFree)]
    simp [Siwe.step, ofReply, pure_apply]
  | prepareLogin a => exact answer_eq .prepared (fun _ => by simp) _ s unused _ (siwePrepareLogin_eq now a s unused h.toLibFree)
  | login sig a k n => exact answer_eq .loggedIn (fun _ => by simp) _ s unused _ (siweLogin_eq now sig a k n s unused h)
  | getDelegation c a k e => exact answer_query_eq .delegation (fun _ => by simp) _ s unused _ (siweGetDelegation_eq now c a k e s unused h)
  | getAddress p => exact answer_query_eq .bytes (fun _ => by simp) _ s unused _ (getAddress_eq p s unused h.mappings)
  | getCallerAddress p => exact answer_query_eq .bytes (fun _ => by simp) _ s unused _ (getCallerAddress_eq p s unused h.mappings)
  | getPrincipal a => exact answer_query_eq .bytes (fun _ => by simp) _ s unused _ (getPrincipal_eq a s unused h.mappings)

theorem commit_trap {α : Type} (s : State E) (f : α → Reply) (hf : ∀ a, f a ≠ .trap) (y : State E × Res ProviderError α)
    (h : (commit s f y).2 = .trap) : (commit s f y).1 = s := by
  obtain ⟨s', r⟩ := y
  cases r with
  | ok a => exact absurd h (hf a)
  | err e => exact nomatch h
  | panic => rfl

theorem step_trap (now : UInt64) (op : Op) (s : State E) (h : (Siwe.step s now op).2 = .trap) : (Siwe.step s now op).1 = s := by
  have hc : ∀ x : Res Empty (State E), (commitInit s x).2 = .trap → (commitInit s x).1 = s := by
    intro x hx
    cases x with
    | ok a => exact nomatch hx
    | err e => exact nomatch e
    | panic => rfl
  cases op with
  | install i => exact hc _ h
  | upgrade i => exact hc _ h
  | rngSeeded seed => exact nomatch h
  | prepareLogin a => exact commit_trap s .prepared (fun _ => by simp) _ h
  | login sig a k n => exact commit_trap s .loggedIn (fun _ => by simp) _ h
  | _ => rfl

theorem step_query (now : UInt64) (op : Op) (s : State E) (h : isQuery op = true) : (Siwe.step s now op).1 = s := by
  cases op <;> first | rfl | exact nomatch h

theorem step_eq (now : UInt64) (op : Op) (s : State E) :
    step ⟨s, unused⟩ now op = (⟨(Siwe.step s now op).1, unused⟩, (Siwe.step s now op).2) := by
  unfold step
  rw [program_eq]
  unfold ofReply
  split
  · next h =>
    split at h
    · next ht => rw [step_trap now op s ht, ht]
    · exact nomatch h
  · next h =>
    split at h
    · exact nomatch h
    · cases h
      split
      · next hq => rw [step_query now op s hq]
      · rfl

theorem run_eq (h : History) (s : State E) :
    run ⟨s, unused⟩ h = (⟨(Siwe.run s h).1, unused⟩, (Siwe.run s h).2) := by
  induction h generalizing s with
  | nil => rfl
  | cons x rest ih =>
    obtain ⟨now, op⟩ := x
    simp only [run, Siwe.run, step_eq, ih]

end Siwe.Cells
