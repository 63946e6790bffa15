import Verif.Lemmas.CandidSub
import Verif.Lemmas.Provenance
import Verif.Props.Message
import Verif.Examples.Histories
/- C77 to C80: the published interface against the code. -/
namespace Siwe
open Spec Candid

theorem opt_typed {α : Type} (t : Ty) (f : α → Val) (h : ∀ a, HasType t (f a)) (o : Option α) : HasType (.opt t) (optVal f o) := by
  cases o with
  | none => rw [HasType.eq_def]; trivial
  | some a => rw [HasType.eq_def]; exact h a

theorem texts_typed (ts : List Bytes) : HasType (.vec text) (.vec (ts.map .text)) := by
  rw [HasType.eq_def]
  intro v hv
  obtain ⟨b, _, rfl⟩ := List.mem_map.mp hv
  rw [HasType.eq_def]
  rfl

/-- The configuration is a value of the published type. -/
theorem config_typed (c : Config) : HasType Did.settingsInput c.val := by
  have h1 := features_typed c.runtimeFeatures
  have h2 := fun o => opt_typed (.prim .text) Val.text (fun a => by rw [HasType.eq_def]; rfl) o
  have h3 := fun o => opt_typed (.prim .nat64) Val.nat64 (fun a => by rw [HasType.eq_def]; rfl) o
  have h4 := fun o => opt_typed (.prim .nat) Val.nat (fun a => by rw [HasType.eq_def]; rfl) o
  have h5 := fun o => opt_typed (.vec text) (fun ts : List Bytes => Val.vec (ts.map .text)) texts_typed o
  have h6 : ∀ b, HasType (.prim .text) (.text b) := fun b => by rw [HasType.eq_def]; rfl
  rw [did_settings, config_val, HasType.eq_def]
  simp only [settingsFields, HasFields, true_and, and_true]
  exact ⟨h6 _, h1, h6 _, h2 _, h2 _, h6 _, h3 _, h5 _, h4 _, h3 _⟩

/-- C77, proved part: a configuration sent as ic_siwe_provider.did prescribes is a value of the published type, it can be decoded, and
the code receives every field as it was written.  Missing: the chain id, which is dropped whatever it was. -/
theorem C77_received_partial (c : Config) : HasType Did.settingsInput c.val ∧
    receiveSettings c.sent = some ⟨c.domain, c.uri, c.salt, none, c.scheme, c.statement, c.signInExpiresIn, c.sessionExpiresIn,
      c.targets, c.runtimeFeatures⟩ := by
  have h0 := config_typed c
  refine ⟨h0, ?_⟩
  have h1 := opt?_optVal Val.text Val.text? (fun _ => rfl)
  have h2 := opt?_optVal Val.nat64 Val.nat64? (fun _ => rfl)
  have h3 := opt?_optVal (fun ts : List Bytes => Val.vec (ts.map .text)) (Val.vec? Val.text?) (mapM_read _ _ (fun _ => rfl))
  have h4 := opt?_optVal (fun fs : List ProviderFeature => Val.vec (fs.map fun f => caseVal (featureName f) .null))
    (Val.vec? readFeature) (mapM_read _ _ readFeature_name)
  rw [receiveSettings, sent_fields]
  simp only [Option.bind_eq_bind, Option.bind_some]
  generalize hr : Val.record _ = r
  have f1 : r.field "domain" = some (.text c.domain) := by rw [← hr, Val.field, label_domain]; rfl
  have f2 : r.field "uri" = some (.text c.uri) := by rw [← hr, Val.field, label_uri]; rfl
  have f3 : r.field "salt" = some (.text c.salt) := by rw [← hr, Val.field, label_salt]; rfl
  have f4 : r.field "chain_id" = some .none := by rw [← hr, Val.field, label_chain_id]; rfl
  have f5 : r.field "scheme" = some (optVal .text c.scheme) := by rw [← hr, Val.field, label_scheme]; rfl
  have f6 : r.field "statement" = some (optVal .text c.statement) := by rw [← hr, Val.field, label_statement]; rfl
  have f7 : r.field "sign_in_expires_in" = some (optVal .nat64 c.signInExpiresIn) := by rw [← hr, Val.field, label_sign_in]; rfl
  have f8 : r.field "session_expires_in" = some (optVal .nat64 c.sessionExpiresIn) := by rw [← hr, Val.field, label_session]; rfl
  have f9 : r.field "targets" = some (optVal (fun ts => .vec (ts.map .text)) c.targets) := by
    rw [← hr, Val.field, label_targets]; rfl
  have f10 : r.field "runtime_features" =
      some (optVal (fun fs => .vec (fs.map fun f => caseVal (featureName f) .null)) c.runtimeFeatures) := by
    rw [← hr, Val.field, label_features]; rfl
  have h5 : (Val.none).opt? Val.nat32? = some none := rfl
  simp only [readSettings, f1, f2, f3, f4, f5, f6, f7, f8, f9, f10, h1, h2, h3, h4, h5, Val.text?, Option.bind_eq_bind,
    Option.bind_some]

/-- C77, how far it fails: the chain id that was written makes no difference. -/
theorem C77_chain_id_ignored (c : Config) (n : Option Nat) : receiveSettings { c with chainId := n }.sent = receiveSettings c.sent := by
  rw [(C77_received_partial _).2, (C77_received_partial c).2]

theorem published_configures {E : Env} {st st' : State E} {now : UInt64} {c : Config} {m : Message}
    (hm : m = .install c.sent ∨ m = .upgrade c.sent) (h : stepMessage st now m = (st', .done)) :
    ∃ s, Configures E ⟨c.domain, c.uri, c.salt, none, c.scheme, c.statement, c.signInExpiresIn,
      c.sessionExpiresIn, c.targets, c.runtimeFeatures⟩ s st'.settings ∧ st'.lib.settings = some s := by
  have hr := (C77_received_partial c).2
  rcases hm with rfl | rfl <;> simp only [stepMessage, receive, hr, Option.map_some] at h
  · obtain ⟨s, p, h1, _, rfl⟩ := (C42_install ..).mp h
    exact ⟨s, h1, rfl⟩
  · obtain ⟨s, p, h1, _, rfl⟩ := (C42_upgrade ..).mp h
    exact ⟨s, h1, rfl⟩

/-- C77, exactly when a configuration is honoured: a successful installation or upgrade gives the canister the settings that were
written exactly if the chain id was left out, or written as 1.  Missing: other chain ids. -/
theorem C77_honoured_partial {E : Env} (st st' : State E) (now : UInt64) (c : Config) (m : Message)
    (hm : m = .install c.sent ∨ m = .upgrade c.sent) (h : stepMessage st now m = (st', .done)) :
    (∃ s, st'.lib.settings = some s ∧ c.Means E s st'.settings) ↔ c.chainId = none ∨ c.chainId = some 1 := by
  obtain ⟨s, hc, g1⟩ := published_configures hm h
  have hi : s.chainId = 1 := hc.chainId
  constructor
  · rintro ⟨s', e, hmeans⟩
    rw [g1] at e
    cases e
    have := hmeans.chainId
    rw [hi] at this
    cases hn : c.chainId with
    | none => exact .inl rfl
    | some n =>
      rw [hn] at this
      exact .inr (congrArg some this.symm)
  · intro hn
    refine ⟨s, g1, hc.domain, hc.uri, hc.salt, ?_, hc.scheme, hc.statement, hc.signIn, hc.session, hc.noTargets, hc.targets,
      hc.uriFeature, hc.ethToPrincipal, hc.principalToEth⟩
    rw [hi]
    rcases hn with hn | hn <;> rw [hn] <;> rfl

/-- A configuration for another chain. -/
def Ex.config : Config where
  domain := ascii "a.com"
  uri := ascii "http://a.com"
  salt := ascii "s"
  chainId := some 137
  scheme := none
  statement := some (ascii "Hello")
  signInExpiresIn := none
  sessionExpiresIn := some 7
  targets := none
  runtimeFeatures := some [.includeUriInSeed, .disablePrincipalToEthMapping]

theorem Ex.config_installs : (stepMessage (State.fresh Toy.env) 1 (.install Ex.config.sent)).2 = .done := by decide +kernel

/-- What a user would expect: the canister gets the settings that were written. -/
def Spec.Honoured (E : Env) : Prop := ∀ (st st' : State E) (now : UInt64) (c : Config),
  stepMessage st now (.install c.sent) = (st', .done) → ∃ s, st'.lib.settings = some s ∧ c.Means E s st'.settings

/-- That fails of the code: a chain id of 137 is not honoured. -/
theorem C77_not_honoured : ¬Honoured Toy.env := by
  intro H
  obtain ⟨st', hst⟩ : ∃ st', stepMessage (State.fresh Toy.env) 1 (.install Ex.config.sent) = (st', .done) :=
    ⟨_, Prod.ext rfl Ex.config_installs⟩
  have := (C77_honoured_partial _ _ _ _ _ (.inl rfl) hst).mp (H _ _ _ _ hst)
  exact absurd this (by simp [Ex.config])

/-! ### C80: messages and calls -/

/-- The calls among the messages: those that can be decoded. -/
def Spec.calls (ms : List (UInt64 × Message)) : History :=
  ms.filterMap fun m => (receive m.2).map fun op => (m.1, op)

/-- The replies to the messages, given those to the calls among them: everything else is refused. -/
inductive Spec.Answers : List (UInt64 × Message) → List Reply → List Reply → Prop
  | nil : Answers [] [] []
  | call (t m op ms r rs qs) : receive m = some op → Answers ms rs qs → Answers ((t, m) :: ms) (r :: rs) (r :: qs)
  | refused (t m ms rs qs) : receive m = none → Answers ms rs qs → Answers ((t, m) :: ms) rs (.trap :: qs)

/-- C80: whatever is sent, the canister is in the state, and gives the answers, of the calls that could be decoded; everything else is
refused and changes nothing. -/
theorem C80_only_calls {E : Env} (s : State E) (ms : List (UInt64 × Message)) :
    (runMessages s ms).1 = (run s (calls ms)).1 ∧ Answers ms (run s (calls ms)).2 (runMessages s ms).2 := by
  induction ms generalizing s with
  | nil => exact ⟨rfl, .nil⟩
  | cons a ms ih =>
    obtain ⟨t, m⟩ := a
    cases hr : receive m with
    | none =>
      have h1 : calls ((t, m) :: ms) = calls ms := by simp [calls, hr]
      have h2 : runMessages s ((t, m) :: ms) = ((runMessages s ms).1, .trap :: (runMessages s ms).2) := by
        simp only [runMessages, stepMessage, hr]
      rw [h1, h2]
      exact ⟨(ih s).1, .refused _ _ _ _ _ hr (ih s).2⟩
    | some op =>
      have h1 : calls ((t, m) :: ms) = (t, op) :: calls ms := by simp [calls, hr]
      have h2 : runMessages s ((t, m) :: ms) =
          ((runMessages (step s t op).1 ms).1, (step s t op).2 :: (runMessages (step s t op).1 ms).2) := by
        simp only [runMessages, stepMessage, hr]
      rw [h1, h2]
      exact ⟨(ih _).1, .call _ _ op _ _ _ _ hr (ih _).2⟩

/-- Neither an installation nor an upgrade. -/
def Spec.Everyday : Message → Prop
  | .install _ => False
  | .upgrade _ => False
  | _ => True

theorem everyday_op {m : Message} {op : Op} (hm : Everyday m) (h : receive m = some op) (i : SettingsInput) :
    op ≠ .install i ∧ op ≠ .upgrade i := by
  cases m with
  | install | upgrade => exact hm.elim
  | rngSeeded => cases h; exact ⟨nofun, nofun⟩
  | call name caller cert args =>
    simp only [receive, Option.bind_eq_bind, Option.bind_eq_some_iff] at h
    obtain ⟨f, _, h⟩ := h
    obtain ⟨vs, _, h⟩ := (receiveCall_iff ..).mp h
    cases h <;> exact ⟨nofun, nofun⟩

theorem everyday_keeps {E : Env} {s : State E} (h0 : Inv s) (ms : List (UInt64 × Message)) (hm : ∀ m ∈ ms, Everyday m.2) :
    (runMessages s ms).1.lib.settings = s.lib.settings := by
  rw [(C80_only_calls s ms).1]
  refine (settings_keep h0 _ ?_).1
  have key : ∀ (h : History) (s : State E), (∀ x ∈ h, ∀ i, x.2 ≠ .install i ∧ x.2 ≠ .upgrade i) → SameModule (traceFrom s h) := by
    intro h
    induction h with
    | nil => intro s _ e he; simp [traceFrom] at he
    | cons x h ih =>
      intro s hx e he
      obtain ⟨t, op⟩ := x
      rw [traceFrom, List.mem_cons] at he
      rcases he with rfl | he
      · rintro ⟨i, h1 | h1, _⟩
        · exact (hx (t, op) (by simp) i).1 h1
        · exact (hx (t, op) (by simp) i).2 h1
      · exact ih _ (fun x h => hx x (by simp [h])) e he
  refine key _ _ ?_
  intro x hx i
  obtain ⟨m, h1, h2⟩ := List.mem_filterMap.mp hx
  obtain ⟨op, h3, rfl⟩ := Option.map_eq_some_iff.mp h2
  exact everyday_op (hm m h1) h3 i

/-- C77, what users see of that: after an installation or upgrade with a published configuration, every sign-in message says chain
id 1, until the next installation or upgrade. -/
theorem C77_always_chain_one (E : Env) (before after : List (UInt64 × Message)) (t now : UInt64) (c : Config) (m : Message)
    (hm : m = .install c.sent ∨ m = .upgrade c.sent)
    (ht : (stepMessage (runMessages (State.fresh E) before).1 t m).2 = .done) (ha : ∀ x ∈ after, Everyday x.2)
    (addr : Bytes) (r : PrepareLoginOkResponse)
    (hr : (step (runMessages (State.fresh E) (before ++ (t, m) :: after)).1 now (.prepareLogin addr)).2 = .prepared r) :
    ∃ f : Shown, IsSiweText f r.siweMessage ∧ f.chainId = 1 ∧ f.domain = c.domain ∧ f.uri = c.uri ∧
      f.statement = c.statement.getD (ascii "SIWE Fields:") := by
  have happ : ∀ (s : State E) (xs ys : List (UInt64 × Message)), (runMessages s (xs ++ ys)).1 = (runMessages (runMessages s xs).1 ys).1 := by
    intro s xs
    induction xs generalizing s with
    | nil => intro ys; rfl
    | cons x xs ih => intro ys; exact ih _ ys
  rw [happ] at hr
  have hinv : Inv (runMessages (State.fresh E) before).1 := by
    rw [(C80_only_calls _ before).1]; exact inv_run (inv_fresh E) _
  generalize (runMessages (State.fresh E) before).1 = st at hinv ht hr
  obtain ⟨st', hst⟩ : ∃ st', stepMessage st t m = (st', .done) := ⟨_, Prod.ext rfl ht⟩
  have hrec : ∀ i, receiveSettings c.sent = some i → ∃ op, receive m = some op := by
    intro i hi
    rcases hm with rfl | rfl <;> exact ⟨_, by rw [receive, hi]; rfl⟩
  obtain ⟨op, hop⟩ := hrec _ (C77_received_partial c).2
  have hinv' : Inv st' := by
    have := inv_step hinv t op
    simp only [stepMessage, hop] at hst
    rw [hst] at this
    exact this
  have hrun : (runMessages st ((t, m) :: after)).1 = (runMessages st' after).1 := by
    show (runMessages (stepMessage st t m).1 after).1 = _
    rw [hst]
  rw [hrun] at hr
  obtain ⟨s, h1, h2, _⟩ := C11_reply_text _ now addr r hr
  rw [everyday_keeps hinv' after ha] at h1
  obtain ⟨s', hc, e⟩ := published_configures hm hst
  rw [h1] at e
  cases e
  refine ⟨_, h2, ?_, hc.domain, hc.uri, hc.statement⟩
  have hi : s.chainId = 1 := hc.chainId
  exact congrArg UInt32.toNat hi

/-- Non-vacuity: the configuration for chain 137, a seed, a message that cannot be decoded, and then a sign-in message. -/
example : (step (runMessages (State.fresh Toy.env) ([] ++ (1, .install Ex.config.sent) ::
      [(2, .rngSeeded [1, 2, 3]), (3, .call "siwe_login" [4] none [(text, .text Ex.alice)])])).1 5 (.prepareLogin Ex.alice)).2 =
    .prepared ⟨ascii "a.com wants you to sign in with your Ethereum account:\n0x1111111111111111111111111111111111111111\n\nHello\n\nURI: http://a.com\nVersion: 1\nChain ID: 1\nNonce: 00000000000000000003\nIssued At: 1970-01-01T00:00:00.000000005Z\nExpiration Time: 1970-01-01T00:05:00.000000005Z",
      Ex.nonce 3⟩ := by decide +kernel

/-! ### C78: the published interface is the code's -/

/-- C78: the published service, the client's description of it and the exported functions are the same methods with the same types
and the same kind (query or update), and the client has the published configuration type. -/
theorem C78_same_methods : (Function.all.map Function.method).Perm Did.methods ∧ Js.methods.Perm Did.methods ∧
    Js.settingsInput = Did.settingsInput := by decide +kernel

theorem find_method (f : Function) : (Function.all.find? fun g => g.method.name = f.method.name) = some f := by
  cases f <;> decide +kernel

theorem method_of {m : Method} (h : m ∈ Did.methods) : ∃ f : Function, f.method = m := by
  obtain ⟨f, _, hf⟩ := List.mem_map.mp (C78_same_methods.1.mem_iff.mpr h)
  exact ⟨f, hf⟩

theorem blob_typed (b : Bytes) : HasType blob (.blob b) := by
  rw [HasType.eq_def]
  intro v hv
  obtain ⟨x, _, rfl⟩ := List.mem_map.mp hv
  rw [HasType.eq_def]
  rfl

theorem text_typed (b : Bytes) : HasType text (.text b) := by rw [HasType.eq_def]; rfl
theorem nat64_typed (n : UInt64) : HasType nat64 (.nat64 n) := by rw [HasType.eq_def]; rfl

theorem text_of_typed {v : Val} (h : HasType text v) : ∃ b, v = .text b := by
  rw [HasType.eq_def] at h
  cases v with
  | text b => exact ⟨b, rfl⟩
  | _ => simp [Val.prim?] at h

theorem nat64_of_typed {v : Val} (h : HasType nat64 v) : ∃ n, v = .nat64 n := by
  rw [HasType.eq_def] at h
  cases v with
  | nat64 n => exact ⟨n, rfl⟩
  | _ => simp [Val.prim?] at h

theorem blob_of_typed {v : Val} (h : HasType blob v) : ∃ b, v = .blob b := by
  rw [HasType.eq_def] at h
  cases v with
  | vec vs =>
    have h : ∀ v ∈ vs, HasType (.prim .nat8) v := h
    suffices ∃ b : Bytes, vs = b.map .nat8 from this.elim fun b hb => ⟨b, congrArg Val.vec hb⟩
    induction vs with
    | nil => exact ⟨[], rfl⟩
    | cons v vs ih =>
      obtain ⟨b, rfl⟩ := ih (fun v hv => h v (by simp [hv])) (fun v hv => h v (by simp [hv]))
      have hv := h v (by simp)
      rw [HasType.eq_def] at hv
      cases v with
      | nat8 n => exact ⟨n :: b, rfl⟩
      | _ => simp [Val.prim?] at hv
  | _ => exact h.elim

theorem label_foldl (bs : Bytes) (h : UInt32) :
    (bs.foldl (fun h b => h * 223 + UInt32.ofNat b.toNat) h).toNat = (h.toNat * 223 ^ bs.length + nameHash bs) % 2 ^ 32 := by
  induction bs generalizing h with
  | nil => simp [nameHash, Nat.mod_eq_of_lt h.toNat_lt]
  | cons b bs ih =>
    have hb : b.toNat < 2 ^ 32 := Nat.lt_trans b.toNat_lt (by decide)
    rw [List.foldl_cons, ih, nameHash, List.length_cons, UInt32.toNat_add, UInt32.toNat_mul, UInt32.toNat_ofNat', Nat.mod_eq_of_lt hb,
      show (223 : UInt32).toNat = 223 from rfl, Nat.mod_add_mod, Nat.add_mod, Nat.mul_mod, Nat.mod_mod, ← Nat.mul_mod, ← Nat.add_mod]
    congr 1
    rw [Nat.add_mul, Nat.pow_succ, Nat.mul_assoc, Nat.mul_comm 223, Nat.add_assoc]

/-- C78: names are known on the wire by their hash, as the Candid specification has it. -/
theorem C78_labels (name : String) : (label name).toNat = nameHash (ascii name) % 2 ^ 32 := by
  unfold label
  rw [label_foldl]
  simp

/-- C78: every call of a published method, with arguments of the published types, is decoded into the call of the function of that name,
with exactly these arguments in this order. -/
theorem C78_calls (m : Method) (hm : m ∈ Did.methods) (vs : List Val) (hl : vs.length = m.args.length)
    (ht : ∀ a ∈ m.args.zip vs, HasType a.1 a.2) (caller : Bytes) (cert : Option Bytes) :
    ∃ f op, f.method = m ∧ Asks f vs caller cert op ∧ receive (.call m.name caller cert (m.args.zip vs)) = some op := by
  obtain ⟨f, rfl⟩ := method_of hm
  have hd := decodeArgs_zip (method_rigid f) [] hl ht
  rw [List.append_nil] at hd
  suffices ∃ op, Asks f vs caller cert op by
    obtain ⟨op, hop⟩ := this
    refine ⟨f, op, rfl, hop, ?_⟩
    rw [receive, find_method f]
    exact (receiveCall_iff ..).mpr ⟨vs, hd, hop⟩
  cases f <;> simp only [Function.method, List.length_cons, List.length_nil] at hl ht
  · match vs, hl with
    | [a], _ =>
      simp at ht
      obtain ⟨x, rfl⟩ := text_of_typed ht
      exact ⟨_, .prepareLogin ..⟩
  · match vs, hl with
    | [a, b, c, d], _ =>
      simp at ht
      obtain ⟨x, rfl⟩ := text_of_typed ht.1
      obtain ⟨y, rfl⟩ := text_of_typed ht.2.1
      obtain ⟨z, rfl⟩ := blob_of_typed ht.2.2.1
      obtain ⟨w, rfl⟩ := text_of_typed ht.2.2.2
      exact ⟨_, .login ..⟩
  · match vs, hl with
    | [a, b, c], _ =>
      simp at ht
      obtain ⟨x, rfl⟩ := text_of_typed ht.1
      obtain ⟨y, rfl⟩ := blob_of_typed ht.2.1
      obtain ⟨z, rfl⟩ := nat64_of_typed ht.2.2
      exact ⟨_, .getDelegation ..⟩
  · match vs, hl with
    | [a], _ =>
      simp at ht
      obtain ⟨x, rfl⟩ := blob_of_typed ht
      exact ⟨_, .getAddress ..⟩
  · match vs, hl with
    | [], _ => exact ⟨_, .getCallerAddress ..⟩
  · match vs, hl with
    | [a], _ =>
      simp at ht
      obtain ⟨x, rfl⟩ := text_of_typed ht
      exact ⟨_, .getPrincipal ..⟩

/-- The shape of the answers to a function's calls. -/
theorem reply_shape {E : Env} (s : State E) (now : UInt64) {f : Function} {vs : List Val} {caller : Bytes} {cert : Option Bytes} {op : Op}
    (h : Asks f vs caller cert op) : (step s now op).2 = .trap ∨ (∃ e, (step s now op).2 = .err e) ∨
      match f with
      | .prepareLogin => ∃ r, (step s now op).2 = .prepared r
      | .login => ∃ d, (step s now op).2 = .loggedIn d
      | .getDelegation => ∃ d, (step s now op).2 = .delegation d
      | _ => ∃ b, (step s now op).2 = .bytes b := by
  have key : ∀ {α : Type} (g : α → Reply) (x : Res ProviderError α), reply g x = .trap ∨ (∃ e, reply g x = .err e) ∨
      ∃ a, reply g x = g a := by
    intro α g x
    cases x with
    | ok a => exact .inr (.inr ⟨a, rfl⟩)
    | err e => exact .inr (.inl ⟨e, rfl⟩)
    | panic => exact .inl rfl
  have key' : ∀ {α : Type} (g : α → Reply) (x : State E × Res ProviderError α), (commit s g x).2 = .trap ∨
      (∃ e, (commit s g x).2 = .err e) ∨ ∃ a, (commit s g x).2 = g a := by
    intro α g x
    obtain ⟨x1, x2⟩ := x
    cases x2 with
    | ok a => exact .inr (.inr ⟨a, rfl⟩)
    | err e => exact .inr (.inl ⟨e, rfl⟩)
    | panic => exact .inl rfl
  cases h with
  | prepareLogin => exact key' ..
  | login => exact key' ..
  | getDelegation => exact key ..
  | getAddress => exact key ..
  | getCallerAddress => exact key ..
  | getPrincipal => exact key ..

theorem ok_typed (t : Ty) (v : Val) (h : HasType t v) : HasType (Rust.resultOf t) (caseVal "Ok" v) := by
  have e : Rust.resultOf t = .variant (.cons 17724 t (.cons 3456837 text .nil)) := by
    have h1 : label "Ok" = 17724 := by decide +kernel
    have h2 : label "Err" = 3456837 := by decide +kernel
    simp [Rust.resultOf, variant, Fields.named, Fields.insert, h1, h2]
  have h1 : label "Ok" = 17724 := by decide +kernel
  rw [e, caseVal, h1, HasType.eq_def]
  show HasCase _ _ _
  rw [HasCase, if_pos rfl]
  exact h

theorem err_typed (t : Ty) (b : Bytes) : HasType (Rust.resultOf t) (caseVal "Err" (.text b)) := by
  have h1 : label "Ok" = 17724 := by decide +kernel
  have h2 : label "Err" = 3456837 := by decide +kernel
  have e : Rust.resultOf t = .variant (.cons 17724 t (.cons 3456837 text .nil)) := by
    simp [Rust.resultOf, variant, Fields.named, Fields.insert, h1, h2]
  rw [e, caseVal, h2, HasType.eq_def]
  show HasCase _ _ _
  rw [HasCase, if_neg (by decide), HasCase, if_pos rfl]
  exact text_typed b

theorem label_reply : label "siwe_message" = 3554537836 ∧ label "nonce" = 2680573167 ∧ label "expiration" = 2389990191 ∧
    label "user_canister_pubkey" = 1807493158 ∧ label "delegation" = 892501160 ∧ label "signature" = 359375608 ∧
    label "pubkey" = 1727183618 := by decide +kernel

theorem prepared_typed (m n : Bytes) : HasType Rust.prepareLoginOkResponse (recordVal [("siwe_message", .text m), ("nonce", .text n)]) := by
  have e : Rust.prepareLoginOkResponse = .record (.cons 2680573167 text (.cons 3554537836 text .nil)) := by decide +kernel
  obtain ⟨l1, l2, _⟩ := label_reply
  rw [e, HasType.eq_def]
  simp [recordVal, sortBy, insertSorted, l1, l2, HasFields, text_typed]

theorem details_typed (x : UInt64) (k : Bytes) :
    HasType Rust.loginDetails (recordVal [("expiration", .nat64 x), ("user_canister_pubkey", .blob k)]) := by
  have e : Rust.loginDetails = .record (.cons 1807493158 blob (.cons 2389990191 nat64 .nil)) := by decide +kernel
  obtain ⟨_, _, l1, l2, _⟩ := label_reply
  rw [e, HasType.eq_def]
  simp [recordVal, sortBy, insertSorted, l1, l2, HasFields, blob_typed, nat64_typed]

theorem delegation_typed (d : SignedDelegation) : HasType Rust.signedDelegation (delegationVal d) := by
  have e1 : Rust.delegation = .record (.cons 1727183618 blob (.cons 2288514050 (.opt (.vec principal)) (.cons 2389990191 nat64 .nil))) := by
    decide +kernel
  have e2 : Rust.signedDelegation = .record (.cons 359375608 blob (.cons 892501160 Rust.delegation .nil)) := by decide +kernel
  obtain ⟨_, _, l1, _, l2, l3, l4⟩ := label_reply
  have ht : ∀ o : Option (List Bytes), HasType (.opt (.vec principal)) (optVal (fun ts => .vec (ts.map .principal)) o) := by
    refine opt_typed _ _ fun ts => ?_
    rw [HasType.eq_def]
    intro v hv
    obtain ⟨b, _, rfl⟩ := List.mem_map.mp hv
    rw [HasType.eq_def]
    rfl
  have hd : HasType Rust.delegation (recordVal [("pubkey", .blob d.delegation.pubkey), ("expiration", .nat64 d.delegation.expiration),
      ("targets", optVal (fun ts => .vec (ts.map .principal)) d.delegation.targets)]) := by
    rw [e1, HasType.eq_def]
    simp [recordVal, sortBy, insertSorted, l1, l4, label_targets, HasFields, blob_typed, nat64_typed, ht]
  rw [e2, HasType.eq_def, delegationVal]
  generalize recordVal [("pubkey", _), ("expiration", _), ("targets", _)] = r at hd ⊢
  simp [recordVal, sortBy, insertSorted, l2, l3, HasFields, blob_typed, hd]

theorem reply_value {E : Env} (s : State E) (now : UInt64) (f : Function) (vs : List Val) (caller : Bytes) (cert : Option Bytes) (op : Op)
    (h : Asks f vs caller cert op) (hr : (step s now op).2 ≠ .trap) (derText : Bytes) :
    ∃ v, replyVal derText f (step s now op).2 = some v ∧ HasType f.method.result v ∧ Says f derText (step s now op).2 v := by
  have herr : ∀ e, (step s now op).2 = .err e → ∃ v, replyVal derText f (step s now op).2 = some v ∧ HasType f.method.result v ∧
      Says f derText (step s now op).2 v := by
    intro e he
    rw [he]
    refine ⟨_, rfl, ?_, rfl⟩
    cases f <;> exact err_typed ..
  obtain ⟨l1, l2, l3, l4, l5, l6, l7⟩ := label_reply
  rcases reply_shape s now h with h1 | ⟨e, h1⟩ | h1
  · exact absurd h1 hr
  · exact herr e h1
  · cases f with
    | prepareLogin =>
      obtain ⟨r, h1⟩ := h1
      rw [h1]
      refine ⟨_, rfl, ok_typed _ _ (prepared_typed ..), _, rfl, ?_⟩
      simp [sortBy, insertSorted, l1, l2, List.lookup]
    | login =>
      obtain ⟨d, h1⟩ := h1
      rw [h1]
      refine ⟨_, rfl, ok_typed _ _ (details_typed ..), _, rfl, ?_⟩
      simp [sortBy, insertSorted, l3, l4, List.lookup]
    | getDelegation =>
      obtain ⟨d, h1⟩ := h1
      rw [h1]
      refine ⟨_, rfl, ok_typed _ _ (delegation_typed ..), _,
        [(1727183618, .blob d.delegation.pubkey), (2288514050, optVal (fun ts => .vec (ts.map .principal)) d.delegation.targets),
          (2389990191, .nat64 d.delegation.expiration)], rfl, ?_⟩
      simp [recordVal, sortBy, insertSorted, l3, l5, l6, l7, label_targets, List.lookup]
    | getAddress =>
      obtain ⟨b, h1⟩ := h1
      rw [h1]
      exact ⟨_, rfl, ok_typed _ _ (text_typed ..), rfl⟩
    | getCallerAddress =>
      obtain ⟨b, h1⟩ := h1
      rw [h1]
      exact ⟨_, rfl, ok_typed _ _ (text_typed ..), rfl⟩
    | getPrincipal =>
      obtain ⟨b, h1⟩ := h1
      rw [h1]
      exact ⟨_, rfl, ok_typed blob (.blob b) (blob_typed b), rfl⟩

/-- C78: the answer to a call, as the canister sends it, is read at the published type, by the client too, as saying exactly what the
canister answered.  (When the call traps there is no answer.) -/
theorem C78_replies {E : Env} (s : State E) (now : UInt64) (f : Function) (vs : List Val) (caller : Bytes) (cert : Option Bytes) (op : Op)
    (h : Asks f vs caller cert op) (hr : (step s now op).2 ≠ .trap) (derText : Bytes) :
    ∃ v, replyVal derText f (step s now op).2 = some v ∧
      ∀ m : Method, m ∈ Did.methods ∨ m ∈ Js.methods → m.name = f.method.name →
        ∃ w, decode m.result f.method.result v = some w ∧ Says f derText (step s now op).2 w := by
  have hm : ∀ m : Method, m ∈ Did.methods ∨ m ∈ Js.methods → m.name = f.method.name → m.result = f.method.result := by
    have hd : ∀ m ∈ Did.methods, ∀ f : Function, m.name = f.method.name → m.result = f.method.result := by
      intro m h1 f
      obtain ⟨g, rfl⟩ := method_of h1
      intro h2
      have := find_method g
      rw [show (fun x : Function => decide (x.method.name = g.method.name)) = fun x => decide (x.method.name = f.method.name) from
        by rw [h2], find_method f] at this
      cases this
      rfl
    rintro m (h1 | h1) h2
    · exact hd m h1 f h2
    · exact hd m (C78_same_methods.2.1.mem_iff.mp h1) f h2
  have wf : f.method.result.wf = true := by cases f <;> decide +kernel
  obtain ⟨v, h1, h2, h3⟩ := reply_value s now f vs caller cert op h hr derText
  exact ⟨v, h1, fun m a b => ⟨v, by rw [hm m a b]; exact decode_self _ wf v h2, h3⟩⟩

/-- Non-vacuity: the sign-in message above is such an answer; a principal nobody knows gets one too. -/
example : Asks .prepareLogin [.text Ex.alice] [4] none (.prepareLogin Ex.alice) ∧ Asks .getAddress [.blob [9]] [4] none (.getAddress [9]) ∧
    (step (runMessages (State.fresh Toy.env) [(1, .install Ex.config.sent), (2, .rngSeeded [1, 2, 3])]).1 5 (.prepareLogin Ex.alice)).2 ≠ .trap ∧
    (step (stepMessage (State.fresh Toy.env) 1 (.install Ex.config.sent)).1 5 (.getAddress [9])).2 ≠ .trap :=
  ⟨.prepareLogin .., .getAddress .., by decide +kernel, by decide +kernel⟩

theorem ok_ne_err {v w : Val} : Val.variant (label "Ok") v ≠ Val.variant (label "Err") w := by
  intro h
  have : label "Ok" ≠ label "Err" := by decide +kernel
  injection h with h
  exact this h

theorem blob_inj {a b : Bytes} (h : Val.blob a = Val.blob b) : a = b := by
  simp only [Val.blob, Val.vec.injEq] at h
  exact List.map_injective_iff.mpr (fun _ _ h => by cases h; rfl) h

theorem principals_inj {a b : Option (List Bytes)} (h : optVal (fun ts => Val.vec (ts.map .principal)) a = optVal (fun ts => .vec (ts.map .principal)) b) :
    a = b := by
  cases a <;> cases b <;> simp only [optVal, reduceCtorEq, Val.some.injEq, Val.vec.injEq] at h
  · rfl
  · exact congrArg some (List.map_injective_iff.mpr (fun _ _ h => by cases h; rfl) h)

/-- C78: the answers of a function are told apart by what is read: two calls whose answers read the same were answered the same, or
failed with the same error text. -/
theorem C78_told_apart {E : Env} (s s' : State E) (now now' : UInt64) (f : Function) (vs vs' : List Val) (caller caller' : Bytes)
    (cert cert' : Option Bytes) (op op' : Op) (h : Asks f vs caller cert op) (h' : Asks f vs' caller' cert' op') (derText : Bytes)
    (w : Val) (hw : Says f derText (step s now op).2 w) (hw' : Says f derText (step s' now' op').2 w) :
    (step s now op).2 = (step s' now' op').2 ∨ ∃ e e', (step s now op).2 = .err e ∧ (step s' now' op').2 = .err e' ∧
      e.text derText = e'.text derText := by
  -- an error is never read as anything else
  have mixed : ∀ (e : ProviderError) (r : Reply), Says f derText (.err e) w → Says f derText r w → (∀ e, r ≠ .err e) → False := by
    intro e r h1 h2 h3
    cases r with
    | trap | done => exact h2
    | err e => exact h3 e rfl
    | prepared | loggedIn => obtain ⟨_, h2, _⟩ := h2; exact ok_ne_err (h2.symm.trans h1)
    | delegation => obtain ⟨_, _, h2, _⟩ := h2; exact ok_ne_err (h2.symm.trans h1)
    | bytes => exact ok_ne_err (h2.symm.trans h1)
  generalize hr : (step s now op).2 = r at hw ⊢
  generalize hr' : (step s' now' op').2 = r' at hw' ⊢
  have shape := reply_shape s now h
  have shape' := reply_shape s' now' h'
  rw [hr] at shape
  rw [hr'] at shape'
  rcases shape with rfl | ⟨e, rfl⟩ | hok
  · exact hw.elim
  · rcases shape' with rfl | ⟨e', rfl⟩ | hok'
    · exact hw'.elim
    · refine .inr ⟨e, e', rfl, rfl, ?_⟩
      have := hw.symm.trans hw'
      simpa using this
    · refine (mixed e r' hw hw' ?_).elim
      intro e' he
      subst he
      cases f <;> simp at hok'
  · rcases shape' with rfl | ⟨e', rfl⟩ | hok'
    · exact hw'.elim
    · refine (mixed e' r hw' hw ?_).elim
      intro e' he
      subst he
      cases f <;> simp at hok
    · left
      cases f with
      | prepareLogin =>
        obtain ⟨a, rfl⟩ := hok
        obtain ⟨b, rfl⟩ := hok'
        obtain ⟨fs, rfl, h1, h2⟩ := hw
        obtain ⟨gs, h0, h3, h4⟩ := hw'
        cases h0
        rw [h1] at h3; rw [h2] at h4
        cases a; cases b
        simp_all
      | login =>
        obtain ⟨a, rfl⟩ := hok
        obtain ⟨b, rfl⟩ := hok'
        obtain ⟨fs, rfl, h1, h2⟩ := hw
        obtain ⟨gs, h0, h3, h4⟩ := hw'
        cases h0
        rw [h1] at h3; rw [h2] at h4
        have := blob_inj (Option.some.inj h4)
        cases a; cases b
        simp_all
      | getDelegation =>
        obtain ⟨a, rfl⟩ := hok
        obtain ⟨b, rfl⟩ := hok'
        obtain ⟨fs, gs, rfl, h1, h2, h3, h4, h5⟩ := hw
        obtain ⟨fs', gs', h0, h6, h7, h8, h9, h10⟩ := hw'
        cases h0
        rw [h1] at h6; rw [h2] at h7
        cases h6
        rw [h3] at h8; rw [h4] at h9; rw [h5] at h10
        have e1 := blob_inj (Option.some.inj h7)
        have e2 := blob_inj (Option.some.inj h8)
        have e3 := principals_inj (Option.some.inj h10)
        simp only [Option.some.injEq, Val.nat64.injEq] at h9
        obtain ⟨⟨_, _, _⟩, _⟩ := a
        obtain ⟨⟨_, _, _⟩, _⟩ := b
        simp_all
      | getAddress | getCallerAddress =>
        obtain ⟨a, rfl⟩ := hok
        obtain ⟨b, rfl⟩ := hok'
        have := hw.symm.trans hw'
        simpa using this
      | getPrincipal =>
        obtain ⟨a, rfl⟩ := hok
        obtain ⟨b, rfl⟩ := hok'
        have := hw.symm.trans hw'
        simp only [if_pos, Val.variant.injEq, true_and] at this
        rw [blob_inj this]

/-- C79, a call with arguments of any type whatever: it is taken up exactly when a function of that name is exported, and the arguments
begin with one of each of the types the interface publishes for it; then it is that function's call, and what else was sent is ignored. -/
theorem C79_calls (name : String) (caller : Bytes) (cert : Option Bytes) (args : Args) (op : Op) :
    receive (.call name caller cert args) = some op ↔
      ∃ f vs rest, f.method.name = name ∧ args = f.method.args.zip vs ++ rest ∧ Asks f vs caller cert op := by
  rw [receive]
  simp only [Option.bind_eq_bind, Option.bind_eq_some_iff]
  constructor
  · rintro ⟨f, h1, h2⟩
    obtain ⟨vs, h3, h4⟩ := (receiveCall_iff ..).mp h2
    obtain ⟨_, rest, h5⟩ := decodeArgs_rigid (method_rigid f) h3
    exact ⟨f, vs, rest, by simpa using List.find?_some h1, h5, h4⟩
  · rintro ⟨f, vs, rest, rfl, rfl, h⟩
    refine ⟨f, find_method f, (receiveCall_iff ..).mpr ⟨vs, ?_, h⟩⟩
    refine decodeArgs_zip (method_rigid f) rest ?_ ?_
    · cases h <;> rfl
    · cases h <;> simp [Function.method, text_typed, blob_typed, nat64_typed]

/-- C79, what may be sent where a type is read: the decoder's comparison of types is the Candid specification's subtyping. -/
theorem C79_subtyping (w e : Ty) (he : e.wf = true) : sub w e = true ↔ CanSend w e := sub_iff e he w

/-- Non-vacuity: the code's own types name every field once. -/
example : Rust.settingsInput.wf = true := by decide +kernel

/-- C79, a configuration of any type whatever: a setting has the value that was sent under its name at its type, whatever else was sent;
an optional one is left out exactly when no such value was sent. -/
theorem C79_settings (args : Args) (i : SettingsInput) (h : receiveSettings args = some i) :
    ∃ ws vs rest, args = (.record ws, .record vs) :: rest ∧
      FieldSent ws vs "domain" text (.text i.domain) ∧ FieldSent ws vs "uri" text (.text i.uri) ∧
      FieldSent ws vs "salt" text (.text i.salt) ∧
      (∀ n, i.chainId = some n ↔ Given ws vs "chain_id" nat32 (.nat32 n)) ∧
      (∀ b, i.scheme = some b ↔ Given ws vs "scheme" text (.text b)) ∧
      (∀ b, i.statement = some b ↔ Given ws vs "statement" text (.text b)) ∧
      (∀ n, i.signInExpiresIn = some n ↔ Given ws vs "sign_in_expires_in" nat64 (.nat64 n)) ∧
      (∀ n, i.sessionExpiresIn = some n ↔ Given ws vs "session_expires_in" nat64 (.nat64 n)) ∧
      (∀ ts, i.targets = some ts ↔ Given ws vs "targets" (.vec text) (.vec (ts.map .text))) ∧
      (∀ fs, i.runtimeFeatures = some fs ↔ ∃ t, FeatureList t ∧ HasType t (.vec (fs.map fun f => caseVal (featureName f) .null)) ∧
        Given ws vs "runtime_features" t (.vec (fs.map fun f => caseVal (featureName f) .null))) := by
  obtain ⟨ws, vs, rest, us, h1, h2, h3, h4⟩ := receiveSettings_fields h
  refine ⟨ws, vs, rest, h1, ?_⟩
  have hread := coerceFields_find ws vs (settingsFields (.opt nat32)) us
  have hsub := subFields_find (settingsFields (.opt nat32)) ws h2
  have rt := rigid_prim .text (by decide)
  have r32 := rigid_prim .nat32 (by decide)
  have r64 := rigid_prim .nat64 (by decide)
  have rv := rigid_vec_prim .text
  obtain ⟨v1, v2, v3, v4, v5, v6, v7, v8, v9, v10, ⟨g1, k1⟩, ⟨g2, k2⟩, ⟨g3, k3⟩, ⟨g4, k4⟩, ⟨g5, k5⟩, ⟨g6, k6⟩, ⟨g7, k7⟩, ⟨g8, k8⟩, ⟨g9, k9⟩,
    ⟨g10, k10⟩⟩ := readSettings_some h4
  have get : ∀ {name : String} {e : Ty} {v : Val}, us.lookup (label name) = some v →
      (settingsFields (.opt nat32)).find (label name) = some e → readField ws vs (label name) e = some v := by
    intro name e v a b
    obtain ⟨u, c, d⟩ := hread (label name) e h3 b
    rw [a] at c
    cases c
    exact d
  have t1 : ∀ v a, Val.text? v = some a ↔ v = .text a := fun v a => ⟨text?_some, fun h => by rw [h]; rfl⟩
  have t2 : ∀ v a, Val.nat32? v = some a ↔ v = .nat32 a := fun v a => ⟨nat32?_some, fun h => by rw [h]; rfl⟩
  have t3 : ∀ v a, Val.nat64? v = some a ↔ v = .nat64 a := fun v a => ⟨nat64?_some, fun h => by rw [h]; rfl⟩
  have t4 : ∀ v a, Val.vec? Val.text? v = some a ↔ v = .vec (a.map .text) :=
    fun v a => ⟨texts?_some, fun h => by rw [h]; exact mapM_read Val.text Val.text? (fun _ => rfl) a⟩
  have req : ∀ {name : String} {v : Val} {b : Bytes}, us.lookup (label name) = some v → v.text? = some b →
      (settingsFields (.opt nat32)).find (label name) = some text → FieldSent ws vs name text (.text b) := by
    intro name v b a c d
    rw [← text?_some c]
    exact readField_rigid rt (fun w hw => hsub _ _ d w hw) (get a d)
  refine ⟨req g1 k1 (by rw [label_domain]; rfl), req g2 k2 (by rw [label_uri]; rfl), req g3 k3 (by rw [label_salt]; rfl), ?_⟩
  refine ⟨readField_opt r32 nofun nofun t2 (fun _ => r32.typed _ rfl) (get g4 (by rw [label_chain_id]; rfl)) k4,
    readField_opt rt nofun nofun t1 (fun a => rt.typed _ (text_typed a)) (get g5 (by rw [label_scheme]; rfl)) k5,
    readField_opt rt nofun nofun t1 (fun a => rt.typed _ (text_typed a)) (get g6 (by rw [label_statement]; rfl)) k6,
    readField_opt r64 nofun nofun t3 (fun a => r64.typed _ (nat64_typed a)) (get g7 (by rw [label_sign_in]; rfl)) k7,
    readField_opt r64 nofun nofun t3 (fun a => r64.typed _ (nat64_typed a)) (get g8 (by rw [label_session]; rfl)) k8,
    readField_opt rv nofun nofun t4 (fun a => rv.typed _ (texts_typed a)) (get g9 (by rw [label_targets]; rfl)) k9,
    readField_features_iff (get g10 (by rw [label_features]; rfl)) k10⟩

theorem vec_read {α : Type} {t : Ty} {f : Val → Option α} (h : ∀ v, HasType t v → ∃ a, f v = some a) {v : Val} (hv : HasType (.vec t) v) :
    ∃ as, v.vec? f = some as := by
  rw [HasType.eq_def] at hv
  cases v with
  | vec vs =>
    simp only at hv
    simp only [Val.vec?]
    induction vs with
    | nil => exact ⟨[], rfl⟩
    | cons v vs ih =>
      obtain ⟨a, ha⟩ := h v (hv v (List.mem_cons_self ..))
      obtain ⟨as, has⟩ := ih fun u hu => hv u (List.mem_cons_of_mem _ hu)
      exact ⟨a :: as, by simp [List.mapM_cons, ha, has]⟩
  | _ => exact hv.elim

theorem opt_read {α : Type} {t : Ty} {f : Val → Option α} (h : ∀ v, HasType t v → ∃ a, f v = some a) {v : Val} (hv : HasType (.opt t) v) :
    ∃ o, v.opt? f = some o := by
  rw [HasType.eq_def] at hv
  cases v with
  | none => exact ⟨none, rfl⟩
  | some v =>
    obtain ⟨a, ha⟩ := h v hv
    exact ⟨some a, by rw [Val.opt?, ha]; rfl⟩
  | _ => exact hv.elim

theorem feature_read {v : Val} (h : HasType Rust.runtimeFeature v) : ∃ f, readFeature v = some f := by
  rw [runtimeFeature_eq, HasType.eq_def] at h
  cases v with
  | variant l u =>
    have l1 := label_feature .includeUriInSeed
    have l2 := label_feature .disableEthToPrincipalMapping
    have l3 := label_feature .disablePrincipalToEthMapping
    simp only [featureName] at l1 l2 l3
    have hnull : HasType null u → u = .null := by
      intro h
      rw [HasType.eq_def] at h
      cases u <;> simp [Val.prim?] at h
      rfl
    simp only [HasCase] at h
    split at h
    · next e => subst e; rw [hnull h]; exact ⟨_, by rw [readFeature, l1, if_pos rfl]⟩
    · split at h
      · next e => subst e; rw [hnull h]; exact ⟨_, by rw [readFeature, l1, l2, if_neg (by decide), if_pos rfl]⟩
      · split at h
        · next e =>
          subst e; rw [hnull h]
          exact ⟨_, by rw [readFeature, l1, l2, l3, if_neg (by decide), if_neg (by decide), if_pos rfl]⟩
        · exact h.elim
  | _ => exact h.elim

/-- C79, which configurations of a well-behaved sender are refused: those that are not a record with the three required texts. -/
theorem C79_refused (args : Args) (h : WellTyped args) : (∃ i, receiveSettings args = some i) ↔
    ∃ ws vs rest, args = (.record ws, vs) :: rest ∧ ws.find (label "domain") = some text ∧ ws.find (label "uri") = some text ∧
      ws.find (label "salt") = some text := by
  constructor
  · rintro ⟨i, hi⟩
    obtain ⟨ws, vs, rest, h1, h2, h3, h4, _⟩ := C79_settings args i hi
    exact ⟨ws, _, rest, h1, h2.1, h3.1, h4.1⟩
  · rintro ⟨ws, v, rest, rfl, h1, h2, h3⟩
    have hs : sub (.record ws) Rust.settingsInput = true := by
      rw [rust_settings]
      rw [label_domain] at h1
      rw [label_uri] at h2
      rw [label_salt] at h3
      have opt : ∀ l t es, subFields ws (.cons l (.opt t) es) = subFields ws es := by
        intro l t es
        rw [subFields]
        cases ws.find l <;> simp [sub, Ty.optional]
      have req : ∀ l es, ws.find l = some text → subFields ws (.cons l text es) = subFields ws es := by
        intro l es h
        rw [subFields, h]
        simp [sub]
      rw [sub, settingsFields, req _ _ h2, opt, req _ _ h1, opt, opt, req _ _ h3, opt, opt, opt, opt, subFields]
    obtain ⟨v', h4, h5⟩ := coerce_sound _ _ hs _ (h _ (List.mem_cons_self ..))
    have hd : decodeArgs [Rust.settingsInput] ((.record ws, v) :: rest) = some [v'] := by
      simp [decodeArgs, decode, hs, h4]
    rw [receiveSettings, hd]
    clear hd h4
    rw [rust_settings, HasType.eq_def] at h5
    have rt : ∀ v, HasType text v → ∃ a, v.text? = some a := fun v h => by obtain ⟨b, rfl⟩ := text_of_typed h; exact ⟨b, rfl⟩
    have r64 : ∀ v, HasType nat64 v → ∃ a, v.nat64? = some a := fun v h => by obtain ⟨b, rfl⟩ := nat64_of_typed h; exact ⟨b, rfl⟩
    have r32 : ∀ v, HasType nat32 v → ∃ a, v.nat32? = some a := by
      intro v h
      rw [HasType.eq_def] at h
      cases v <;> simp [Val.prim?] at h
      exact ⟨_, rfl⟩
    cases v' with
    | record us =>
      simp only [settingsFields, HasFields] at h5
      match us, h5 with
      | (_, v1) :: us, ⟨rfl, t1, h5⟩ =>
      match us, h5 with
      | (_, v2) :: us, ⟨rfl, t2, h5⟩ =>
      match us, h5 with
      | (_, v3) :: us, ⟨rfl, t3, h5⟩ =>
      match us, h5 with
      | (_, v4) :: us, ⟨rfl, t4, h5⟩ =>
      match us, h5 with
      | (_, v5) :: us, ⟨rfl, t5, h5⟩ =>
      match us, h5 with
      | (_, v6) :: us, ⟨rfl, t6, h5⟩ =>
      match us, h5 with
      | (_, v7) :: us, ⟨rfl, t7, h5⟩ =>
      match us, h5 with
      | (_, v8) :: us, ⟨rfl, t8, h5⟩ =>
      match us, h5 with
      | (_, v9) :: us, ⟨rfl, t9, h5⟩ =>
      match us, h5 with
      | (_, v10) :: us, ⟨rfl, t10, h5⟩ =>
      subst h5
      obtain ⟨a1, e1⟩ := rt _ t1
      obtain ⟨a2, e2⟩ := opt_read (fun v h => vec_read (fun v h => feature_read h) h) t2
      obtain ⟨a3, e3⟩ := rt _ t3
      obtain ⟨a4, e4⟩ := opt_read rt t4
      obtain ⟨a5, e5⟩ := opt_read rt t5
      obtain ⟨a6, e6⟩ := rt _ t6
      obtain ⟨a7, e7⟩ := opt_read r64 t7
      obtain ⟨a8, e8⟩ := opt_read (fun v h => vec_read rt h) t8
      obtain ⟨a9, e9⟩ := opt_read r32 t9
      obtain ⟨a10, e10⟩ := opt_read r64 t10
      refine ⟨⟨a3, a1, a6, a9, a5, a4, a10, a7, a8, a2⟩, ?_⟩
      simp only [Option.bind_eq_bind, Option.bind_some]
      generalize hr : Val.record _ = r
      have f1 : r.field "domain" = some v3 := by rw [← hr, Val.field, label_domain]; rfl
      have f2 : r.field "uri" = some v1 := by rw [← hr, Val.field, label_uri]; rfl
      have f3 : r.field "salt" = some v6 := by rw [← hr, Val.field, label_salt]; rfl
      have f4 : r.field "chain_id" = some v9 := by rw [← hr, Val.field, label_chain_id]; rfl
      have f5 : r.field "scheme" = some v5 := by rw [← hr, Val.field, label_scheme]; rfl
      have f6 : r.field "statement" = some v4 := by rw [← hr, Val.field, label_statement]; rfl
      have f7 : r.field "sign_in_expires_in" = some v10 := by rw [← hr, Val.field, label_sign_in]; rfl
      have f8 : r.field "session_expires_in" = some v7 := by rw [← hr, Val.field, label_session]; rfl
      have f9 : r.field "targets" = some v8 := by rw [← hr, Val.field, label_targets]; rfl
      have f10 : r.field "runtime_features" = some v2 := by rw [← hr, Val.field, label_features]; rfl
      simp only [readSettings, f1, f2, f3, f4, f5, f6, f7, f8, f9, f10, e1, e2, e3, e4, e5, e6, e7, e8, e9, e10, Option.bind_eq_bind,
        Option.bind_some]
    | _ => exact h5.elim

/-- Non-vacuity: a login with one argument too many is taken up, without its nonce or with the session key as a text it is not, and
there is no function `login`. -/
example : receive (.call "siwe_login" [4] none [(text, .text [1]), (text, .text [2]), (blob, .blob [3]), (text, .text [4]), (nat64, .nat64 5)]) =
      some (.login [1] [2] [3] [4]) ∧
    receive (.call "siwe_login" [4] none [(text, .text [1]), (text, .text [2]), (blob, .blob [3])]) = none ∧
    receive (.call "siwe_login" [4] none [(text, .text [1]), (text, .text [2]), (text, .text [3]), (text, .text [4])]) = none ∧
    receive (.call "login" [4] none [(text, .text [1]), (text, .text [2]), (blob, .blob [3]), (text, .text [4])]) = none := by
  decide +kernel

/-- Fields sent at the code's own types, with one that the interface does not have. -/
def Ex.ownConfig : Args :=
  [(record [("domain", text), ("uri", text), ("salt", text), ("chain_id", nat32), ("targets", .opt (.vec principal)), ("colour", text)],
    recordVal [("domain", .text [1]), ("uri", .text [2]), ("salt", .text [3]), ("chain_id", .nat32 137),
      ("targets", .some (.vec [.principal [9]])), ("colour", .text [7])])]

/-- Non-vacuity: a chain id that is sent as a nat32 arrives; targets that are sent as principals do not. -/
example : receiveSettings Ex.ownConfig = some ⟨[1], [2], [3], some 137, none, none, none, none, none, none⟩ := by decide +kernel

/-- Non-vacuity: a feature arrives when it is sent as a variant that has no other case, and does not when the variant has an unknown
case. -/
example :
    (receiveSettings [(record [("domain", text), ("uri", text), ("salt", text),
      ("runtime_features", .opt (.vec (variant [("IncludeUriInSeed", null)])))], recordVal [("domain", .text [1]), ("uri", .text [2]),
      ("salt", .text [3]), ("runtime_features", .some (.vec [caseVal "IncludeUriInSeed" .null]))])]).map (·.runtimeFeatures) =
        some (some [.includeUriInSeed]) ∧
    (receiveSettings [(record [("domain", text), ("uri", text), ("salt", text),
      ("runtime_features", .opt (.vec (variant [("IncludeUriInSeed", null), ("Verbose", null)])))], recordVal [("domain", .text [1]),
      ("uri", .text [2]), ("salt", .text [3]), ("runtime_features", .some (.vec [caseVal "IncludeUriInSeed" .null]))])]).map
        (·.runtimeFeatures) = some none := by decide +kernel

theorem Ex.ownConfig_typed : WellTyped Ex.ownConfig := by
  have l : label "colour" = 3330721868 := by decide +kernel
  have e : record [("domain", text), ("uri", text), ("salt", text), ("chain_id", nat32), ("targets", .opt (.vec principal)),
      ("colour", text)] = .record (.cons 5843820 text (.cons 763408708 text (.cons 1280148118 text
      (.cons 2288514050 (.opt (.vec principal)) (.cons 2313761689 nat32 (.cons 3330721868 text .nil)))))) := by decide +kernel
  rw [Ex.ownConfig, e]
  intro a ha
  rw [List.mem_singleton] at ha
  subst ha
  simp [recordVal, sortBy, insertSorted, l, label_domain, label_uri, label_salt, label_chain_id, label_targets, HasType, HasFields,
    Val.prim?]

/-- Non-vacuity: this sender is well-behaved, and what it sent is not refused; a record without a salt is. -/
example : (∃ i, receiveSettings Ex.ownConfig = some i) ∧
    receiveSettings [(record [("domain", text), ("uri", text)], recordVal [("domain", .text [1]), ("uri", .text [2])])] = none :=
  ⟨(C79_refused _ Ex.ownConfig_typed).mpr ⟨_, _, _, rfl, by decide +kernel⟩, by decide +kernel⟩

end Siwe
