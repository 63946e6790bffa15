import Verif.Lemmas.CandidEncode
import Verif.Lemmas.CandidTyped
import Verif.Props.Interface
/- C107: calls, configurations and replies as bytes. -/
namespace Siwe
open Spec Candid Wire

/-! ### the format -/

/-- C107: the reader takes exactly the messages of the Candid specification, with the arguments they represent. -/
theorem C107_read (bs : Bytes) (args : Args) : readMessage bs = some args ↔ IsMessage bs args := readMessage_iff bs args

/-- C107: bytes represent at most one list of arguments. -/
theorem C107_unambiguous (bs : Bytes) (args args' : Args) (h : IsMessage bs args) (h' : IsMessage bs args') : args = args' := by
  have := ((readMessage_iff bs args).2 h).symm.trans ((readMessage_iff bs args').2 h')
  exact Option.some.inj this

/-- C107: everything that fits can be sent. -/
theorem C107_sendable (args : Args) (h : CanBeSent args) : ∃ bs, IsMessage bs args := message_exists h

/-- C107: whatever is sent, its types are well formed, its values are of these types and fit. -/
theorem C107_typed (bs : Bytes) (args : Args) (h : IsMessage bs args) : ∀ a ∈ args, Tidy a.1 ∧ HasType a.1 a.2 ∧ Fits a.2 :=
  message_typed h

/-! ### calls -/

mutual
/-- `Tidy`, computed. -/
def tidyB : Ty → Bool
  | .prim p => match p with
    | .other c => decide (c ∈ [2, 4, 6, 9, 10, 11, 12, 13, 14, 16, 17])
    | _ => true
  | .opt t => tidyB t
  | .vec t => tidyB t
  | .record fs => decide (fs.labels.Pairwise (· < ·)) && (decide (fs.labels.length < 2 ^ 32) && tidyFieldsB fs)
  | .variant fs => decide (fs.labels.Pairwise (· < ·)) && (decide (fs.labels.length < 2 ^ 32) && tidyFieldsB fs)
/-- ... of the fields. -/
def tidyFieldsB : Fields → Bool
  | .nil => true
  | .cons _ t fs => tidyB t && tidyFieldsB fs
end

theorem tidy_of : ∀ t, tidyB t = true → Tidy t := by
  intro t
  induction t using Ty.rec (motive_2 := fun fs => tidyFieldsB fs = true → TidyFields fs) with
  | prim p =>
    intro h
    rw [Tidy]
    cases p with
    | other c => rw [tidyB] at h; exact ⟨_, .other c (of_decide_eq_true h)⟩
    | null => exact ⟨_, .null⟩
    | nat => exact ⟨_, .nat⟩
    | nat8 => exact ⟨_, .nat8⟩
    | nat32 => exact ⟨_, .nat32⟩
    | nat64 => exact ⟨_, .nat64⟩
    | text => exact ⟨_, .text⟩
    | principal => exact ⟨_, .principal⟩
  | opt t ih => intro h; rw [tidyB] at h; rw [Tidy]; exact ih h
  | vec t ih => intro h; rw [tidyB] at h; rw [Tidy]; exact ih h
  | record fs ih =>
    intro h
    rw [tidyB, Bool.and_eq_true, Bool.and_eq_true] at h
    rw [Tidy]
    exact ⟨of_decide_eq_true h.1, of_decide_eq_true h.2.1, ih h.2.2⟩
  | variant fs ih =>
    intro h
    rw [tidyB, Bool.and_eq_true, Bool.and_eq_true] at h
    rw [Tidy]
    exact ⟨of_decide_eq_true h.1, of_decide_eq_true h.2.1, ih h.2.2⟩
  | nil => rw [TidyFields]; trivial
  | cons l t fs ih1 ih2 =>
    rename_i h
    rw [tidyFieldsB, Bool.and_eq_true] at h
    rw [TidyFields]
    exact ⟨ih1 h.1, ih2 h.2⟩

theorem methods_tidy : ∀ m ∈ Did.methods, (∀ t ∈ m.args, tidyB t = true ∧ composites t < 100) ∧ m.args.length < 100 ∧
    tidyB m.result = true ∧ composites m.result < 100 := by decide +kernel

theorem settings_tidy : tidyB Did.settingsInput = true ∧ composites Did.settingsInput < 100 := by decide +kernel

theorem sum_bound (k : Nat) : ∀ l : List Nat, (∀ n ∈ l, n ≤ k) → l.sum ≤ l.length * k
  | [], _ => by simp
  | n :: l, h => by
    have := sum_bound k l fun x hx => h x (by simp [hx])
    have := h n (by simp)
    rw [List.sum_cons, List.length_cons, Nat.add_mul]
    omega

/-- C107: every call of a published method, with arguments of the published types that fit, can be written as bytes; whichever bytes it
is written as, the canister calls the function of that name with exactly these arguments. -/
theorem C107_calls (m : Method) (hm : m ∈ Did.methods) (vs : List Val) (hl : vs.length = m.args.length)
    (ht : ∀ a ∈ m.args.zip vs, HasType a.1 a.2) (hf : ∀ v ∈ vs, Fits v) (caller : Bytes) (cert : Option Bytes) :
    (∃ bs, IsMessage bs (m.args.zip vs)) ∧
      ∃ f op, f.method = m ∧ Asks f vs caller cert op ∧
        ∀ bs, IsMessage bs (m.args.zip vs) → receiveRaw (.call m.name caller cert bs) = some op := by
  refine ⟨message_exists ⟨?_, ?_, ?_⟩, ?_⟩
  · have := (methods_tidy m hm).2.1
    rw [List.length_zip]
    omega
  · have h1 := sum_bound 100 ((m.args.zip vs).map fun a => composites a.1) (by
      intro n hn
      obtain ⟨a, ha, rfl⟩ := List.mem_map.1 hn
      exact Nat.le_of_lt ((methods_tidy m hm).1 a.1 (List.of_mem_zip ha).1).2)
    have h2 := (methods_tidy m hm).2.1
    rw [List.length_map, List.length_zip] at h1
    have : min m.args.length vs.length * 100 ≤ 100 * 100 := Nat.mul_le_mul_right _ (by omega)
    omega
  · intro a ha
    exact ⟨tidy_of _ ((methods_tidy m hm).1 a.1 (List.of_mem_zip ha).1).1, ht a ha, hf a.2 (List.of_mem_zip ha).2⟩
  · obtain ⟨f, op, h1, h2, h3⟩ := C78_calls m hm vs hl ht caller cert
    refine ⟨f, op, h1, h2, fun bs hbs => ?_⟩
    rw [receiveRaw, RawMessage.parse, (readMessage_iff bs _).2 hbs]
    exact h3

/-- C107: which bytes make the canister do what: exactly the messages whose arguments begin with those of a function of that name. -/
theorem C107_requests (m : RawMessage) (op : Op) : receiveRaw m = some op ↔ Requests m op := by
  cases m with
  | rngSeeded seed =>
    constructor
    · intro h
      cases (Option.some.inj h)
      exact .seeded seed
    · intro h
      cases h
      rfl
  | install bs =>
    constructor
    · intro h
      cases hr : readMessage bs with
      | none => rw [receiveRaw, RawMessage.parse, hr] at h; exact nomatch h
      | some args =>
        rw [receiveRaw, RawMessage.parse, hr] at h
        simp only [Option.map_some, receive, Option.map_eq_some_iff] at h
        obtain ⟨i, h, rfl⟩ := h
        exact .install bs args i ((readMessage_iff _ _).1 hr) h
    · intro h
      cases h with
      | install _ args i h1 h2 =>
        rw [receiveRaw, RawMessage.parse, (readMessage_iff _ _).2 h1]
        simp only [Option.map_some, receive, h2]
  | upgrade bs =>
    constructor
    · intro h
      cases hr : readMessage bs with
      | none => rw [receiveRaw, RawMessage.parse, hr] at h; exact nomatch h
      | some args =>
        rw [receiveRaw, RawMessage.parse, hr] at h
        simp only [Option.map_some, receive, Option.map_eq_some_iff] at h
        obtain ⟨i, h, rfl⟩ := h
        exact .upgrade bs args i ((readMessage_iff _ _).1 hr) h
    · intro h
      cases h with
      | upgrade _ args i h1 h2 =>
        rw [receiveRaw, RawMessage.parse, (readMessage_iff _ _).2 h1]
        simp only [Option.map_some, receive, h2]
  | call name caller cert bs =>
    constructor
    · intro h
      cases hr : readMessage bs with
      | none => rw [receiveRaw, RawMessage.parse, hr] at h; exact nomatch h
      | some args =>
        rw [receiveRaw, RawMessage.parse, hr] at h
        simp only [Option.map_some] at h
        obtain ⟨f, vs, rest, rfl, rfl, h3⟩ := (C79_calls ..).1 h
        exact .call f caller cert bs vs rest op ((readMessage_iff _ _).1 hr) h3
    · intro h
      cases h with
      | call f _ _ _ vs rest _ h1 h2 =>
        rw [receiveRaw, RawMessage.parse, (readMessage_iff _ _).2 h1]
        exact (C79_calls ..).2 ⟨f, vs, rest, rfl, rfl, h2⟩

/-- C107: a message asks for one thing at most. -/
theorem C107_one_request (m : RawMessage) (op op' : Op) (h : Requests m op) (h' : Requests m op') : op = op' :=
  Option.some.inj (((C107_requests m op).2 h).symm.trans ((C107_requests m op').2 h'))

/-! ### configurations -/

theorem blob_fits {b : Bytes} (h : b.length < 2 ^ 64) : Fits (.blob b) := by
  refine .vec _ (by rw [List.length_map]; exact h) fun v hv => ?_
  obtain ⟨x, _, rfl⟩ := List.mem_map.1 hv
  exact .nat8 x

theorem opt_fits {α : Type} (f : α → Val) (o : Option α) (h : ∀ a, o = some a → Fits (f a)) : Fits (optVal f o) := by
  cases o with
  | none => exact .none
  | some a => exact .some _ (h a rfl)

theorem mem_sortBy {α : Type} {le : α → α → Bool} {a : α} {l : List α} (h : a ∈ sortBy le l) : a ∈ l :=
  (sortBy_perm le l).mem_iff.1 h

theorem record_fits (fs : List (String × Val)) (h : ∀ f ∈ fs, Fits f.2) : Fits (recordVal fs) := by
  refine .record _ fun f hf => ?_
  obtain ⟨g, hg, rfl⟩ := List.mem_map.1 (mem_sortBy hf)
  exact h g hg

theorem config_fits {c : Config} (h : c.Sendable) : Fits c.val := by
  obtain ⟨h1, h2, h3, h4, h5, h6, h7⟩ := h
  refine record_fits _ ?_
  simp only [List.mem_cons, List.not_mem_nil, or_false]
  rintro f (rfl | rfl | rfl | rfl | rfl | rfl | rfl | rfl | rfl | rfl)
  · exact .text _ h1.1 h1.2
  · exact .text _ h2.1 h2.2
  · exact .text _ h3.1 h3.2
  · exact opt_fits _ _ fun n _ => .nat n
  · exact opt_fits _ _ fun b hb => .text b (h4 b hb).1 (h4 b hb).2
  · exact opt_fits _ _ fun b hb => .text b (h5 b hb).1 (h5 b hb).2
  · exact opt_fits _ _ fun n _ => .nat64 n
  · exact opt_fits _ _ fun n _ => .nat64 n
  · refine opt_fits _ _ fun ts hts => .vec _ (by rw [List.length_map]; exact (h6 ts hts).1) fun v hv => ?_
    obtain ⟨t, ht, rfl⟩ := List.mem_map.1 hv
    exact .text t ((h6 ts hts).2 t ht).1 ((h6 ts hts).2 t ht).2
  · refine opt_fits _ _ fun fs hfs => .vec _ (by rw [List.length_map]; exact h7 fs hfs) fun v hv => ?_
    obtain ⟨t, ht, rfl⟩ := List.mem_map.1 hv
    exact .variant _ _ .null

/-- C107: a configuration that fits can be written as bytes; whichever bytes it is written as, an installation or an upgrade with them
receives every field as it was written (the chain id is dropped: C77). -/
theorem C107_configuration (c : Config) : (c.Sendable → ∃ bs, IsMessage bs c.sent) ∧ ∀ bs, IsMessage bs c.sent →
    ∀ i, i = (⟨c.domain, c.uri, c.salt, none, c.scheme, c.statement, c.signInExpiresIn, c.sessionExpiresIn, c.targets, c.runtimeFeatures⟩ : SettingsInput) →
      receiveRaw (.install bs) = some (.install i) ∧ receiveRaw (.upgrade bs) = some (.upgrade i) := by
  obtain ⟨h1, h2⟩ := C77_received_partial c
  refine ⟨fun hf => message_exists ⟨by simp [Config.sent], ?_, ?_⟩, ?_⟩
  · have := settings_tidy.2
    simp only [Config.sent, List.map_cons, List.map_nil, List.sum_cons, List.sum_nil]
    omega
  · intro a ha
    rw [Config.sent, List.mem_singleton] at ha
    subst ha
    exact ⟨tidy_of _ settings_tidy.1, h1, config_fits hf⟩
  · rintro bs hb i rfl
    exact ⟨(C107_requests ..).2 (.install bs _ _ hb h2), (C107_requests ..).2 (.upgrade bs _ _ hb h2)⟩

/-- C107: which bytes are a configuration: a message whose first argument is a record with texts named `domain`, `uri` and `salt`. -/
theorem C107_configurations (bs : Bytes) : (∃ op, Requests (.install bs) op) ↔
    ∃ ws vs rest, IsMessage bs ((.record ws, vs) :: rest) ∧ ws.find (label "domain") = some text ∧ ws.find (label "uri") = some text ∧
      ws.find (label "salt") = some text := by
  constructor
  · rintro ⟨_, h⟩
    cases h with
    | install _ args i h1 h2 =>
      obtain ⟨ws, vs, rest, rfl, h3⟩ := (C79_refused args fun a ha => (message_typed h1 a ha).2.1).1 ⟨i, h2⟩
      exact ⟨ws, vs, rest, h1, h3⟩
  · rintro ⟨ws, vs, rest, h1, h2⟩
    obtain ⟨i, hi⟩ := (C79_refused _ fun a ha => (message_typed h1 a ha).2.1).2 ⟨ws, vs, rest, rfl, h2⟩
    exact ⟨_, .install bs _ i h1 hi⟩

/-! ### replies -/

theorem result_tidy (f : Function) : tidyB f.method.result = true ∧ composites f.method.result < 100 := by
  cases f <;> decide +kernel

theorem reply_fits {derText : Bytes} {f : Function} {r : Reply} {v : Val} (h : replyVal derText f r = some v) (hs : ReplySmall derText r)
    (hu : ReplyUtf8 derText f r) :
    Fits v := by
  cases r with
  | trap | done => exact nomatch h
  | err e => cases h; exact .variant _ _ (.text _ hu hs)
  | prepared r =>
    cases h
    refine .variant _ _ (record_fits _ ?_)
    simp only [List.mem_cons, List.not_mem_nil, or_false]
    rintro f (rfl | rfl)
    · exact .text _ hu.1 hs.1
    · exact .text _ hu.2 hs.2
  | loggedIn d =>
    cases h
    refine .variant _ _ (record_fits _ ?_)
    simp only [List.mem_cons, List.not_mem_nil, or_false]
    rintro f (rfl | rfl)
    · exact .nat64 _
    · exact blob_fits hs
  | delegation d =>
    cases h
    refine .variant _ _ (record_fits _ ?_)
    simp only [List.mem_cons, List.not_mem_nil, or_false]
    rintro f (rfl | rfl)
    · refine record_fits _ ?_
      simp only [List.mem_cons, List.not_mem_nil, or_false]
      rintro f (rfl | rfl | rfl)
      · exact blob_fits hs.1
      · exact .nat64 _
      · refine opt_fits _ _ fun ts hts => .vec _ (by rw [List.length_map]; exact (hs.2.2 ts hts).1) fun v hv => ?_
        obtain ⟨t, ht, rfl⟩ := List.mem_map.1 hv
        exact .principal t ((hs.2.2 ts hts).2 t ht)
    · exact blob_fits hs.2.1
  | bytes b =>
    cases h
    refine .variant _ _ ?_
    split
    · exact blob_fits hs
    · rename_i hf
      exact .text _ (hu hf) hs

/-- C107: the answer to a call, when it fits, can be written as bytes; whichever bytes the canister writes, the reader of the published
interface, the client too, reads what the canister answered. -/
theorem C107_replies {E : Env} (s : State E) (now : UInt64) (f : Function) (vs : List Val) (caller : Bytes) (cert : Option Bytes) (op : Op)
    (h : Asks f vs caller cert op) (hr : (step s now op).2 ≠ .trap) (derText : Bytes) :
    ∃ v, replyVal derText f (step s now op).2 = some v ∧ (ReplyUtf8 derText f (step s now op).2 → ReplySmall derText (step s now op).2 → ∃ bs, IsMessage bs [(f.method.result, v)]) ∧
      ∀ bs, IsMessage bs [(f.method.result, v)] →
        ∀ m : Method, m ∈ Did.methods ∨ m ∈ Js.methods → m.name = f.method.name →
          ∃ w, readReply m.result bs = some w ∧ Says f derText (step s now op).2 w := by
  obtain ⟨v, h1, h2, _⟩ := reply_value s now f vs caller cert op h hr derText
  obtain ⟨v', h1', h3⟩ := C78_replies s now f vs caller cert op h hr derText
  rw [h1] at h1'
  cases h1'
  refine ⟨v, h1, fun hu hf => message_exists ⟨by simp, ?_, ?_⟩, fun bs hb m hm hn => ?_⟩
  · have := (result_tidy f).2
    simp only [List.map_cons, List.map_nil, List.sum_cons, List.sum_nil]
    omega
  · intro a ha
    rw [List.mem_singleton] at ha
    subst ha
    exact ⟨tidy_of _ (result_tidy f).1, h2, reply_fits h1 hf hu⟩
  · rw [readReply, (readMessage_iff _ _).2 hb]
    exact h3 m hm hn

/-! ### histories -/

/-- C107: whatever bytes are sent, the canister is in the state, and gives the answers, of the calls they ask for; everything else is
refused and changes nothing.  What is proved of histories of calls holds of histories of messages. -/
theorem C107_history {E : Env} (s : State E) (ms : List (UInt64 × RawMessage)) :
    ∃ h, (runRaw s ms).1 = (run s h).1 ∧ Heard ms h (run s h).2 (runRaw s ms).2 := by
  induction ms generalizing s with
  | nil => exact ⟨[], rfl, .nil⟩
  | cons a ms ih =>
    obtain ⟨t, m⟩ := a
    cases hr : receiveRaw m with
    | none =>
      obtain ⟨h, h1, h2⟩ := ih s
      have e : runRaw s ((t, m) :: ms) = ((runRaw s ms).1, .trap :: (runRaw s ms).2) := by simp only [runRaw, stepRaw, hr]
      rw [e]
      refine ⟨h, h1, .refused _ _ _ _ _ _ (fun op hop => ?_) h2⟩
      rw [(C107_requests m op).2 hop] at hr
      exact nomatch hr
    | some op =>
      obtain ⟨h, h1, h2⟩ := ih (step s t op).1
      have e : runRaw s ((t, m) :: ms) = ((runRaw (step s t op).1 ms).1, (step s t op).2 :: (runRaw (step s t op).1 ms).2) := by
        simp only [runRaw, stepRaw, hr]
      rw [e]
      exact ⟨(t, op) :: h, h1, .call _ _ op _ _ _ _ _ ((C107_requests m op).1 hr) h2⟩

/-! ### a concrete case -/

theorem text_of {b : Bytes} (h : isUtf8 b = true ∧ b.length < 2 ^ 64) : Text b := ⟨(isUtf8_iff b).1 h.1, h.2⟩

namespace Ex

/-- A call of `siwe_login`, as it goes over the wire: a table of one entry (`vec nat8`), four arguments. -/
def loginBytes : Bytes :=
  [0x44, 0x49, 0x44, 0x4c, 0x01, 0x6d, 0x7b, 0x04, 0x71, 0x71, 0x00, 0x71, 0x02, 0x30, 0x78, 0x01, 0x61, 0x03, 1, 2, 3, 0x01, 0x6e]

/-- The same call with a longer encoding of a length, and a table with an entry nobody needs. -/
def loginBytes' : Bytes :=
  [0x44, 0x49, 0x44, 0x4c, 0x02, 0x6e, 0x71, 0x6d, 0x7b, 0x04, 0x71, 0x71, 0x01, 0x71, 0x82, 0x00, 0x30, 0x78, 0x01, 0x61, 0x03, 1, 2, 3,
    0x01, 0x6e]

end Ex

/-- Non-vacuity: both are the call of `siwe_login` with these arguments; with a byte cut off or a byte more they are not a call. -/
example : IsMessage Ex.loginBytes ([text, text, blob, text].zip [.text (ascii "0x"), .text (ascii "a"), .blob [1, 2, 3], .text (ascii "n")]) ∧
    Requests (.call "siwe_login" [4] none Ex.loginBytes) (.login (ascii "0x") (ascii "a") [1, 2, 3] (ascii "n")) ∧
    Requests (.call "siwe_login" [4] none Ex.loginBytes') (.login (ascii "0x") (ascii "a") [1, 2, 3] (ascii "n")) ∧
    (∀ op, ¬Requests (.call "siwe_login" [4] none (Ex.loginBytes ++ [0])) op) ∧
    (∀ op, ¬Requests (.call "siwe_login" [4] none Ex.loginBytes.dropLast) op) := by
  have none_of : ∀ m, (receiveRaw m).isNone = true → ∀ op, ¬Requests m op := by
    intro m h op hop
    rw [(C107_requests m op).2 hop] at h
    exact nomatch h
  refine ⟨(C107_read _ _).1 rfl, (C107_requests _ _).1 (by decide +kernel), (C107_requests _ _).1 (by decide +kernel),
    none_of _ (by decide +kernel), none_of _ (by decide +kernel)⟩

/-- Non-vacuity: that call satisfies what `C107_calls` asks. -/
example : ∃ m ∈ Did.methods, m.name = "siwe_login" ∧ [Val.text (ascii "0x"), .text (ascii "a"), .blob [1, 2, 3], .text (ascii "n")].length = m.args.length ∧
    (∀ a ∈ m.args.zip [Val.text (ascii "0x"), .text (ascii "a"), .blob [1, 2, 3], .text (ascii "n")], HasType a.1 a.2 ∧ Fits a.2) := by
  refine ⟨⟨"siwe_login", [text, text, blob, text], Did.loginResponse, false⟩, by simp [Did.methods], rfl, rfl, ?_⟩
  intro a ha
  exact (C107_typed Ex.loginBytes _ ((C107_read _ _).1 rfl) a ha).2

/-- Non-vacuity: the example's configuration is small, and so is the answer to a request for a sign-in message. -/
example : Ex.config.Sendable ∧ ReplySmall [] (step (runMessages (State.fresh Toy.env) [(1, .install Ex.config.sent), (2, .rngSeeded [1, 2, 3])]).1 5
    (.prepareLogin Ex.alice)).2 ∧
    (step (runMessages (State.fresh Toy.env) [(1, .install Ex.config.sent), (2, .rngSeeded [1, 2, 3])]).1 5 (.prepareLogin Ex.alice)).2 ≠ .trap := by
  refine ⟨?_, ?_, by decide +kernel⟩
  · refine ⟨text_of (by decide +kernel), text_of (by decide +kernel), text_of (by decide +kernel), ?_, ?_, ?_, ?_⟩ <;> intro x hx <;> cases hx
    · exact text_of (by decide +kernel)
    · decide
  · have key : (match (step (runMessages (State.fresh Toy.env) [(1, .install Ex.config.sent), (2, .rngSeeded [1, 2, 3])]).1 5
        (.prepareLogin Ex.alice)).2 with
        | .prepared r => decide (r.siweMessage.length < 1000 ∧ r.nonce.length < 1000)
        | _ => false) = true := by decide +kernel
    generalize (step _ _ _).2 = r at key
    cases r with
    | prepared r =>
      have := of_decide_eq_true key
      exact ⟨by omega, by omega⟩
    | _ => exact nomatch key

/-- Non-vacuity: a history with a call, a message of a call that does not exist and junk. -/
example : (runRaw (State.fresh Toy.env) [(1, .call "siwe_login" [4] none Ex.loginBytes), (2, .call "nothing" [4] none Ex.loginBytes),
    (3, .install [1, 2, 3]), (4, .rngSeeded [1])]).2.length = 4 ∧
    (receiveRaw (.call "siwe_login" [4] none Ex.loginBytes)).isSome = true ∧ (receiveRaw (.install [1, 2, 3])).isNone = true := by
  decide +kernel

end Siwe
