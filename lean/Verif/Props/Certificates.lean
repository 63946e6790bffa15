import Verif.Props.Delegations
/- Properties C29, C30 and C51: certified data and the signatures checked against it. -/
namespace Siwe
open Spec

/-! ### C30 -/

/-- C30: after a successful login the certified data is the root digest of the tree with the (empty) assets and the
signatures. -/
theorem C30_login_certifies (E : Env) (h : History) (now : UInt64) (op : Op) (d : LoginDetails)
    (hr : (step (stateAfter E h) now op).2 = .loggedIn d) :
    (step (stateAfter E h) now op).1.certifiedData =
      (digest E (certifiedTree (step (stateAfter E h) now op).1.sigMap)).bytes := by
  cases sigEffect (inv_stateAfter E h) now op with
  | reset g => obtain ⟨i, _, g⟩ := g; simp only at g; rw [hr] at g; cases g
  | same _ _ _ g => exact absurd hr (g d)
  | pruned _ _ _ g => rw [hr] at g; cases g
  | granted _ _ _ _ _ _ _ _ _ _ _ _ _ _ _ _ _ _ _ _ _ _ _ _ g => exact g

/-- C30: no other call changes the certified data, but for a new installation, which clears it. -/
theorem C30_others_do_not (E : Env) (h : History) (now : UInt64) (op : Op)
    (hr : ∀ d, (step (stateAfter E h) now op).2 ≠ .loggedIn d) :
    (step (stateAfter E h) now op).1.certifiedData = (stateAfter E h).certifiedData ∨
      ((∃ i, op = .install i) ∧ (step (stateAfter E h) now op).1.certifiedData = []) := by
  cases sigEffect (inv_stateAfter E h) now op with
  | reset _ _ g => exact g.imp (·.1) fun g => ⟨g.2, g.1⟩
  | same _ _ g => exact .inl g
  | pruned _ _ _ _ _ _ g => exact .inl g
  | granted _ _ _ _ _ _ d _ _ _ _ _ g => exact absurd g (hr d)

/-- Non-vacuity: the example login changes the certified data, the preparation before it and the query after it do not. -/
example : (stateAfter Toy.env Ex.prepared).certifiedData = [] ∧
    (stateAfter Toy.env Ex.loggedIn).certifiedData =
      (digest Toy.env (certifiedTree (stateAfter Toy.env Ex.loggedIn).sigMap)).bytes ∧
    (stateAfter Toy.env Ex.loggedIn).certifiedData ≠ [] := by
  decide +kernel

/-! ### C29 -/

/-- A signature returned by the canister verifies against the digest of the current signature tree. -/
theorem verifies_of_reply {E : Env} {st : State E} (hi : Inv st) {now : UInt64} {cert addr key : Bytes} {expiration : UInt64}
    {d : SignedDelegation} (hr : (step st now (.getDelegation (some cert) addr key expiration)).2 = .delegation d)
    (hc : cert.length < 2 ^ 64) {s : Settings} (hs : st.lib.settings = some s) {seed : Hash} (hseed : IsSeed E s addr seed)
    (data : Bytes) :
    Verifies E E.canisterId data cert (createUserCanisterPubkey E.canisterId seed.bytes) d ↔
      data = (digest E (certifiedTree st.sigMap)).bytes := by
  have hd := getDelegation_reply hi now (some cert) addr key expiration
  rw [hr] at hd
  cases hd with
  | success c s' sh dh w _ h1 h2 h3 h4 h5 h6 h7 h8 h9 h10 h11 =>
    rw [hs] at h2; cases h2
    obtain ⟨⟨seed', g1, rfl⟩, g2⟩ := h6
    rw [isSeed_unique g1 hseed] at h7 h8 h9
    obtain ⟨w', f1, f2, w1, f3, f4⟩ := SigMap.witness_spec E hi.sigs.trees h8
    rw [h9] at f1; cases f1
    have hadd : Addressable (.fork (.pruned (digest E (.labeled (ascii "http_assets") .empty))) (.labeled (ascii "sig") w)) := by
      refine ⟨trivial, by decide, addressable_oneLabel f3 (by rw [Hash.len]; decide) (addressable_oneLabel f4
        (by rw [Hash.len]; decide) (by simp [Addressable]))⟩
    have hread : readSignature d.signature = some (cert,
        .fork (.pruned (digest E (.labeled (ascii "http_assets") .empty))) (.labeled (ascii "sig") w)) := by
      rw [h11]; exact C50_signature_reads_back cert _ hc hadd
    have hkey := C25_key_reads_back E.canisterId seed.bytes E.canisterId_len (Hash.len _)
    have hdig : digest E (.fork (.pruned (digest E (.labeled (ascii "http_assets") .empty))) (.labeled (ascii "sig") w)) =
        digest E (certifiedTree st.sigMap) := by
      simp only [certifiedTree, digest, digest_signatureTree, f2]
    constructor
    · rintro ⟨sd, tree, dh', a1, a2, a3, a4, a5, a6⟩
      rw [hread] at a2; cases a2
      rw [← a4, hdig]
    · rintro rfl
      refine ⟨seed.bytes, _, dh, hkey, hread, ?_, by rw [hdig], by rw [h10]; exact g2, ?_⟩
      · have hw1 := wellFormed_oneLabel f4 (.leaf [])
        have hw := wellFormed_oneLabel f3 hw1
        refine .forest _ ?_ ?_ ?_
        · simp [flattenForks, labelsOf]
        · intro l u hu
          simp only [flattenForks, List.cons_append, List.nil_append, List.mem_cons, reduceCtorEq, HashTree.labeled.injEq,
            List.not_mem_nil, or_false, false_or] at hu
          rw [hu.2]; exact hw
        · intro v hv; simp [flattenForks] at hv
      · show (findLabel (ascii "sig") (flattenForks (.fork (.pruned _) (.labeled (ascii "sig") w)))).bind _ = some []
        have : findLabel (ascii "sig") (flattenForks (.fork (.pruned (digest E (.labeled (ascii "http_assets") .empty)))
            (.labeled (ascii "sig") w))) = some w := by simp [flattenForks, findLabel]
        rw [this, Option.bind_some]
        show (findLabel _ (flattenForks w)).bind _ = some []
        rw [findLabel_oneLabel f3, Option.bind_some]
        show (findLabel _ (flattenForks w1)).bind _ = some []
        rw [findLabel_oneLabel f4]; rfl

/-- The key a login returns is the one its address's seed gives, as long as the module stays the same. -/
theorem login_key {E : Env} {h : History} {before after : List Event} {e : Event} {addr key nonce : Bytes} {ld : LoginDetails}
    (ht : trace E h = before ++ e :: after) (hm : SameModule after) (hl : e.LogsIn addr key nonce ld) :
    ∃ s seed, (stateAfter E h).lib.settings = some s ∧ IsSeed E s addr seed ∧
      ld.userCanisterPubkey = createUserCanisterPubkey E.canisterId seed.bytes := by
  obtain ⟨h1, h2, e1, e2, e3, e4⟩ := traceFrom_split ht
  obtain ⟨⟨sig, hcall⟩, hrep⟩ := hl
  have hi := inv_stateAfter E h1
  have est : stateAfter E h = (run (step (stateAfter E h1) e.time e.call).1 h2).1 := by
    rw [stateAfter, e1, run_append]; rfl
  rw [hrep] at e3
  rw [e4] at hm
  have e3 : (step (stateAfter E h1) e.time e.call).2 = .loggedIn ld := e3.symm
  cases sigEffect hi e.time e.call with
  | reset g => obtain ⟨i, _, g⟩ := g; simp only at g; rw [e3] at g; cases g
  | same _ _ _ g => exact absurd e3 (g ld)
  | pruned _ _ _ g => rw [e3] at g; cases g
  | granted removed rest sig' addr' key' nonce' d' s sh dh t f1 f2 f3 f4 k1 k2 k3 k4 f5 =>
    rw [hcall] at f1; obtain ⟨_, rfl, rfl, rfl⟩ := Op.login.inj f1
    rw [e3] at f2; cases f2
    refine ⟨s, _, ?_, isSeed_generate E s addr, k4⟩
    rw [est, (settings_keep (inv_step hi e.time e.call) h2 hm).1]
    exact (effect_keep (effect hi e.time e.call) (by simp [Event.Reinstalls, hcall])).1.trans f4

/-- C29: a delegation returned to a query is accepted by the IC's check, under the public key the address's login
returned, if and only if the certified data is the digest of the current signature tree. -/
theorem C29_verifies_iff_certified (E : Env) (h : History) (now : UInt64) (cert addr key : Bytes) (expiration : UInt64)
    (sd : SignedDelegation) (before after : List Event) (e : Event) (key' nonce : Bytes) (ld : LoginDetails)
    (hr : (step (stateAfter E h) now (.getDelegation (some cert) addr key expiration)).2 = .delegation sd)
    (hc : cert.length < 2 ^ 64)
    (ht : trace E h = before ++ e :: after) (hm : SameModule after) (hl : e.LogsIn addr key' nonce ld) :
    Verifies E E.canisterId (stateAfter E h).certifiedData cert ld.userCanisterPubkey sd ↔
      (stateAfter E h).certifiedData = (digest E (certifiedTree (stateAfter E h).sigMap)).bytes := by
  obtain ⟨s, seed, h1, h2, h3⟩ := login_key ht hm hl
  rw [h3]
  exact verifies_of_reply (inv_stateAfter E h) hr hc h1 h2 _

theorem certified_current (E : Env) (h : History) (hk : RefusalsHarmless (trace E h))
    (hlog : ∃ b y a ld, trace E h = b ++ y :: a ∧ SameModule a ∧ y.reply = .loggedIn ld) :
    (stateAfter E h).certifiedData = (digest E (certifiedTree (stateAfter E h).sigMap)).bytes := by
  induction h using history_induction with
  | nil => obtain ⟨b, y, a, ld, h, _⟩ := hlog; simp [trace, traceFrom] at h
  | snoc h now op ih =>
    have e1 : trace E (h ++ [(now, op)]) = trace E h ++ [⟨now, op, (step (stateAfter E h) now op).2⟩] := traceFrom_snoc _ _ _ _
    have e2 : stateAfter E (h ++ [(now, op)]) = (step (stateAfter E h) now op).1 := run_snoc _ _ _ _
    rw [e1] at hk hlog
    rw [e2]
    have back : ¬Event.Reinstalls ⟨now, op, (step (stateAfter E h) now op).2⟩ →
        (∀ ld, (step (stateAfter E h) now op).2 ≠ .loggedIn ld) →
        (stateAfter E h).certifiedData = (digest E (certifiedTree (stateAfter E h).sigMap)).bytes := by
      intro hr hnl
      apply ih
      · intro b x a err g1 g2 g3
        rcases hk b x (a ++ [⟨now, op, (step (stateAfter E h) now op).2⟩]) err (by rw [g1]; simp) (sameModule_snoc g2 hr) g3 with
          ⟨y, hy, ld, hl⟩ | g
        · rcases List.mem_append.mp hy with hy | hy
          · exact .inl ⟨y, hy, ld, hl⟩
          · rw [List.mem_singleton] at hy; subst hy; exact absurd hl (hnl ld)
        · exact .inr g
      · obtain ⟨b, y, a, ld, g1, g2, g3⟩ := hlog
        rcases List.eq_nil_or_concat a with rfl | ⟨a', z, rfl⟩
        · have := List.append_inj_right' g1 rfl
          rw [List.cons.injEq] at this
          rw [← this.1] at g3
          exact absurd g3 (hnl ld)
        · rw [List.concat_eq_append] at g1 g2
          have g1' : trace E h ++ [⟨now, op, (step (stateAfter E h) now op).2⟩] = (b ++ y :: a') ++ [z] := by rw [g1]; simp
          exact ⟨b, y, a', ld, List.append_inj_left' g1' rfl, fun x hx => g2 x (List.mem_append_left _ hx), g3⟩
    cases sigEffect (inv_stateAfter E h) now op with
    | reset g =>
      exfalso
      obtain ⟨b, y, a, ld, g1, g2, g3⟩ := hlog
      rcases List.eq_nil_or_concat a with rfl | ⟨a', z, rfl⟩
      · have := List.append_inj_right' g1 rfl
        rw [List.cons.injEq] at this
        obtain ⟨i, _, g⟩ := g
        rw [← this.1] at g3
        simp only at g g3
        rw [g] at g3; cases g3
      · rw [List.concat_eq_append] at g1 g2
        have g1' : trace E h ++ [⟨now, op, (step (stateAfter E h) now op).2⟩] = (b ++ y :: a') ++ [z] := by rw [g1]; simp
        have := List.append_inj_right' g1' rfl
        rw [List.cons.injEq] at this
        exact g2 z (by simp) (this.1 ▸ g)
    | same g1 g2 g3 g4 => rw [g2, g3]; exact back g1 g4
    | pruned removed err g1 g2 g3 g4 g5 g6 =>
      have : (step (stateAfter E h) now op).1.sigMap = (stateAfter E h).sigMap := by
        apply g6
        intro x hx
        obtain ⟨s, _, b, ev, a, addr, key, nonce, d, f1, f2, f3, f4, _, f5, f6⟩ := entry_from_login hx
        rcases hk (trace E h) _ [] err rfl (fun x hx => by simp at hx) g2 with ⟨y, hy, _⟩ | g
        · simp at hy
        · have := g b ev a addr key nonce d f1 f2 f3
          have hge : x.expiresAt.toNat = min (ev.time.toNat + minute) (2 ^ 64 - 1) := f6
          simp only at this
          omega
      rw [this, g5]
      exact back g1 fun ld => by rw [g2]; simp
    | granted _ _ _ _ _ _ _ _ _ _ _ _ _ _ _ _ _ _ _ _ _ _ _ _ g => exact g

/-- C29, proved part: the IC's check accepts the delegation under the public key the address's login returned, provided
no login refused for its session key removed signatures since the last successful login.  Missing from C29: that proviso,
which the code needs (see below). -/
theorem C29_verifies_partial (E : Env) (h : History) (now : UInt64) (cert addr key : Bytes) (expiration : UInt64)
    (sd : SignedDelegation) (before after : List Event) (e : Event) (key' nonce : Bytes) (ld : LoginDetails)
    (hr : (step (stateAfter E h) now (.getDelegation (some cert) addr key expiration)).2 = .delegation sd)
    (hc : cert.length < 2 ^ 64)
    (ht : trace E h = before ++ e :: after) (hm : SameModule after) (hl : e.LogsIn addr key' nonce ld)
    (hk : RefusalsHarmless (trace E h)) :
    Verifies E E.canisterId (stateAfter E h).certifiedData cert ld.userCanisterPubkey sd :=
  (C29_verifies_iff_certified E h now cert addr key expiration sd before after e key' nonce ld hr hc ht hm hl).mpr
    (certified_current E h hk ⟨before, e, after, ld, ht, hm, hl.2⟩)

/-- Non-vacuity: the example login, then a login refused for its session key within the minute. -/
def Ex.refused : History := Ex.loggedIn ++ [(200, .login Ex.bobSig Ex.bob [1] (Ex.nonce 4))]

theorem Ex.loggedIn_trace : trace Toy.env Ex.loggedIn =
    trace Toy.env Ex.prepared ++ [⟨100, .login Ex.aliceSig Ex.alice Ex.key (Ex.nonce 3), .loggedIn Ex.details⟩] := by
  rw [trace, Ex.loggedIn, traceFrom_snoc,
    show (step (run (State.fresh Toy.env) Ex.prepared).1 100 (.login Ex.aliceSig Ex.alice Ex.key (Ex.nonce 3))).2 =
      .loggedIn Ex.details by decide +kernel]
  rfl

theorem Ex.refused_trace : trace Toy.env Ex.refused =
    trace Toy.env Ex.prepared ++ [⟨100, .login Ex.aliceSig Ex.alice Ex.key (Ex.nonce 3), .loggedIn Ex.details⟩,
      ⟨200, .login Ex.bobSig Ex.bob [1] (Ex.nonce 4), .err (.login (.delegation .sessionKeyNotDer))⟩] := by
  rw [trace, Ex.refused, traceFrom_snoc]
  rw [show (step (run (State.fresh Toy.env) Ex.loggedIn).1 200 (.login Ex.bobSig Ex.bob [1] (Ex.nonce 4))).2 =
      .err (.login (.delegation .sessionKeyNotDer)) by decide +kernel]
  rw [show traceFrom (State.fresh Toy.env) Ex.loggedIn = trace Toy.env Ex.loggedIn from rfl, Ex.loggedIn_trace]
  simp

/-- What C29 asks for. -/
def AlwaysVerifies (E : Env) : Prop :=
  ∀ (h : History) (now : UInt64) (cert addr key : Bytes) (expiration : UInt64) (sd : SignedDelegation)
    (before after : List Event) (e : Event) (key' nonce : Bytes) (ld : LoginDetails),
    (step (stateAfter E h) now (.getDelegation (some cert) addr key expiration)).2 = .delegation sd →
    cert.length < 2 ^ 64 → trace E h = before ++ e :: after → SameModule after → e.LogsIn addr key' nonce ld →
    Verifies E E.canisterId (stateAfter E h).certifiedData cert ld.userCanisterPubkey sd

/-- Both users log in, 30 s apart; after the first signature has expired the first user's next login is refused for its
session key. -/
def Ex.stale : History :=
  [(1, .install Ex.input), (2, .rngSeeded [1, 2, 3]), (5, .prepareLogin Ex.alice), (6, .prepareLogin Ex.bob),
   (7, .prepareLogin Ex.alice), (100, .login Ex.aliceSig Ex.alice Ex.key (Ex.nonce 3)),
   (30000000000, .login Ex.bobSig Ex.bob Ex.key (Ex.nonce 4)),
   (60000000101, .login Ex.aliceSig Ex.alice [1] (Ex.nonce 5))]

/-- What the second user's login returns. -/
def Ex.bobDetails : LoginDetails :=
  ⟨1800000000006, createUserCanisterPubkey Toy.env.canisterId
    (Toy.env.sha256 (identityString (ascii "s") Ex.bob none)).bytes⟩

/-- C29 is false of the code: a login refused for its session key has already removed expired signatures, and the
certified data is not updated; the next delegation of another user does not verify. -/
theorem C29_not_always : ¬AlwaysVerifies Toy.env := by
  intro hall
  have hb : (match (step (stateAfter Toy.env Ex.stale) 60000000200
      (.getDelegation (some [7]) Ex.bob Ex.key 1800000000006)).2 with | .delegation _ => true | _ => false) = true := by
    decide +kernel
  split at hb
  case h_2 => cases hb
  case h_1 sd hsd =>
  have ht : trace Toy.env Ex.stale = trace Toy.env (Ex.stale.take 6) ++
      ⟨30000000000, .login Ex.bobSig Ex.bob Ex.key (Ex.nonce 4), .loggedIn Ex.bobDetails⟩ ::
        traceFrom (stateAfter Toy.env (Ex.stale.take 7)) [(60000000101, .login Ex.aliceSig Ex.alice [1] (Ex.nonce 5))] := by
    have e : Ex.stale = Ex.stale.take 6 ++ [(30000000000, .login Ex.bobSig Ex.bob Ex.key (Ex.nonce 4)),
      (60000000101, .login Ex.aliceSig Ex.alice [1] (Ex.nonce 5))] := rfl
    have hr : (step (stateAfter Toy.env (Ex.stale.take 6)) 30000000000 (.login Ex.bobSig Ex.bob Ex.key (Ex.nonce 4))).2 =
      .loggedIn Ex.bobDetails := by decide +kernel
    conv => lhs; rw [e, trace, traceFrom_append]
    show trace Toy.env (Ex.stale.take 6) ++ traceFrom (stateAfter Toy.env (Ex.stale.take 6)) _ = _
    have hs : stateAfter Toy.env (Ex.stale.take 7) = (step (stateAfter Toy.env (Ex.stale.take 6)) 30000000000
        (.login Ex.bobSig Ex.bob Ex.key (Ex.nonce 4))).1 := run_snoc (State.fresh Toy.env) (Ex.stale.take 6) _ _
    rw [traceFrom, hr, hs]
  have hm : SameModule (traceFrom (stateAfter Toy.env (Ex.stale.take 7))
    [(60000000101, .login Ex.aliceSig Ex.alice [1] (Ex.nonce 5))]) := sameModule_of_ops _ _ rfl
  have hl : Event.LogsIn ⟨30000000000, .login Ex.bobSig Ex.bob Ex.key (Ex.nonce 4), .loggedIn Ex.bobDetails⟩ Ex.bob Ex.key
    (Ex.nonce 4) Ex.bobDetails := ⟨⟨_, rfl⟩, rfl⟩
  have hv := hall Ex.stale 60000000200 [7] Ex.bob Ex.key 1800000000006 sd _ _ _ _ _ _ hsd (by decide) ht hm hl
  have hc := (C29_verifies_iff_certified Toy.env Ex.stale 60000000200 [7] Ex.bob Ex.key 1800000000006 sd _ _ _ _ _ _ hsd
    (by decide) ht hm hl).mp hv
  revert hc
  decide +kernel

/-- Non-vacuity of the proved part: after a login and a harmless refusal the delegation is returned and verifies. -/
theorem Ex.refused_verifies : ∃ sd, (step (stateAfter Toy.env Ex.refused) 300 (.getDelegation (some [7]) Ex.alice Ex.key Ex.expiration)).2 =
      .delegation sd ∧ RefusalsHarmless (trace Toy.env Ex.refused) ∧
    Verifies Toy.env Toy.env.canisterId (stateAfter Toy.env Ex.refused).certifiedData [7] Ex.details.userCanisterPubkey sd := by
  have hb : (match (step (stateAfter Toy.env Ex.refused) 300
      (.getDelegation (some [7]) Ex.alice Ex.key Ex.expiration)).2 with | .delegation _ => true | _ => false) = true := by
    decide +kernel
  split at hb
  case h_2 => cases hb
  case h_1 sd hsd =>
  have hm : SameModule [(⟨200, .login Ex.bobSig Ex.bob [1] (Ex.nonce 4), .err (.login (.delegation .sessionKeyNotDer))⟩ : Event)] := by
    intro e he; rw [List.mem_singleton] at he; subst he; simp [Event.Reinstalls]
  have hl : Event.LogsIn ⟨100, .login Ex.aliceSig Ex.alice Ex.key (Ex.nonce 3), .loggedIn Ex.details⟩ Ex.alice Ex.key
    (Ex.nonce 3) Ex.details := ⟨⟨_, rfl⟩, rfl⟩
  have hk : RefusalsHarmless (trace Toy.env Ex.refused) := by
    -- all events before the last answer otherwise, and the last one comes 100 ns after the only login
    have hnone : ∀ y ∈ trace Toy.env Ex.prepared, (match y.reply with
        | .done => true | .prepared _ => true | _ => false) = true := by
      have : ((trace Toy.env Ex.prepared).map (·.reply)).all (fun r => match r with
        | .done => true | .prepared _ => true | _ => false) = true := by decide +kernel
      intro y hy
      exact List.all_eq_true.mp this y.reply (List.mem_map_of_mem hy)
    intro b x a err g1 g2 g3
    rw [Ex.refused_trace] at g1
    right
    intro b1 y b2 addr key nonce ld f1 _ f3
    have hx : x.time = 200 := by
      have : x ∈ trace Toy.env Ex.prepared ++ [⟨100, .login Ex.aliceSig Ex.alice Ex.key (Ex.nonce 3), .loggedIn Ex.details⟩,
        ⟨200, .login Ex.bobSig Ex.bob [1] (Ex.nonce 4), .err (.login (.delegation .sessionKeyNotDer))⟩] := by rw [g1]; simp
      simp only [List.mem_append, List.mem_cons, List.not_mem_nil, or_false] at this
      rcases this with h | rfl | rfl
      · have := hnone x h; rw [g3] at this; cases this
      · cases g3
      · rfl
    have hy : y.time = 100 := by
      have : y ∈ trace Toy.env Ex.prepared ++ [⟨100, .login Ex.aliceSig Ex.alice Ex.key (Ex.nonce 3), .loggedIn Ex.details⟩,
        ⟨200, .login Ex.bobSig Ex.bob [1] (Ex.nonce 4), .err (.login (.delegation .sessionKeyNotDer))⟩] := by rw [g1, f1]; simp
      simp only [List.mem_append, List.mem_cons, List.not_mem_nil, or_false] at this
      rcases this with h | rfl | rfl
      · have := hnone y h; rw [f3.2] at this; cases this
      · rfl
      · cases f3.2
    rw [hx, hy]
    unfold minute; decide
  exact ⟨sd, hsd, hk, C29_verifies_partial Toy.env Ex.refused 300 [7] Ex.alice Ex.key Ex.expiration sd _ _ _ _ _ _ hsd
    (by decide) Ex.refused_trace hm hl hk⟩

/-! ### C51 -/

/-- Where the certified data comes from. -/
theorem certified_origin (E : Env) (h : History) : (stateAfter E h).certifiedData = [] ∨
    ∃ h1 h2, h = h1 ++ h2 ∧ (∀ y ∈ traceFrom (stateAfter E h1) h2, ¬y.Installs) ∧
      (stateAfter E h).certifiedData = (digest E (certifiedTree (stateAfter E h1).sigMap)).bytes := by
  induction h using history_induction with
  | nil => exact .inl rfl
  | snoc h now op ih =>
    have e2 : stateAfter E (h ++ [(now, op)]) = (step (stateAfter E h) now op).1 := run_snoc _ _ _ _
    have carry : (¬∃ i, op = .install i ∧ (step (stateAfter E h) now op).2 = .done) →
        (stateAfter E (h ++ [(now, op)])).certifiedData = (stateAfter E h).certifiedData →
        (stateAfter E (h ++ [(now, op)])).certifiedData = [] ∨
        ∃ h1 h2, h ++ [(now, op)] = h1 ++ h2 ∧ (∀ y ∈ traceFrom (stateAfter E h1) h2, ¬y.Installs) ∧
          (stateAfter E (h ++ [(now, op)])).certifiedData = (digest E (certifiedTree (stateAfter E h1).sigMap)).bytes := by
      intro hn hc
      rcases ih with ih | ⟨h1, h2, g1, g2, g3⟩
      · exact .inl (hc.trans ih)
      · refine .inr ⟨h1, h2 ++ [(now, op)], by rw [g1]; simp, ?_, hc.trans g3⟩
        intro y hy
        rw [traceFrom_snoc] at hy
        rcases List.mem_append.mp hy with hy | hy
        · exact g2 y hy
        · rw [List.mem_singleton] at hy
          subst hy
          have : (run (stateAfter E h1) h2).1 = stateAfter E h := by rw [g1]; exact (run_append _ _ _).symm
          rw [this]
          rintro ⟨i, z1, z2⟩
          exact hn ⟨i, z1, z2⟩
    cases sigEffect (inv_stateAfter E h) now op with
    | reset g _ g3 =>
      rcases g3 with ⟨g3, i, rfl⟩ | ⟨g3, _⟩
      · exact carry (by rintro ⟨i, z, _⟩; cases z) (e2 ▸ g3)
      · exact .inl (e2 ▸ g3)
    | same g1 _ g3 => exact carry (fun ⟨i, z1, z2⟩ => g1 ⟨i, .inl z1, z2⟩) (e2 ▸ g3)
    | pruned _ _ g1 _ _ _ g5 => exact carry (fun ⟨i, z1, z2⟩ => g1 ⟨i, .inl z1, z2⟩) (e2 ▸ g5)
    | granted _ _ _ _ _ _ _ _ _ _ _ _ _ _ _ _ _ _ _ _ _ _ _ _ g =>
      exact .inr ⟨h ++ [(now, op)], [], by simp, fun y hy => by simp [traceFrom] at hy, by rw [e2]; exact g⟩

/-- C51: whatever delegation the IC's check accepts for this canister, under whatever key and from whatever source, stems
from a login: some login since the last new installation returned a key that names the same canister and seed, and it was
for the delegation's session key and returned the delegation's expiration, and the delegation has the targets configured
then.  The alternative is a SHA-256 collision: between strings hashed in the presented tree and in a certified one, between
seeds, or between strings hashed for the delegations. -/
theorem C51_only_logins_verify (E : Env) (h : History) (cert key : Bytes) (sd : SignedDelegation)
    (hv : Verifies E E.canisterId (stateAfter E h).certifiedData cert key sd) :
    (∃ before e after addr key' nonce ld s p, trace E h = before ++ e :: after ∧ (∀ y ∈ after, ¬y.Installs) ∧
      e.LogsIn addr key' nonce ld ∧ readCanisterKey ld.userCanisterPubkey = readCanisterKey key ∧
      InForce E before s p ∧ sd.delegation = ⟨key', ld.expiration, s.targets⟩) ∨
    (∃ t h1 x y, readSignature sd.signature = some (cert, t) ∧ h1 <+: h ∧ Hashes E t x ∧
      Hashes E (certifiedTree (stateAfter E h1).sigMap) y ∧ Collision E.sha256 x y) ∨
    (∃ e ∈ trace E h, ∃ addr key' nonce ld seed seed', e.LogsIn addr key' nonce ld ∧
      readCanisterKey ld.userCanisterPubkey = some (E.canisterId, seed) ∧ readCanisterKey key = some (E.canisterId, seed') ∧
      Collision E.sha256 seed seed') ∨
    (∃ before e after addr key' nonce ld s p x y, trace E h = before ++ e :: after ∧ e.LogsIn addr key' nonce ld ∧ InForce E before s p ∧
      DelegationPreimage E (granted s key' ld.expiration) x ∧ DelegationPreimage E sd.delegation y ∧
      Collision E.sha256 x y) := by
  obtain ⟨seed, t, dh, a1, a2, a3, a4, a5, a6⟩ := hv
  rcases certified_origin E h with h0 | ⟨h1, h2, g1, g2, g3⟩
  · rw [h0] at a4
    have := congrArg List.length a4
    rw [Hash.len] at this
    cases this
  rw [g3] at a4
  rcases reveals_transfer E (reveals_of_lookup a6) _ (full_certifiedTree (stateAfter E h1).sigMap) (Hash.ext' a4) with hrev |
    ⟨x, y, hx, hy, hc⟩
  · obtain ⟨_, s', d', b1, b2, hh⟩ := reveals_certifiedTree hrev
    have b1 := Hash.ext' b1
    have b2 := Hash.ext' b2
    subst b1; subst b2
    obtain ⟨x, hx, x1, x2⟩ := (inv_stateAfter E h1).sigs.covered _ _ hh
    obtain ⟨s, hs, b, e, a, addr, key', nonce, ld, f1, f2, f3, f4, f5, ⟨⟨sd', q1, q2⟩, q3⟩, f7⟩ := entry_from_login hx
    rw [x1] at q2; rw [x2] at q3
    have htr : trace E h = b ++ e :: (a ++ traceFrom (stateAfter E h1) h2) := by
      rw [g1, trace, traceFrom_append]
      show trace E h1 ++ _ = _
      rw [f1]; simp [stateAfter]
    have hmem : e ∈ trace E h := by rw [htr]; simp
    have hk : readCanisterKey ld.userCanisterPubkey = some (E.canisterId, sd'.bytes) := by
      rw [f5, userKey, isSeed_unique q1 (isSeed_generate E s addr)]
      exact C25_key_reads_back E.canisterId _ E.canisterId_len (Hash.len _)
    have hfb : InForce E b s (stateAfter E h1).settings := by
      obtain ⟨b0, e0, a0, i, w1, w2, w3, w4, w5⟩ := settings_inForce hs
      rw [f1] at w1
      have hne : e0.Reinstalls := ⟨i, w3, w4⟩
      rcases List.append_eq_append_iff.mp w1 with ⟨c, c1, c2⟩ | ⟨c, c1, c2⟩
      · cases c with
        | nil =>
          simp only [List.nil_append, List.cons.injEq] at c2
          rw [← c2.1, f3.2] at w4; cases w4
        | cons c0 c =>
          simp only [List.cons_append, List.cons.injEq] at c2
          exact absurd hne (f2 e0 (by rw [c2.2]; simp))
      · cases c with
        | nil =>
          simp only [List.nil_append, List.cons.injEq] at c2
          rw [c2.1, f3.2] at w4; cases w4
        | cons c0 c =>
          simp only [List.cons_append, List.cons.injEq] at c2
          refine ⟨b0, e0, c, i, by rw [c1, c2.1], fun y hy => w2 y (by rw [c2.2]; simp [hy]), w3, w4, w5⟩
    by_cases hse : seed = sd'.bytes
    · subst hse
      rcases delegation_inj q3 a5 with hd | ⟨p, q, hp, hq, hcol⟩
      · left
        refine ⟨b, e, _, addr, key', nonce, ld, s, _, htr, ?_, f3, hk.trans a1.symm, hfb, hd.symm⟩
        intro y hy
        rcases List.mem_append.mp hy with hy | hy
        · exact fun ⟨i, z1, z2⟩ => f2 y hy ⟨i, .inl z1, z2⟩
        · exact g2 y hy
      · exact .inr (.inr (.inr ⟨b, e, _, addr, key', nonce, ld, s, _, p, q, htr, f3, hfb, hp, hq, hcol⟩))
    · exact .inr (.inr (.inl ⟨e, hmem, addr, key', nonce, ld, sd'.bytes, seed, f3, hk, a1, fun z => hse z.symm, q2.symm⟩))
  · exact .inr (.inl ⟨t, h1, x, y, a2, ⟨h2, g1.symm⟩, hx, hy, hc⟩)

/-- Non-vacuity: the delegation of the example verifies, also after an upgrade (which leaves the certified data alone). -/
example : ∃ sd, Verifies Toy.env Toy.env.canisterId (stateAfter Toy.env Ex.refused).certifiedData [7]
      Ex.details.userCanisterPubkey sd ∧
    Verifies Toy.env Toy.env.canisterId (stateAfter Toy.env (Ex.refused ++ [(400, .upgrade Ex.input)])).certifiedData [7]
      Ex.details.userCanisterPubkey sd := by
  obtain ⟨sd, _, _, h⟩ := Ex.refused_verifies
  refine ⟨sd, h, ?_⟩
  rw [show (stateAfter Toy.env (Ex.refused ++ [(400, .upgrade Ex.input)])).certifiedData =
    (stateAfter Toy.env Ex.refused).certifiedData by decide +kernel]
  exact h

end Siwe
