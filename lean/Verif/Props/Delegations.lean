import Verif.Lemmas.Grants
import Verif.Props.Sessions
/- Properties C27-C30, C51 and C52: obtaining delegations. -/
namespace Siwe
open Spec

/-! ### C52 -/

/-- C52: in every reachable state `siwe_get_delegation` gives the answer it owes. -/
theorem C52_decision (E : Env) (h : History) (now : UInt64) (cert : Option Bytes) (addr key : Bytes) (expiration : UInt64) :
    DelegationReply (stateAfter E h) now addr key expiration cert
      (step (stateAfter E h) now (.getDelegation cert addr key expiration)).2 :=
  getDelegation_reply (inv_stateAfter E h) now cert addr key expiration

/-- C52: there is only one such answer. -/
theorem C52_one_answer (E : Env) (h : History) (now : UInt64) (cert : Option Bytes) (addr key : Bytes) (expiration : UInt64)
    (r r' : Reply) (hr : DelegationReply (stateAfter E h) now addr key expiration cert r)
    (hr' : DelegationReply (stateAfter E h) now addr key expiration cert r') : r = r' :=
  delegationReply_unique _ now cert addr key expiration r r' hr hr'

/-- Expiration of the example login. -/
def Ex.expiration : UInt64 := 1800000000005

/-- The delegation obtained after the example login. -/
def Ex.delegation : Option SignedDelegation :=
  match (step (stateAfter Toy.env Ex.loggedIn) 200 (.getDelegation (some [7]) Ex.alice Ex.key Ex.expiration)).2 with
  | .delegation d => some d
  | _ => none

theorem Ex.delegation_reply {d : SignedDelegation} (h : Ex.delegation = some d) :
    (step (stateAfter Toy.env Ex.loggedIn) 200 (.getDelegation (some [7]) Ex.alice Ex.key Ex.expiration)).2 = .delegation d := by
  unfold Ex.delegation at h
  split at h
  · next h' => rw [h']; cases h; rfl
  · cases h

/-- Non-vacuity: every answer occurs. -/
example : (Ex.delegation.map (·.delegation)) = some ⟨Ex.key, Ex.expiration, none⟩ ∧
    (step (stateAfter Toy.env Ex.loggedIn) 200 (.getDelegation none Ex.alice Ex.key Ex.expiration)).2 = .trap ∧
    (step (stateAfter Toy.env []) 200 (.getDelegation (some [7]) Ex.alice Ex.key Ex.expiration)).2 = .trap ∧
    (step (stateAfter Toy.env Ex.loggedIn) 200 (.getDelegation (some [7]) (ascii "0x") Ex.key Ex.expiration)).2 =
      .err (.eth .addressFormatError) ∧
    (step (stateAfter Toy.env Ex.loggedIn) 200 (.getDelegation (some [7]) Ex.alice [] Ex.expiration)).2 =
      .err (.delegation .sessionKeyEmpty) ∧
    (step (stateAfter Toy.env Ex.loggedIn) 200 (.getDelegation (some [7]) Ex.alice [1] Ex.expiration)).2 =
      .err (.delegation .sessionKeyNotDer) ∧
    (step (stateAfter Toy.env Ex.loggedIn) 200 (.getDelegation (some [7]) Ex.alice Ex.key 0)).2 =
      .err (.delegation .invalidExpiration) ∧
    (step (stateAfter Toy.env Ex.loggedIn) 60000000101 (.getDelegation (some [7]) Ex.alice Ex.key Ex.expiration)).2 =
      .err (.delegation .signatureExpired) ∧
    (step (stateAfter Toy.env Ex.loggedIn) 200 (.getDelegation (some [7]) Ex.bob Ex.key Ex.expiration)).2 =
      .err (.delegation .signatureNotFound) ∧
    (step (stateAfter Toy.env Ex.loggedIn) 200 (.getDelegation (some [7]) Ex.alice Ex.key 9)).2 =
      .err (.delegation .signatureNotFound) := by
  decide +kernel

/-! ### C27 -/

/-- C27: whoever obtains a delegation for an address, session key and expiration at time `now` has, since the last
installation or upgrade and at most a minute ago, logged in with them and got that expiration; or that login's hashes
collide with the requested ones. -/
theorem C27_needs_recent_login (E : Env) (h : History) (now : UInt64) (cert : Option Bytes) (addr key : Bytes)
    (expiration : UInt64) (d : SignedDelegation)
    (hr : (step (stateAfter E h) now (.getDelegation cert addr key expiration)).2 = .delegation d) :
    ∃ before e after addr' key' nonce ld s, trace E h = before ++ e :: after ∧ SameModule after ∧
      e.LogsIn addr' key' nonce ld ∧ now.toNat ≤ e.time.toNat + minute ∧
      InForce E (trace E h) s (stateAfter E h).settings ∧
      ((addr' = addr ∧ key' = key ∧ ld.expiration = expiration) ∨
        GrantCollision E s addr key expiration addr' key' ld.expiration) := by
  have hd := C52_decision E h now cert addr key expiration
  rw [hr] at hd
  cases hd with
  | success c s sh dh w _ h1 h2 h3 h4 h5 h6 h7 h8 h9 h10 h11 =>
    obtain ⟨x, hx, e1, e2, hle⟩ := SigMap.exists_of_not_isExpired (inv_stateAfter E h).sigs h8 h7
    obtain ⟨s', hs', before, e, after, addr', key', nonce, ld, g1, g2, g3, g4, g5, g6, g7⟩ := entry_from_login hx
    rw [h2] at hs'; cases hs'
    refine ⟨before, e, after, addr', key', nonce, ld, s, g1, g2, g3, ?_, settings_inForce h2, ?_⟩
    · unfold IsExpiryOf at g7; omega
    · rw [e1, e2] at g6
      exact isEntry_inj h1 g4 h6 g6

/-- Non-vacuity: the example login lets one obtain the delegation until a minute after it. -/
example : (∃ d, (step (stateAfter Toy.env Ex.loggedIn) 200 (.getDelegation (some [7]) Ex.alice Ex.key Ex.expiration)).2 =
    .delegation d) ∧
    ∀ d, (step (stateAfter Toy.env Ex.prepared) 200 (.getDelegation (some [7]) Ex.alice Ex.key Ex.expiration)).2 ≠
      .delegation d := by
  constructor
  · obtain ⟨d, hd⟩ := Option.isSome_iff_exists.mp (show Ex.delegation.isSome = true by decide +kernel)
    exact ⟨d, Ex.delegation_reply hd⟩
  · rw [show (step (stateAfter Toy.env Ex.prepared) 200 (.getDelegation (some [7]) Ex.alice Ex.key Ex.expiration)).2 =
      .err (.delegation .signatureNotFound) by decide +kernel]
    intro d; simp

/-! ### C28 -/

theorem holds_kept {E : Env} {s0 : State E} (h0 : Inv s0) {sh dh : Hash} (hh : Holds s0.sigMap sh dh) (h : History)
    (hm : SameModule (traceFrom s0 h))
    (hq : ∀ h1 now op h2, h = h1 ++ (now, op) :: h2 → ∀ x ∈ (run s0 h1).1.sigMap.expirationQueue,
      x.seedHash = sh → x.delegationHash = dh → now.toNat < x.expiresAt.toNat) :
    Holds (run s0 h).1.sigMap sh dh := by
  induction h using history_induction with
  | nil => exact hh
  | snoc h now op ih =>
    rw [traceFrom_snoc] at hm
    have ih := ih (fun e he => hm e (List.mem_append_left _ he))
      (fun h1 t o h2 he => hq h1 t o (h2 ++ [(now, op)]) (by rw [he]; simp))
    rw [run_snoc]
    have hr := hm _ (List.mem_append_right _ (List.mem_singleton.mpr rfl))
    have hq := hq h now op [] rfl
    have keep : ∀ (removed rest : List SigExpiration),
        Pruned now maxSigsToPrune (run s0 h).1.sigMap.expirationQueue removed rest →
        ∀ e ∈ removed, ¬(e.seedHash = sh ∧ e.delegationHash = dh) := by
      rintro removed rest hp e he ⟨g1, g2⟩
      have := hq e (hp.split.mem_iff.mpr (by simp [he])) g1 g2
      have := hp.due e he
      omega
    cases sigEffect (inv_run h0 h) now op with
    | reset g => exact absurd g hr
    | same _ g => rw [g]; exact ih
    | pruned removed _ _ _ g3 g4 => exact (g4 _ _).mpr ⟨ih, keep _ _ g3⟩
    | granted removed rest _ _ _ _ _ _ _ _ _ _ _ _ _ _ _ _ _ _ _ g7 _ g9 => exact (g9 _ _).mpr (.inr ⟨ih, keep _ _ g7⟩)

/-- C28, proved part: after a login, and until the next installation or upgrade, the delegation is available at time
`now` if every login that was granted the same delegation is at most a minute old and no call was made when one of them
was a minute old or more.  The alternative is a collision with the hashes of another login.  Missing from C28: that no
other login of the same address, session key and expiration shortens the minute, and the last nanosecond of the minute
(both false of the code, see below). -/
theorem C28_available_partial (E : Env) (h : History) (before after : List Event) (e : Event) (addr key nonce : Bytes)
    (d : LoginDetails) (now : UInt64) (cert : Bytes) (ht : trace E h = before ++ e :: after) (hm : SameModule after)
    (hl : e.LogsIn addr key nonce d)
    (hx : ∀ b x a nonce' d', trace E h = b ++ x :: a → SameModule a → x.LogsIn addr key nonce' d' →
      d'.expiration = d.expiration → now.toNat ≤ x.time.toNat + minute ∧
        ∀ y ∈ after, y.time.toNat < min (x.time.toNat + minute) (2 ^ 64 - 1)) :
    (∃ sd, (step (stateAfter E h) now (.getDelegation (some cert) addr key d.expiration)).2 = .delegation sd) ∨
    ∃ x ∈ trace E h, ∃ addr' key' nonce' d' s, x.LogsIn addr' key' nonce' d' ∧
      InForce E (trace E h) s (stateAfter E h).settings ∧
      GrantCollision E s addr key d.expiration addr' key' d'.expiration := by
  by_cases hc : ∃ x ∈ trace E h, ∃ addr' key' nonce' d' s, x.LogsIn addr' key' nonce' d' ∧
      InForce E (trace E h) s (stateAfter E h).settings ∧ GrantCollision E s addr key d.expiration addr' key' d'.expiration
  · exact .inr hc
  left
  obtain ⟨h1, h2, e1, e2, e3, e4⟩ := traceFrom_split ht
  obtain ⟨⟨sig, hcall⟩, hrep⟩ := hl
  have hi := inv_stateAfter E h1
  have hi' := inv_step hi e.time e.call
  have est : stateAfter E h = (run (step (stateAfter E h1) e.time e.call).1 h2).1 := by
    rw [stateAfter, e1, run_append]; rfl
  have e3 : e.reply = (step (stateAfter E h1) e.time e.call).2 := e3
  have e4 : after = traceFrom (step (stateAfter E h1) e.time e.call).1 h2 := e4
  cases sigEffect hi e.time e.call with
  | reset g => obtain ⟨i, _, g⟩ := g; simp only at g; rw [← e3, hrep] at g; cases g
  | same _ _ _ g => rw [← e3, hrep] at g; exact absurd rfl (g d)
  | pruned _ _ _ g => rw [← e3, hrep] at g; cases g
  | granted removed rest sig' addr' key' nonce' d' s sh dh t f1 f2 f3 f4 k1 k2 k3 k4 f5 f6 f7 f8 f9 =>
    rw [hcall] at f1; obtain ⟨_, rfl, rfl, rfl⟩ := Op.login.inj f1
    rw [← e3, hrep] at f2; cases f2
    have hs1 : (step (stateAfter E h1) e.time e.call).1.lib.settings = some s :=
      (effect_keep (effect hi e.time e.call) (by simp [Event.Reinstalls, hcall])).1.trans f4
    have hset : (stateAfter E h).lib.settings = some s := by
      rw [est, (settings_keep hi' h2 (e4 ▸ hm)).1, hs1]
    -- a matching entry stems from a login with the same grant
    have origin : ∀ p q, h2 = p ++ q → ∀ x ∈ (run (step (stateAfter E h1) e.time e.call).1 p).1.sigMap.expirationQueue,
        x.seedHash = sh → x.delegationHash = dh → now.toNat ≤ x.expiresAt.toNat ∧
          ∀ y ∈ after, y.time.toNat < x.expiresAt.toNat := by
      intro p q hpq x hx' x1 x2
      have eh : h = (h1 ++ (e.time, e.call) :: p) ++ q := by rw [e1, hpq]; simp
      have hst : (run (step (stateAfter E h1) e.time e.call).1 p).1 = stateAfter E (h1 ++ (e.time, e.call) :: p) := by
        show _ = (run (State.fresh E) (h1 ++ (e.time, e.call) :: p)).1
        rw [run_append]; rfl
      rw [hst] at hx'
      obtain ⟨s', hs', b, ev, a, addr', key', nonce', d', g1, g2, g3, g4, g5, g6, g7⟩ := entry_from_login hx'
      have hq : SameModule (traceFrom (stateAfter E (h1 ++ (e.time, e.call) :: p)) q) := by
        have : traceFrom (step (stateAfter E h1) e.time e.call).1 h2 =
            traceFrom (step (stateAfter E h1) e.time e.call).1 p ++ traceFrom (stateAfter E (h1 ++ (e.time, e.call) :: p)) q := by
          rw [hpq, traceFrom_append, hst]
        rw [e4, this] at hm
        exact fun y hy => hm y (List.mem_append_right _ hy)
      have hp : SameModule (traceFrom (step (stateAfter E h1) e.time e.call).1 p) := by
        rw [e4, hpq, traceFrom_append] at hm
        exact fun y hy => hm y (List.mem_append_left _ hy)
      have htr : trace E h = b ++ ev :: (a ++ traceFrom (stateAfter E (h1 ++ (e.time, e.call) :: p)) q) := by
        rw [eh, trace, traceFrom_append]
        show trace E (h1 ++ (e.time, e.call) :: p) ++ _ = _
        rw [g1]; simp [stateAfter]
      have hss : s' = s := by
        rw [← hst, (settings_keep hi' p hp).1, hs1] at hs'
        cases hs'; rfl
      subst hss
      rw [x1, x2] at g6
      rcases isEntry_inj f3 g4 f5 g6 with ⟨rfl, rfl, hexp⟩ | hcol
      · have hsm : SameModule (a ++ traceFrom (stateAfter E (h1 ++ (e.time, e.call) :: p)) q) := by
          intro y hy
          rcases List.mem_append.mp hy with hy | hy
          · exact g2 y hy
          · exact hq y hy
        obtain ⟨z1, z2⟩ := hx b ev _ nonce' d' htr hsm g3 hexp
        have := now.toNat_lt
        have hge : x.expiresAt.toNat = min (ev.time.toNat + minute) (2 ^ 64 - 1) := g7
        refine ⟨by omega, fun y hy => ?_⟩
        have := z2 y hy
        omega
      · exact absurd ⟨ev, by rw [htr]; simp, addr', key', nonce', d', s', g3, settings_inForce hset, hcol⟩ hc
    have hhold : Holds (stateAfter E h).sigMap sh dh := by
      rw [est]
      refine holds_kept hi' ((f9 _ _).mpr (.inl ⟨rfl, rfl⟩)) h2 (e4 ▸ hm) ?_
      intro p t' o q hpq x hx' x1 x2
      obtain ⟨_, z⟩ := origin p ((t', o) :: q) hpq x hx' x1 x2
      have hy : (⟨t', o, (step (run (step (stateAfter E h1) e.time e.call).1 p).1 t' o).2⟩ : Event) ∈ after := by
        rw [e4, hpq, traceFrom_append]; simp [traceFrom]
      exact z _ hy
    have hexp : (stateAfter E h).sigMap.isExpired now sh dh = false := by
      refine SigMap.not_isExpired_of_all fun x hx' x1 x2 => ?_
      rw [est] at hx'
      exact (origin h2 [] (by simp) x hx' x1 x2).1
    obtain ⟨w, hw, _⟩ := SigMap.witness_spec E (inv_stateAfter E h).sigs.trees hhold
    exact ⟨⟨granted s key d.expiration, _⟩, C52_one_answer E h now (some cert) addr key d.expiration _ _ (C52_decision _ _ _ _ _ _ _)
      (.success cert s sh dh w _ f3 hset k1 k2 k3 f5 hexp hhold hw rfl rfl)⟩

/-- C28, proved part, for the common case: no other login since the last installation or upgrade was granted the same
address, session key and expiration.  Then the delegation is available strictly less than a minute after the login, whatever
other calls were made in between. -/
theorem C28_single_login_partial (E : Env) (h : History) (before after : List Event) (e : Event) (addr key nonce : Bytes)
    (d : LoginDetails) (now : UInt64) (cert : Bytes) (ht : trace E h = before ++ e :: after) (hm : SameModule after)
    (hl : e.LogsIn addr key nonce d) (hnow : now.toNat < min (e.time.toNat + minute) (2 ^ 64 - 1))
    (hclock : ∀ y ∈ after, y.time.toNat ≤ now.toNat)
    (honly : ∀ b x a nonce' d', trace E h = b ++ x :: a → SameModule a → x.LogsIn addr key nonce' d' →
      d'.expiration = d.expiration → x = e) :
    (∃ sd, (step (stateAfter E h) now (.getDelegation (some cert) addr key d.expiration)).2 = .delegation sd) ∨
    ∃ x ∈ trace E h, ∃ addr' key' nonce' d' s, x.LogsIn addr' key' nonce' d' ∧
      InForce E (trace E h) s (stateAfter E h).settings ∧
      GrantCollision E s addr key d.expiration addr' key' d'.expiration := by
  refine C28_available_partial E h before after e addr key nonce d now cert ht hm hl fun b x a nonce' d' g1 g2 g3 g4 => ?_
  rw [honly b x a nonce' d' g1 g2 g3 g4]
  refine ⟨by omega, fun y hy => ?_⟩
  have := hclock y hy
  omega

/-- Neither an installation nor an upgrade. -/
def keepsModule : Op → Bool
  | .install _ => false
  | .upgrade _ => false
  | _ => true

theorem sameModule_of_ops {E : Env} (s : State E) (h : History) (hh : h.all (fun p => keepsModule p.2) = true) :
    SameModule (traceFrom s h) := by
  induction h generalizing s with
  | nil => intro e he; simp [traceFrom] at he
  | cons p h ih =>
    obtain ⟨now, op⟩ := p
    simp only [List.all_cons, Bool.and_eq_true] at hh
    intro e he
    simp only [traceFrom, List.mem_cons] at he
    rcases he with rfl | he
    · rintro ⟨i, h1 | h1, _⟩ <;> simp only at h1 <;> subst h1 <;> simp [keepsModule] at hh
    · exact ih _ hh.2 e he

/-- What C28 asks for: after a login at `t` the delegation is available until a minute later (here even: strictly less than
a minute later) whatever calls are made in between, with a clock that does not run backwards. -/
def AvailableForAMinute (E : Env) : Prop :=
  ∀ (h1 h2 : History) (t now : UInt64) (sig addr key nonce cert : Bytes) (d : LoginDetails),
    (step (stateAfter E h1) t (.login sig addr key nonce)).2 = .loggedIn d →
    SameModule (traceFrom (step (stateAfter E h1) t (.login sig addr key nonce)).1 h2) →
    List.Pairwise (fun x y => x.1.toNat ≤ y.1.toNat)
      (h1 ++ (t, .login sig addr key nonce) :: h2 ++ [(now, .getDelegation (some cert) addr key d.expiration)] : History) →
    now.toNat < t.toNat + minute →
    ∃ sd, (step (stateAfter E (h1 ++ (t, .login sig addr key nonce) :: h2)) now
      (.getDelegation (some cert) addr key d.expiration)).2 = .delegation sd

/-- Two messages prepared at the same time; the first login comes 30 s before the second. -/
def Ex.twice : History :=
  [(1, .install Ex.input), (2, .rngSeeded [1, 2, 3]), (5, .prepareLogin Ex.alice), (5, .prepareLogin Ex.alice),
   (6, .prepareLogin Ex.bob), (100, .login Ex.aliceSig Ex.alice Ex.key (Ex.nonce 3))]

/-- What the logins of the first address return. -/
def Ex.details : LoginDetails :=
  ⟨Ex.expiration, createUserCanisterPubkey Toy.env.canisterId
    (Toy.env.sha256 (identityString (ascii "s") Ex.alice none)).bytes⟩

/-- C28 is false of the code: with two logins for the same delegation, the first one's expiry ends the second one's
minute.  (The canister's time is the same for all messages of a round, so equal preparation times do occur.) -/
theorem C28_not_available : ¬AvailableForAMinute Toy.env := by
  intro h
  have hl : (step (stateAfter Toy.env Ex.twice) 30000000000 (.login Ex.aliceSig Ex.alice Ex.key (Ex.nonce 4))).2 =
    .loggedIn Ex.details := by decide +kernel
  obtain ⟨sd, hsd⟩ := h Ex.twice [] 30000000000 60000000101 _ _ _ _ [7] _ hl (sameModule_of_ops _ _ rfl)
    (by decide +kernel) (by unfold minute; decide)
  rw [show (step (stateAfter Toy.env (Ex.twice ++ [(30000000000, .login Ex.aliceSig Ex.alice Ex.key (Ex.nonce 4))]))
    60000000101 (.getDelegation (some [7]) Ex.alice Ex.key Ex.details.expiration)).2 =
      .err (.delegation .signatureExpired) by decide +kernel] at hsd
  cases hsd

/-- The same history, when another user logs in after the first expiry: the signature is removed altogether. -/
theorem C28_removed_early :
    (step (stateAfter Toy.env (Ex.twice ++ [(30000000000, .login Ex.aliceSig Ex.alice Ex.key (Ex.nonce 4)),
      (60000000101, .login Ex.bobSig Ex.bob Ex.key (Ex.nonce 5))])) 60000000102
      (.getDelegation (some [7]) Ex.alice Ex.key Ex.expiration)).2 = .err (.delegation .signatureNotFound) := by
  decide +kernel

/-- At exactly a minute the code's two notions of expiry differ: the delegation is available, unless someone else logs in
at that time. -/
theorem C28_boundary :
    (∃ sd, (step (stateAfter Toy.env Ex.loggedIn) 60000000100
      (.getDelegation (some [7]) Ex.alice Ex.key Ex.expiration)).2 = .delegation sd) ∧
    (step (stateAfter Toy.env (Ex.loggedIn ++ [(60000000100, .login Ex.bobSig Ex.bob Ex.key (Ex.nonce 4))])) 60000000100
      (.getDelegation (some [7]) Ex.alice Ex.key Ex.expiration)).2 = .err (.delegation .signatureNotFound) := by
  constructor
  · have h : (match (step (stateAfter Toy.env Ex.loggedIn) 60000000100
        (.getDelegation (some [7]) Ex.alice Ex.key Ex.expiration)).2 with | .delegation _ => true | _ => false) = true := by
      decide +kernel
    split at h
    · next d h' => exact ⟨d, h'⟩
    · cases h
  · decide +kernel

/-- Non-vacuity of the proved parts: the example login, another login and another prepared message in between. -/
example : ∃ before e after d, trace Toy.env (Ex.loggedIn ++ [(30000000000, .login Ex.bobSig Ex.bob Ex.key (Ex.nonce 4)),
      (30000000000, .prepareLogin Ex.alice)]) = before ++ e :: after ∧ SameModule after ∧ e.LogsIn Ex.alice Ex.key (Ex.nonce 3) d ∧
    (60000000099 : UInt64).toNat < min (e.time.toNat + minute) (2 ^ 64 - 1) ∧ (∀ y ∈ after, y.time.toNat ≤ 60000000099) ∧
    after.length = 2 := by
  refine ⟨trace Toy.env Ex.prepared, ⟨100, .login Ex.aliceSig Ex.alice Ex.key (Ex.nonce 3), .loggedIn Ex.details⟩,
    traceFrom (stateAfter Toy.env Ex.loggedIn) [(30000000000, .login Ex.bobSig Ex.bob Ex.key (Ex.nonce 4)),
      (30000000000, .prepareLogin Ex.alice)], Ex.details, ?_, sameModule_of_ops _ _ rfl, ⟨⟨_, rfl⟩, rfl⟩,
      by unfold minute; decide, ?_, rfl⟩
  · rw [trace, traceFrom_append, Ex.loggedIn, traceFrom_snoc,
      show (step (run (State.fresh Toy.env) Ex.prepared).1 100 (.login Ex.aliceSig Ex.alice Ex.key (Ex.nonce 3))).2 =
        .loggedIn Ex.details by decide +kernel]
    simp [stateAfter, trace]
  · intro y hy
    simp only [traceFrom, List.mem_cons, List.not_mem_nil, or_false] at hy
    rcases hy with rfl | rfl <;> decide

end Siwe
