import Verif.Props.Client
import Verif.Props.CertificatesExact
import Verif.Lemmas.ClientMessages
/-
C55, C58, C60, C61 and C62, where the code departs from what one would want: exactly when it does, or how an app avoids it.
-/
namespace Siwe
open Spec

/-! ### C55 -/

/-- C55: the account that is asked to sign and the account the text was issued for were both offered first by the wallet in answer to
`getAddresses`; they differ only if the wallet's first account changed between the two answers. -/
theorem C55_accounts_offered (E : Env) (K : SessionKeys) (hs : List Happening) (wallet : Wallet) (account text : Bytes)
    (h : Output.sign wallet account text ∈ (worldAfter E K hs).log) :
    (∃ i l, Happening.resume i (.addresses (account :: l)) ∈ hs) ∧
    ∃ addr nonce, (∃ i l, Happening.resume i (.addresses (addr :: l)) ∈ hs) ∧
      ∃ e ∈ trace E (worldAfter E K hs).calls, e.Issues addr nonce text := by
  have g := onlyOk (E := E) (K := K) (P := fun x => ∃ i l, Happening.resume i (.addresses (x :: l)) ∈ hs) hs
    fun i y l hm => ⟨i, l, hm⟩
  obtain ⟨addr, nonce, h1, h2⟩ := C55_only_issued_texts E K hs wallet account text h
  exact ⟨g.log _ h, addr, nonce, g.log _ h1, h2⟩

/-- Non-vacuity: after the switch of accounts a text is signed, and the wallet has offered both accounts. -/
example : (worldAfter Toy.env Ex.keys Ex.switched).log.any (fun | .sign 7 a _ => a == Ex.bob | _ => false) = true ∧
    Ex.alice ≠ Ex.bob := by
  decide +kernel

/-! ### C58 -/

/-- C58, exactly: the IC's check accepted the displayed identity's chain when the canister answered with it if and only if the
certified data was then the digest of the canister's signature tree (C29 says when that is). -/
theorem C58_identity_verifies_iff (E : Env) (K : SessionKeys) (hs : List Happening) (i : Identity)
    (h : (worldAfter E K hs).client.ctx.identity = some i) :
    ∃ calls later t cert account d,
      (worldAfter E K hs).client.ctx.identityAddress = some account ∧
      (worldAfter E K hs).calls = calls ++ later ∧
      (step (stateAfter E calls) t (.getDelegation (some cert) account (K i.session) d.expiration)).2 =
        .delegation ⟨i.chain.delegation, i.chain.signature⟩ ∧
      (∃ e ∈ trace E (worldAfter E K hs).calls, ∃ nonce, e.LogsIn account (K i.session) nonce d) ∧
      ((∀ j t c k, Happening.lagging j t c k ∉ hs) →
        (∃ later', later = (t, Op.getDelegation (some cert) account (K i.session) d.expiration) :: later') ∧
        ∃ e ∈ trace E calls, ∃ nonce, e.LogsIn account (K i.session) nonce d) ∧
      ∀ b e a nonce, trace E calls = b ++ e :: a → e.LogsIn account (K i.session) nonce d → cert.length < 2 ^ 64 → SameModule a →
        (Verifies E E.canisterId (stateAfter E calls).certifiedData cert i.chain.publicKey
          ⟨i.chain.delegation, i.chain.signature⟩ ↔
        (stateAfter E calls).certifiedData = (digest E (certifiedTree (stateAfter E calls).sigMap)).bytes) := by
  obtain ⟨before, later, t, cert, account, d, sd, g1, g2, g3, g4, g5, g6⟩ := displayed_given h
  have hdr := C52_decision E before t cert account (K i.session) d.expiration
  rw [g3] at hdr
  have hsd : (⟨i.chain.delegation, i.chain.signature⟩ : SignedDelegation) = sd := by rw [g4]; rfl
  cases hdr with
  | success c _ _ _ _ _ _ _ _ _ _ _ _ _ _ _ _ =>
    refine ⟨before, later, t, c, account, d, g1, g2, by rw [hsd]; exact g3, g5, fun hn => ?_, fun b e a nonce hb hl hc hm => ?_⟩
    · obtain ⟨l', k1, k2⟩ := g6 hn
      exact ⟨⟨l', k1⟩, k2⟩
    · rw [hsd, g4]
      exact C29_verifies_iff_certified E before t c account (K i.session) d.expiration sd b a e _ _ d g3 hc hb hm hl

/-! ### C60 -/

/-- The `k`-th call, a `login`, completes with the identity at the end of `hs`: its promise was not resolved before the last
happening and is now. -/
def Completes (E : Env) (K : SessionKeys) (hs : List Happening) (k : Nat) (i : Identity) : Prop :=
  (worldAfter E K hs).client.tasks[k]? ≠ some (.loggedIn i) ∧
  (worldAfter E K (hs ++ [.resume k .settled])).client.tasks[k]? = some (.loggedIn i)

/-- What a step of a call does to the displayed and the stored identity. -/
theorem resume_saves (c : Client) (pc : Pc) (a : Answer) :
    ((c.resume pc a).1.storage = c.storage ∧ (c.resume pc a).1.ctx.identity = c.ctx.identity ∧
      (c.resume pc a).1.ctx.identityAddress = c.ctx.identityAddress ∧
      (c.resume pc a).1.ctx.delegationChain = c.ctx.delegationChain ∧
      (∀ i, (c.resume pc a).2.1 = .loggedIn i → pc = .loggedIn i)) ∨
    (a = .settled ∧ RunningLogin pc = true ∧ ∃ i, (c.resume pc a).2.1 = .loggedIn i ∧
      (c.resume pc a).1.ctx.identity = some i) := by
  have pf : ∀ f e, ((c.prepareFails f e).1.storage = c.storage ∧ (c.prepareFails f e).1.ctx.identity = c.ctx.identity ∧
      (c.prepareFails f e).1.ctx.identityAddress = c.ctx.identityAddress ∧
      (c.prepareFails f e).1.ctx.delegationChain = c.ctx.delegationChain ∧
      (∀ i, (c.prepareFails f e).2.1 = .loggedIn i → pc = .loggedIn i)) := by
    intro f e; cases f <;> exact ⟨rfl, rfl, rfl, rfl, (fun _ h => (nomatch h))⟩
  have lf : ∀ e, ((c.loginFails e).1.storage = c.storage ∧ (c.loginFails e).1.ctx.identity = c.ctx.identity ∧
      (c.loginFails e).1.ctx.identityAddress = c.ctx.identityAddress ∧
      (c.loginFails e).1.ctx.delegationChain = c.ctx.delegationChain ∧
      (∀ i, (c.loginFails e).2.1 = .loggedIn i → pc = .loggedIn i)) := by
    intro e; exact ⟨rfl, rfl, rfl, rfl, (fun _ h => (nomatch h))⟩
  unfold Client.resume
  split
  · exact .inl ⟨rfl, rfl, rfl, rfl, (fun _ h => (nomatch h))⟩
  · exact .inl (pf _ _)
  · unfold Client.prepareWith
    split
    · exact .inl (pf _ _)
    · split
      · exact .inl (pf _ _)
      · exact .inl ⟨rfl, rfl, rfl, rfl, (fun _ h => (nomatch h))⟩
  · exact .inl (pf _ _)
  · exact .inl ⟨rfl, rfl, rfl, rfl, (fun _ h => (nomatch h))⟩
  · exact .inl (pf _ _)
  · exact .inl (pf _ _)
  · next f _ r =>
    unfold Client.prepareReply
    split
    · refine .inl ⟨rfl, rfl, rfl, rfl, ?_⟩
      cases f <;> exact (fun _ h => (nomatch h))
    · exact .inl (pf _ _)
    · exact .inl (pf _ _)
  · exact .inl (pf _ _)
  · exact .inl ⟨rfl, rfl, rfl, rfl, (fun _ h => (nomatch h))⟩
  · exact .inl (lf _)
  · unfold Client.loginWith
    split
    · exact .inl (lf _)
    · split
      · exact .inl (lf _)
      · split
        · exact .inl ⟨rfl, rfl, rfl, rfl, (fun _ h => (nomatch h))⟩
        · have g := setup_ctx c.loggingIn
          refine .inl ⟨?_, ?_, ?_, ?_, (fun _ h => (nomatch h))⟩
          · exact g.2.1
          all_goals (simp only [Client.startPrepareLogin, g.1]; rfl)
  · exact .inl (lf _)
  · exact .inl ⟨rfl, rfl, rfl, rfl, (fun _ h => (nomatch h))⟩
  · exact .inl (lf _)
  · unfold Client.signed
    split
    · exact .inl ⟨rfl, rfl, rfl, rfl, (fun _ h => (nomatch h))⟩
    · exact .inl ⟨rfl, rfl, rfl, rfl, (fun _ h => (nomatch h))⟩
  · exact .inl ⟨rfl, rfl, rfl, rfl, (fun _ h => (nomatch h))⟩
  · exact .inl ⟨rfl, rfl, rfl, rfl, (fun _ h => (nomatch h))⟩
  · exact .inl (lf _)
  · exact .inl (lf _)
  · unfold Client.loginReply
    split
    · exact .inl ⟨rfl, rfl, rfl, rfl, (fun _ h => (nomatch h))⟩
    · exact .inl (lf _)
    · exact .inl (lf _)
  · exact .inl (lf _)
  · exact .inl (lf _)
  · unfold Client.delegationReply
    split
    · exact .inr ⟨rfl, rfl, _, rfl, rfl⟩
    · exact .inl (lf _)
    · exact .inl (lf _)
  · unfold Client.delegationReply
    split
    · exact .inl (lf _)
    · exact .inl (lf _)
    · exact .inl (lf _)
  · exact .inl (lf _)
  · exact .inl ⟨rfl, rfl, rfl, rfl, fun _ h => h⟩

/-- The running logins are among those of an earlier list of calls. -/
def RunningAmong (T : List Pc) (w : World) : Prop :=
  ∀ (k : Nat) (pc : Pc), w.client.tasks[k]? = some pc → RunningLogin pc = true → ∃ pc0, T[k]? = some pc0 ∧ RunningLogin pc0 = true

theorem runningAmong_step {E : Env} {K : SessionKeys} {T : List Pc} {w : World} (x : RunningAmong T w) (e : Happening)
    (he : e ≠ .login) : RunningAmong T (w.step E K e) := by
  cases e with
  | load => intro k pc h; simp [World.step, Client.load, Client.construct] at h
  | create => intro k pc h; simp only [World.step, (create_keeps w.client).1] at h; exact x k pc h
  | setWallet y => exact x
  | inject y => exact x
  | clear => exact x
  | other now op => exact x
  | prepareLogin =>
    intro k pc h hr
    rcases getElem?_snoc_cases (l := w.client.tasks) h with h | ⟨_, rfl⟩
    · exact x k pc h hr
    · cases hr
  | login => exact absurd rfl he
  | execute i now cert =>
    simp only [World.step]
    split
    · exact x
    · next pc hpc =>
      split
      · exact x
      · next op hop =>
        intro k pc' h hr
        rcases getElem?_set_cases h with ⟨rfl, rfl⟩ | ⟨_, h⟩
        · exact x _ pc hpc ((answered_running hop _).1 ▸ hr)
        · exact x k pc' h hr
  | lagging i now cert seen =>
    simp only [World.step]
    split
    · exact x
    · next pc hpc =>
      split
      · exact x
      · next op hop =>
        intro k pc' h hr
        rcases getElem?_set_cases h with ⟨rfl, rfl⟩ | ⟨_, h⟩
        · exact x _ pc hpc ((answered_running (query_request hop) _).1 ▸ hr)
        · exact x k pc' h hr
  | resume i ans =>
    simp only [World.step]
    split
    · exact x
    · next pc hpc =>
      intro k pc' h hr
      rcases getElem?_set_cases h with ⟨rfl, rfl⟩ | ⟨_, h⟩
      · refine x _ pc hpc ?_
        cases hp : RunningLogin pc with
        | true => rfl
        | false => rw [resume_idle _ _ _ hp] at hr; cases hr
      · exact x k pc' h hr

theorem worldAfter_snoc (E : Env) (K : SessionKeys) (hs : List Happening) (x : Happening) :
    worldAfter E K (hs ++ [x]) = (worldAfter E K hs).step E K x := by
  simp [worldAfter, World.run]

/-- A step that is no `login()` leaves a signed-out page signed out, or a running `login` completes. -/
theorem out_step {E : Env} {K : SessionKeys} {w : World} (x : OutClient w.client) (e : Happening) (he : e ≠ .login) :
    OutClient (w.step E K e).client ∨ ∃ k pc i, e = .resume k .settled ∧ w.client.tasks[k]? = some pc ∧
      RunningLogin pc = true ∧ (w.step E K e).client.tasks[k]? = some (.loggedIn i) := by
  cases e with
  | load =>
    have := x.storage
    left; constructor <;> simp [World.step, Client.load, Client.construct, this, Context.initial]
  | create =>
    have := x.storage
    have := x.identity
    have := x.address
    have := x.chain
    left; constructor <;> simp_all [World.step, Client.create, Client.construct]
  | setWallet y => exact .inl (x.of rfl rfl rfl rfl)
  | inject y => exact .inl (x.of rfl rfl rfl rfl)
  | clear => exact .inl ⟨rfl, rfl, rfl, rfl⟩
  | other now op => exact .inl x
  | prepareLogin =>
    have g := setup_ctx w.client
    refine .inl (x.of ?_ ?_ ?_ ?_)
    · exact g.2.1
    all_goals simp only [World.step, Client.startPrepareLogin, Client.start, g.1]
  | login => exact absurd rfl he
  | execute i now cert =>
    simp only [World.step]
    split
    · exact .inl x
    · split
      · exact .inl x
      · exact .inl (x.of rfl rfl rfl rfl)
  | lagging i now cert seen =>
    simp only [World.step]
    split
    · exact .inl x
    · split
      · exact .inl x
      · exact .inl (x.of rfl rfl rfl rfl)
  | resume k ans =>
    simp only [World.step]
    split
    · exact .inl x
    · next pc hpc =>
      rcases resume_saves w.client pc ans with ⟨h1, h2, h3, h4, _⟩ | ⟨rfl, h2, i, h3, _⟩
      · exact .inl (x.of h1 h3 h2 h4)
      · refine .inr ⟨k, pc, i, rfl, hpc, h2, ?_⟩
        show (w.client.tasks.set k _)[k]? = _
        rw [h3, List.getElem?_set_self (List.getElem?_eq_some_iff.mp hpc).1]

/-- C60, exactly: after `clear()`, and until `login()` is called, somebody is displayed as signed in at some time if and only if
a `login` that was running when `clear()` was called completes. -/
theorem C60_exact (E : Env) (K : SessionKeys) (before after : List Happening) (hl : .login ∉ after) :
    (∃ now later, after = now ++ later ∧ (worldAfter E K (before ++ .clear :: now)).client.ctx.identity ≠ none) ↔
    ∃ now k later pc i, after = now ++ .resume k .settled :: later ∧
      (worldAfter E K before).client.tasks[k]? = some pc ∧ RunningLogin pc = true ∧
      Completes E K (before ++ .clear :: now) k i := by
  constructor
  · rintro ⟨now, later, rfl, h⟩
    have key : ∀ now : List Happening, .login ∉ now →
        RunningAmong (worldAfter E K before).client.tasks (worldAfter E K (before ++ .clear :: now)) ∧
        (OutClient (worldAfter E K (before ++ .clear :: now)).client ∨
          ∃ now' k later pc i, now = now' ++ .resume k .settled :: later ∧
            (worldAfter E K before).client.tasks[k]? = some pc ∧ RunningLogin pc = true ∧
            Completes E K (before ++ .clear :: now') k i) := by
      intro now
      induction hn : now.length generalizing now with
      | zero =>
        intro _
        rw [List.length_eq_zero_iff] at hn; subst hn
        rw [worldAfter_snoc]
        exact ⟨fun k pc h hr => ⟨pc, h, hr⟩, .inl ⟨rfl, rfl, rfl, rfl⟩⟩
      | succ n ih =>
        rcases List.eq_nil_or_concat now with rfl | ⟨now, x, rfl⟩
        · simp at hn
        rw [List.concat_eq_append] at hn ⊢
        have hlen : now.length = n := by simpa using hn
        clear hn
        intro hn
        simp only [List.mem_append, List.mem_singleton, not_or] at hn
        obtain ⟨i1, i2⟩ := ih now hlen hn.1
        have e : before ++ .clear :: (now ++ [x]) = (before ++ .clear :: now) ++ [x] := by simp
        rw [e, worldAfter_snoc]
        refine ⟨runningAmong_step i1 x fun h => hn.2 h.symm, ?_⟩
        rcases i2 with i2 | ⟨now', k, later, pc, i, rfl, g⟩
        · rcases out_step (E := E) (K := K) i2 x fun h => hn.2 h.symm with g | ⟨k, pc, i, rfl, g1, g2, g3⟩
          · exact .inl g
          · obtain ⟨pc0, f1, f2⟩ := i1 k pc g1 g2
            refine .inr ⟨now, k, [], pc0, i, rfl, f1, f2, ?_, ?_⟩
            · rw [g1]; rintro h; cases h; cases g2
            · rw [worldAfter_snoc]; exact g3
        · exact .inr ⟨now', k, later ++ [x], pc, i, by simp, g⟩
    rcases (key now fun h => hl (List.mem_append_left _ h)).2 with g | ⟨now', k, l', pc, i, rfl, g⟩
    · exact absurd g.identity h
    · exact ⟨now', k, l' ++ later, pc, i, by simp, g⟩
  · rintro ⟨now, k, later, pc, i, rfl, g1, g2, g3, g4⟩
    refine ⟨now ++ [.resume k .settled], later, by simp, ?_⟩
    have e : before ++ .clear :: (now ++ [.resume k .settled]) = (before ++ .clear :: now) ++ [.resume k .settled] := by simp
    rw [e]
    rw [worldAfter_snoc] at g4 ⊢
    simp only [World.step] at g4 ⊢
    split at g4
    · next hn => rw [hn] at g4; cases g4
    · next pc' hpc =>
      have hlt := (List.getElem?_eq_some_iff.mp hpc).1
      rw [hpc] at g3
      have g4 : (((worldAfter E K (before ++ .clear :: now)).client.tasks).set k _)[k]? = some (.loggedIn i) := g4
      rw [List.getElem?_set_self hlt] at g4
      have g4 := Option.some.inj g4
      rcases resume_saves (worldAfter E K (before ++ .clear :: now)).client pc' .settled with ⟨_, _, _, _, h⟩ | ⟨_, _, i', _, h⟩
      · exact absurd (congrArg some (h i g4)) g3
      · show ((worldAfter E K (before ++ .clear :: now)).client.resume pc' .settled).1.ctx.identity ≠ none
        rw [h]; simp

/-- Non-vacuity: `clear()` while the wallet is asked to sign; the login completes later. -/
example : (∃ pc, (worldAfter Toy.env Ex.keys (Ex.page ++ Ex.fetches 0 Ex.alice 5)).client.tasks[0]? = some pc ∧ RunningLogin pc = true) ∧
    .login ∉ Ex.finishes 0 Ex.aliceSig 100 ∧
    (worldAfter Toy.env Ex.keys ((Ex.page ++ Ex.fetches 0 Ex.alice 5) ++ .clear :: Ex.finishes 0 Ex.aliceSig 100)).client.ctx.identity
      ≠ none := by
  refine ⟨⟨_, rfl, by decide +kernel⟩, by simp [Ex.finishes], by decide +kernel⟩

/-! ### C61 and C62 -/

/-- C61, for apps that wait: if the app never calls `login()` while one is running, or after a success without `clear()`, at most one
`login` is running at any time.  Missing from C61: that proviso. -/
theorem C61_app_waits_partial (E : Env) (K : SessionKeys) (hs : List Happening) (h : AppWaits E K hs) :
    runningLogins (worldAfter E K hs) ≤ 1 :=
  countP_le_one _ _ fun i j x y h1 h2 h3 h4 => (waitsOk [] hs h).one i j x y h1 h2 h3 h4

/-- C62, for apps that wait: the page sends no more logins with a nonce than times it was issued, so every login uses a
message of its own.  Missing from C62: the proviso. -/
theorem C62_app_waits_partial (E : Env) (K : SessionKeys) (hs : List Happening) (h : AppWaits E K hs) (nonce : Bytes) :
    loginsWith nonce (worldAfter E K hs).log ≤ timesIssued E nonce (worldAfter E K hs).calls := by
  have := (waitsOk nonce hs h).count
  omega

/-- Decides `AppWaits`. -/
def waitsFrom (E : Env) (K : SessionKeys) : World → List Happening → Bool
  | _, [] => true
  | w, x :: hs => (match x with
      | .login => w.client.tasks.all (fun pc => !RunningLogin pc) && decide (w.client.ctx.loginStatus ≠ .success)
      | _ => true) && waitsFrom E K (w.step E K x) hs

theorem appWaits_of {E : Env} {K : SessionKeys} {hs : List Happening} (h : waitsFrom E K .initial hs = true) : AppWaits E K hs := by
  have key : ∀ (before : List Happening) (w : World) (after : List Happening),
      waitsFrom E K w (before ++ .login :: after) = true →
      (∀ pc ∈ (w.run E K before).client.tasks, RunningLogin pc = false) ∧ (w.run E K before).client.ctx.loginStatus ≠ .success := by
    intro before
    induction before with
    | nil =>
      intro w after h
      simp only [List.nil_append, waitsFrom, Bool.and_eq_true, List.all_eq_true, Bool.not_eq_true', decide_eq_true_eq] at h
      exact h.1
    | cons x before ih =>
      intro w after h
      simp only [List.cons_append, waitsFrom, Bool.and_eq_true] at h
      exact ih (w.step E K x) after h.2
  intro before after hs'
  subst hs'
  exact key before .initial after h

/-- The user refuses to sign, then signs in, signs out, and signs in again. -/
def Ex.waits : List Happening :=
  Ex.refuses ++ Ex.fetches 1 Ex.alice 20 ++ Ex.finishes 1 Ex.aliceSig 100 ++ [.clear] ++
    Ex.fetches 2 Ex.alice 200 ++ Ex.finishes 2 Ex.aliceSig 300

/-- Non-vacuity: an app that waits, whose page sends two logins, with two messages. -/
theorem Ex.waits_appWaits : AppWaits Toy.env Ex.keys Ex.waits := appWaits_of (by decide +kernel)

example : (worldAfter Toy.env Ex.keys Ex.waits).log.countP (fun | .login .. => true | _ => false) = 2 ∧
    loginsWith (Ex.nonce 4) (worldAfter Toy.env Ex.keys Ex.waits).log = 1 ∧
    loginsWith (Ex.nonce 5) (worldAfter Toy.env Ex.keys Ex.waits).log = 1 ∧
    (worldAfter Toy.env Ex.keys Ex.waits).client.ctx.identity ≠ none := by
  decide +kernel

end Siwe
