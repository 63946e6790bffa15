import Verif.Lemmas.ClientRuns
import Verif.Lemmas.Given
import Verif.Props.EndToEnd
/- Properties C55-C64: the browser client. -/
namespace Siwe
open Spec

/-! Example worlds: the canister is installed and seeded, the page has a wallet. -/

def Ex.keys : SessionKeys := fun n => [48, UInt8.ofNat n]
def Ex.page : List Happening := [.other 1 (.install Ex.input), .other 2 (.rngSeeded [1, 2, 3]), .setWallet 7]

/-- `prepareLogin()`, the page's `i`-th call, with a wallet that offers `a`, at time `t`. -/
def Ex.pagePrepares (i : Nat) (a : Bytes) (t : UInt64) : List Happening :=
  [.prepareLogin, .resume i .settled, .resume i (.addresses [a]), .resume i .settled, .execute i t none, .resume i .settled]

/-- `login()`, the page's `i`-th call, fetching a message. -/
def Ex.fetches (i : Nat) (a : Bytes) (t : UInt64) : List Happening :=
  [.login, .resume i .settled, .resume i (.addresses [a]), .resume i .settled, .resume i (.addresses [a]), .resume i .settled,
    .execute i t none, .resume i .settled, .resume i .settled]

/-- ... and logging in with the signature. -/
def Ex.finishes (i : Nat) (sig : Bytes) (t : UInt64) : List Happening :=
  [.resume i (.signature sig), .resume i .settled, .execute i t none, .resume i .settled, .execute i (t + 10) (some [9]),
    .resume i .settled]

def Ex.signIn : List Happening := Ex.page ++ Ex.fetches 0 Ex.alice 5 ++ Ex.finishes 0 Ex.aliceSig 100

/-- The signed-in user, as displayed. -/
def Ex.identity : Identity :=
  ⟨0, ⟨⟨[48, 0], 1800000000005, none⟩, (match (worldAfter Toy.env Ex.keys Ex.signIn).client.ctx.delegationChain with
    | some c => c.signature | none => []), (match (worldAfter Toy.env Ex.keys Ex.signIn).client.ctx.delegationChain with
    | some c => c.publicKey | none => [])⟩⟩

theorem Ex.signIn_identity : (worldAfter Toy.env Ex.keys Ex.signIn).client.ctx.identity = some Ex.identity := by decide +kernel

/-! ### C55 -/

/-- C55: whatever the page asks a wallet to sign is a text that the canister issued in answer to a request, and the page had
requested a message for that address.  (Applied to the moment of the request: the world is then the one right after it.) -/
theorem C55_only_issued_texts (E : Env) (K : SessionKeys) (hs : List Happening) (wallet : Wallet) (account text : Bytes)
    (h : Output.sign wallet account text ∈ (worldAfter E K hs).log) :
    ∃ addr nonce, Output.prepareLogin addr ∈ (worldAfter E K hs).log ∧
      ∃ e ∈ trace E (worldAfter E K hs).calls, e.Issues addr nonce text := by
  obtain ⟨p, ⟨addr, h1, e, he, h2⟩, rfl⟩ := (worldOk E K hs).out _ h
  exact ⟨addr, p.nonce, h1, e, he, h2⟩

/-- C55, proved part: the signing account is the one the text was issued for, if the wallet offers the same account first every
time it is asked.  Missing: that proviso, which the code needs (see below). -/
theorem C55_own_message_partial (E : Env) (K : SessionKeys) (hs : List Happening) (wallet : Wallet) (account text a : Bytes)
    (h : Output.sign wallet account text ∈ (worldAfter E K hs).log)
    (ha : ∀ i x l, Happening.resume i (.addresses (x :: l)) ∈ hs → x = a) :
    account = a ∧ ∃ nonce, ∃ e ∈ trace E (worldAfter E K hs).calls, e.Issues account nonce text := by
  have g := onlyOk (E := E) (K := K) (P := (· = a)) hs ha
  have h1 : account = a := g.log _ h
  obtain ⟨addr, nonce, h2, e, he, h3⟩ := C55_only_issued_texts E K hs wallet account text h
  have h4 : addr = a := g.log _ h2
  subst h1 h4
  exact ⟨rfl, nonce, e, he, h3⟩

/-- Non-vacuity: the example sign-in asks for one signature, and the wallet offers one account. -/
example : (∃ text, Output.sign 7 Ex.alice text ∈ (worldAfter Toy.env Ex.keys Ex.signIn).log) ∧
    ∀ i x l, Happening.resume i (.addresses (x :: l)) ∈ Ex.signIn → x = Ex.alice := by
  constructor
  · have h : (worldAfter Toy.env Ex.keys Ex.signIn).log.any (fun | .sign 7 a _ => a == Ex.alice | _ => false) = true := by
      decide +kernel
    obtain ⟨o, ho, h⟩ := List.any_eq_true.mp h
    split at h
    · next a t =>
      simp only [beq_iff_eq] at h
      subst h
      exact ⟨t, ho⟩
    · cases h
  · intro i x l h
    simp only [Ex.signIn, Ex.page, Ex.fetches, Ex.finishes, List.cons_append, List.nil_append, List.mem_cons,
      List.not_mem_nil, reduceCtorEq, false_or, or_false, Happening.resume.injEq, Answer.addresses.injEq, List.cons.injEq,
      and_false] at h
    rcases h with h | h <;> exact h.2.1

/-- What the second half of C55 asks for. -/
def SignsOwnMessages (E : Env) (K : SessionKeys) : Prop :=
  ∀ hs wallet account text, Output.sign wallet account text ∈ (worldAfter E K hs).log →
    ∃ nonce, ∃ e ∈ trace E (worldAfter E K hs).calls, e.Issues account nonce text

/-- `prepareLogin()` for one account; then the user switches accounts, and `login()` asks the other account to sign. -/
def Ex.switched : List Happening := Ex.page ++ Ex.pagePrepares 0 Ex.alice 5 ++
  [.login, .resume 1 .settled, .resume 1 (.addresses [Ex.bob])]

/-- The canister's calls in that world, and the signature asked for. -/
theorem Ex.switched_calls : ((worldAfter Toy.env Ex.keys Ex.switched).calls.map (·.2)).all
    (fun | .prepareLogin a => a == Ex.alice | _ => true) = true ∧
    (worldAfter Toy.env Ex.keys Ex.switched).log.any (fun | .sign 7 a _ => a == Ex.bob | _ => false) = true := by
  decide +kernel

/-- C55 fails of the code: with a message prepared for one account, another account is asked to sign it.  (The canister refuses
the login that follows: C15.) -/
theorem C55_not_own_message : ¬SignsOwnMessages Toy.env Ex.keys := by
  intro H
  obtain ⟨h1, h2⟩ := Ex.switched_calls
  obtain ⟨o, ho, h⟩ := List.any_eq_true.mp h2
  split at h
  · next a t =>
    simp only [beq_iff_eq] at h
    subst h
    obtain ⟨nonce, e, he, hc, _⟩ := H _ _ _ _ ho
    have : ∀ (st : State Toy.env) (l : History) (e : Event), e ∈ traceFrom st l → e.call ∈ l.map (·.2) := by
      intro st l
      induction l generalizing st with
      | nil => intro e he; simp [traceFrom] at he
      | cons x l ih =>
        intro e he
        simp only [traceFrom, List.mem_cons] at he
        rcases he with rfl | he
        · exact List.mem_cons_self
        · exact List.mem_cons_of_mem _ (ih _ e he)
    have := List.all_eq_true.mp h1 _ (this _ _ e he)
    rw [hc] at this
    simp only [beq_iff_eq] at this
    exact absurd this (by decide +kernel)
  · cases h

/-! ### C56 -/

/-- C56: no two login calls of a page, across reloads, carry the public key of the same session identity (the session
identities having different public keys). -/
theorem C56_fresh_session_keys (E : Env) (K : SessionKeys) (hK : Function.Injective K) (hs : List Happening) :
    ((sentSessions (worldAfter E K hs).log).map K).Nodup :=
  (sessionsOk E K hs).nodup.map hK

/-- Two sign-ins, signing out in between. -/
def Ex.again : List Happening :=
  Ex.signIn ++ [.clear] ++ Ex.fetches 1 Ex.alice 300 ++ Ex.finishes 1 Ex.aliceSig 400

/-- Non-vacuity: two logins send two keys. -/
example : sentSessions (worldAfter Toy.env Ex.keys Ex.again).log = [0, 1] ∧
    (worldAfter Toy.env Ex.keys Ex.again).client.ctx.loginStatus = .success ∧
    Function.Injective (fun n : Nat => List.replicate n (48 : UInt8)) := by
  refine ⟨by decide +kernel, by decide +kernel, ?_⟩
  intro m n h
  have := congrArg List.length h
  simpa using this

/-! ### C57 -/

/-- What an obtained identity rests on. -/
theorem Spec.Obtained.explained {E : Env} {K : SessionKeys} {calls : History} {log : List Output} {account : Bytes} {i : Identity}
    (h : Obtained E K calls log account i) :
    ∃ sig nonce d e, Output.login sig account i.session nonce ∈ log ∧
      e ∈ trace E calls ∧ e.call = .login sig account (K i.session) nonce ∧ e.reply = .loggedIn d ∧
      i.chain.publicKey = d.userCanisterPubkey ∧ i.chain.delegation.pubkey = K i.session ∧
      i.chain.delegation.expiration = d.expiration ∧
      ∃ e' ∈ trace E calls, ∃ addr' nonce' text, e'.Issues addr' nonce' text ∧
        ((addr' = account ∧ nonce' = nonce) ∨ KeyCollision E account nonce addr' nonce') ∧ Signs E sig text account := by
  obtain ⟨before, after, t, cert, d, sd, g1, g2, g3, sig, p, g4, g5, e, he, g6, g7⟩ := h
  obtain ⟨b, a, hb⟩ := List.append_of_mem he
  obtain ⟨hb', ha, now, g8, g9⟩ : ∃ hb' ha now, calls = hb' ++ (now, Op.login sig account (K i.session) p.nonce) :: ha ∧
      (step (stateAfter E hb') now (.login sig account (K i.session) p.nonce)).2 = .loggedIn d := by
    obtain ⟨h1, h2, q1, q2, q3, q4⟩ := traceFrom_split hb
    refine ⟨h1, h2, e.time, ?_, ?_⟩
    · rw [q1, g6]
    · rw [← g6, ← g7]; exact q3.symm
  obtain ⟨b', e', a', addr', nonce', text, s', p', q1, q2, q3, q4, q5, q6, q7⟩ :=
    C15_login_needs_a_signed_fresh_message E hb' now sig account (K i.session) p.nonce d g9
  have hdr := C52_decision E before t cert account (K i.session) d.expiration
  rw [g2] at hdr
  have hdel : sd.delegation.pubkey = K i.session ∧ sd.delegation.expiration = d.expiration := by
    cases hdr with
    | success _ s' sh dh w _ k1 k2 k3 k4 k5 k6 k7 k8 k9 k10 k11 => rw [k10]; exact ⟨rfl, rfl⟩
  refine ⟨sig, p.nonce, d, e, g5, he, g6, g7, ?_, ?_, ?_, e', ?_, addr', nonce', text, q3, q4, q6⟩
  · rw [g3]
  · rw [g3]; exact hdel.1
  · rw [g3]; exact hdel.2
  · rw [g8]
    apply mem_trace_append
    rw [q1]; simp

/-- C57: an identity is displayed only together with an account, after the canister accepted a login of that account with the
session's own public key and a signature by that account of a text the canister had issued; its chain is the canister's:
a delegation to that key with the expiration of the login, under the public key of the login. -/
theorem C57_identity_provenance (E : Env) (K : SessionKeys) (hs : List Happening) (i : Identity)
    (h : (worldAfter E K hs).client.ctx.identity = some i) :
    ∃ account sig nonce d e, (worldAfter E K hs).client.ctx.identityAddress = some account ∧
      (worldAfter E K hs).client.ctx.delegationChain = some i.chain ∧
      Output.login sig account i.session nonce ∈ (worldAfter E K hs).log ∧
      e ∈ trace E (worldAfter E K hs).calls ∧ e.call = .login sig account (K i.session) nonce ∧ e.reply = .loggedIn d ∧
      i.chain.publicKey = d.userCanisterPubkey ∧ i.chain.delegation.pubkey = K i.session ∧
      i.chain.delegation.expiration = d.expiration ∧
      ∃ e' ∈ trace E (worldAfter E K hs).calls, ∃ addr' nonce' text, e'.Issues addr' nonce' text ∧
        ((addr' = account ∧ nonce' = nonce) ∨ KeyCollision E account nonce addr' nonce') ∧ Signs E sig text account := by
  have x := (worldOk E K hs).ctx
  generalize worldAfter E K hs = w at h x ⊢
  have h' := x.identity
  rw [h] at h'
  obtain ⟨s, hs', hi⟩ := Option.map_eq_some_iff.mp h'.symm
  subst hi
  obtain ⟨sig, nonce, d, e, g⟩ := (x.stored s hs').explained
  refine ⟨s.address, sig, nonce, d, e, ?_, ?_, g⟩
  · rw [x.address, hs']; rfl
  · rw [x.chain, hs']; rfl

/-- Non-vacuity: the example's identity. -/
example : (worldAfter Toy.env Ex.keys Ex.signIn).client.ctx.identity = some Ex.identity ∧
    (worldAfter Toy.env Ex.keys Ex.signIn).client.ctx.identityAddress = some Ex.alice ∧
    (sentSessions (worldAfter Toy.env Ex.keys Ex.signIn).log) = [0] := by decide +kernel

/-! ### C58 -/

/-- C58, proved part: there is a login of the displayed account with the session's key that the canister accepted, and the displayed
delegation was the answer of a replica that had executed the calls `calls`, all of them up to then unless it lagged behind.  If these
include the login, as they do without lag, then the IC's check accepted the chain at that moment, provided the module was not replaced
between the login and that answer and no login refused for its session key had pruned signatures.  Missing: the last proviso, which C29
shows the code needs. -/
theorem C58_identity_verifies_partial (E : Env) (K : SessionKeys) (hs : List Happening) (i : Identity)
    (h : (worldAfter E K hs).client.ctx.identity = some i) :
    ∃ calls later t cert account d,
      (worldAfter E K hs).client.ctx.identityAddress = some account ∧
      (worldAfter E K hs).calls = calls ++ later ∧
      (step (stateAfter E calls) t (.getDelegation (some cert) account (K i.session) d.expiration)).2 =
        .delegation ⟨i.chain.delegation, i.chain.signature⟩ ∧
      (∃ e ∈ trace E (worldAfter E K hs).calls, ∃ nonce, e.LogsIn account (K i.session) nonce d) ∧
      ((∀ j t c k, Happening.lagging j t c k ∉ hs) →
        (∃ later', later = (t, Op.getDelegation (some cert) account (K i.session) d.expiration) :: later') ∧
        ∃ e ∈ trace E calls, ∃ nonce, e.LogsIn account (K i.session) nonce d) ∧
      ∀ b e a nonce, trace E calls = b ++ e :: a → e.LogsIn account (K i.session) nonce d → cert.length < 2 ^ 64 →
        SameModule a → RefusalsHarmless (trace E calls) →
        Verifies E E.canisterId (stateAfter E calls).certifiedData cert i.chain.publicKey
          ⟨i.chain.delegation, i.chain.signature⟩ := by
  obtain ⟨before, later, t, cert, account, d, sd, g1, g2, g3, g4, g5, g6⟩ := displayed_given h
  have hdr := C52_decision E before t cert account (K i.session) d.expiration
  rw [g3] at hdr
  have hsd : (⟨i.chain.delegation, i.chain.signature⟩ : SignedDelegation) = sd := by rw [g4]; rfl
  cases hdr with
  | success c _ _ _ _ _ _ _ _ _ _ _ _ _ _ _ _ =>
    refine ⟨before, later, t, c, account, d, g1, g2, by rw [hsd]; exact g3, g5, fun hn => ?_, fun b e a nonce hb hl hc hm hh => ?_⟩
    · obtain ⟨l', k1, k2⟩ := g6 hn
      exact ⟨⟨l', k1⟩, k2⟩
    · rw [hsd, g4]
      exact C29_verifies_partial E before t c account (K i.session) d.expiration sd b a e _ _ d g3 hc hb hm hl hh

/-- Non-vacuity: the example's identity meets the provisos. -/
example : (worldAfter Toy.env Ex.keys Ex.signIn).client.ctx.identity = some Ex.identity ∧
    RefusalsHarmless (trace Toy.env (worldAfter Toy.env Ex.keys Ex.signIn).calls) ∧
    (worldAfter Toy.env Ex.keys Ex.signIn).calls.map (·.1) = [1, 2, 5, 100, 110] :=
  ⟨Ex.signIn_identity, refusalsHarmless_of_none (by decide +kernel), by decide +kernel⟩

/-- What C58 asks for: whenever the canister answered with the displayed identity's delegation, the IC's check would have accepted the
chain. -/
def IdentityVerifies (E : Env) (K : SessionKeys) : Prop :=
  ∀ (hs : List Happening) (i : Identity) (calls later : History) (t : UInt64) (cert account : Bytes) (expiration : UInt64),
    (worldAfter E K hs).client.ctx.identity = some i →
    (worldAfter E K hs).calls = calls ++ (t, Op.getDelegation (some cert) account (K i.session) expiration) :: later →
    (step (stateAfter E calls) t (.getDelegation (some cert) account (K i.session) expiration)).2 =
      .delegation ⟨i.chain.delegation, i.chain.signature⟩ →
    Verifies E E.canisterId (stateAfter E calls).certifiedData cert i.chain.publicKey ⟨i.chain.delegation, i.chain.signature⟩

/-- Another user logs in; the page's user logs in 30 s later; after the other's signature has expired, the other's next login is refused
for its session key; then the page fetches its delegation. -/
def Ex.staleSignIn : List Happening :=
  [.other 1 (.install Ex.input), .other 2 (.rngSeeded [1, 2, 3]), .setWallet 7, .other 5 (.prepareLogin Ex.alice)] ++
  Ex.fetches 0 Ex.bob 6 ++
  [.other 7 (.prepareLogin Ex.alice), .other 100 (.login Ex.aliceSig Ex.alice Ex.key (Ex.nonce 3)),
   .resume 0 (.signature Ex.bobSig), .resume 0 .settled, .execute 0 30000000000 none, .resume 0 .settled,
   .other 60000000101 (.login Ex.aliceSig Ex.alice [1] (Ex.nonce 5)),
   .execute 0 60000000200 (some [9]), .resume 0 .settled]

/-- C58 fails of the code: the page displays an identity whose chain the IC rejects. -/
theorem C58_not_always : ¬IdentityVerifies Toy.env Ex.keys := by
  intro H
  have h1 : ∃ i, (worldAfter Toy.env Ex.keys Ex.staleSignIn).client.ctx.identity = some i :=
    Option.ne_none_iff_exists'.mp (by decide +kernel)
  obtain ⟨i, hi⟩ := h1
  have hd : ((worldAfter Toy.env Ex.keys Ex.staleSignIn).client.ctx.identity.map fun i => (Ex.keys i.session,
      (step (stateAfter Toy.env ((worldAfter Toy.env Ex.keys Ex.staleSignIn).calls.take 8)) 60000000200
        (.getDelegation (some [9]) Ex.bob (Ex.keys i.session) 1800000000006)).2 == .delegation ⟨i.chain.delegation, i.chain.signature⟩,
      (worldAfter Toy.env Ex.keys Ex.staleSignIn).calls.drop 8 ==
        [(60000000200, Op.getDelegation (some [9]) Ex.bob (Ex.keys i.session) 1800000000006)],
      match readSignature i.chain.signature with
      | some (_, tree) => (digest Toy.env tree).bytes ==
        (stateAfter Toy.env ((worldAfter Toy.env Ex.keys Ex.staleSignIn).calls.take 8)).certifiedData
      | none => true)) = some ([48, 0], true, true, false) := by decide +kernel
  rw [hi] at hd
  simp only [Option.map_some, Option.some.injEq, Prod.mk.injEq, beq_iff_eq] at hd
  obtain ⟨_, h2, h3, h4⟩ := hd
  have h5 := List.take_append_drop 8 (worldAfter Toy.env Ex.keys Ex.staleSignIn).calls
  rw [h3] at h5
  obtain ⟨seed, tree, dh, _, g1, _, g2, _⟩ := H Ex.staleSignIn i _ [] _ _ _ _ hi h5.symm h2
  rw [g1] at h4
  simp only [beq_eq_false_iff_ne] at h4
  exact h4 g2

/-! ### C59 -/

/-- C59: reloading the page changes nothing about who is displayed as signed in. -/
theorem C59_survives_reload (E : Env) (K : SessionKeys) (hs : List Happening) :
    (worldAfter E K (hs ++ [.load])).client.ctx.identity = (worldAfter E K hs).client.ctx.identity ∧
    (worldAfter E K (hs ++ [.load])).client.ctx.identityAddress = (worldAfter E K hs).client.ctx.identityAddress ∧
    (worldAfter E K (hs ++ [.load])).client.ctx.delegationChain = (worldAfter E K hs).client.ctx.delegationChain ∧
    (worldAfter E K (hs ++ [.load])).client.ctx.isInitializing = false := by
  have x := (worldOk E K hs).ctx
  have e : worldAfter E K (hs ++ [.load]) = (worldAfter E K hs).step E K .load := by
    simp [worldAfter, World.run]
  rw [e, x.identity, x.address, x.chain]
  generalize worldAfter E K hs = w
  cases hw : w.client.storage <;>
    simp [World.step, Client.load, Client.construct, hw, Context.initial]

/-- Non-vacuity: reloading after the example sign-in. -/
example : (worldAfter Toy.env Ex.keys (Ex.signIn ++ [.load])).client.ctx.identity = some Ex.identity ∧
    (worldAfter Toy.env Ex.keys (Ex.signIn ++ [.load])).client.ctx.loginStatus = .idle := by decide +kernel

/-! ### C60 -/

/-- C60, proved part: if `clear()` is called while no `login` is running, then whatever happens later, reloading included, nobody
is displayed as signed in and nothing is stored, until `login()` is called.  Missing: the proviso, which the code needs (see
below). -/
theorem C60_signed_out_partial (E : Env) (K : SessionKeys) (before after : List Happening)
    (hr : ∀ pc ∈ (worldAfter E K before).client.tasks, RunningLogin pc = false) (hl : .login ∉ after) :
    (worldAfter E K (before ++ .clear :: after)).client.ctx.identity = none ∧
    (worldAfter E K (before ++ .clear :: after)).client.ctx.identityAddress = none ∧
    (worldAfter E K (before ++ .clear :: after)).client.ctx.delegationChain = none ∧
    (worldAfter E K (before ++ .clear :: after)).client.storage = none := by
  have e : worldAfter E K (before ++ .clear :: after) = ((worldAfter E K before).step E K .clear).run E K after := by
    simp [worldAfter, World.run]
  rw [e]
  have := (outOk_run (E := E) (K := K) (w := (worldAfter E K before).step E K .clear) ⟨⟨rfl, rfl, rfl, rfl⟩, hr⟩ after hl).client
  exact ⟨this.identity, this.address, this.chain, this.storage⟩

/-- Non-vacuity: signing out after the example sign-in, preparing the next one and reloading. -/
example : (∀ pc ∈ (worldAfter Toy.env Ex.keys Ex.signIn).client.tasks, RunningLogin pc = false) ∧
    (worldAfter Toy.env Ex.keys Ex.signIn).client.ctx.identity ≠ none ∧
    (worldAfter Toy.env Ex.keys (Ex.signIn ++ .clear :: (Ex.pagePrepares 1 Ex.alice 300 ++ [.load]))).client.ctx.identity = none := by
  decide +kernel

/-- What C60 asks for. -/
def SignedOutStays (E : Env) (K : SessionKeys) : Prop :=
  ∀ before after, .login ∉ after → (worldAfter E K (before ++ .clear :: after)).client.ctx.identity = none

/-- C60 fails of the code: a `login` that is running when `clear()` is called signs the user in afterwards. -/
theorem C60_not_always : ¬SignedOutStays Toy.env Ex.keys := by
  intro H
  have := H (Ex.page ++ Ex.fetches 0 Ex.alice 5) (Ex.finishes 0 Ex.aliceSig 100)
    (by simp [Ex.finishes])
  exact absurd this (by decide +kernel)

/-! ### C61 -/

/-- C61, proved part: once the state says that a login or a preparation is in progress, `login()` is rejected without asking
anything of the wallet or the canister; the calls in progress, the stored identity and the displayed identity are untouched.
Missing: between the start of a `login()` and the wallet's answer the state does not say so yet (see below). -/
theorem C61_second_login_rejected_partial (E : Env) (K : SessionKeys) (w : World)
    (h : w.client.ctx.loginStatus = .loggingIn ∨ w.client.ctx.prepareLoginStatus = .preparing) :
    ∃ e, (w.step E K .login).client.tasks = w.client.tasks ++ [.failed e] ∧ (e = .isLoggingIn ∨ e = .isPreparing) ∧
      (w.step E K .login).log = w.log ∧ (w.step E K .login).calls = w.calls ∧
      (w.step E K .login).client.storage = w.client.storage ∧
      (w.step E K .login).client.ctx.identity = w.client.ctx.identity ∧
      (w.step E K .login).client.ctx.loginError = some e := by
  simp only [World.step, Client.startLogin]
  split
  · exact ⟨.isPreparing, rfl, .inr rfl, trivial, trivial, rfl, rfl, rfl⟩
  · next hp =>
    rcases h with h | h
    · rw [if_pos h]
      exact ⟨.isLoggingIn, rfl, .inl rfl, trivial, trivial, rfl, rfl, rfl⟩
    · exact absurd h hp

/-- Non-vacuity: while the signature is being asked for, and while the message is being fetched by `prepareLogin()`. -/
example : (worldAfter Toy.env Ex.keys (Ex.page ++ Ex.fetches 0 Ex.alice 5)).client.ctx.loginStatus = .loggingIn ∧
    (worldAfter Toy.env Ex.keys (Ex.page ++ (Ex.pagePrepares 0 Ex.alice 5).take 4)).client.ctx.prepareLoginStatus = .preparing := by
  decide +kernel

/-- How many `login` calls are running. -/
def runningLogins (w : World) : Nat := w.client.tasks.countP RunningLogin

/-- What C61 asks for. -/
def OneLoginAtATime (E : Env) (K : SessionKeys) : Prop := ∀ hs, runningLogins (worldAfter E K hs) ≤ 1

/-- C61 fails of the code: a second `login()` before the wallet has answered the first one's `getAddresses` passes the check, and
the wallet is asked for two signatures. -/
theorem C61_not_always : ¬OneLoginAtATime Toy.env Ex.keys := by
  intro H
  have := H (Ex.page ++ Ex.pagePrepares 0 Ex.alice 5 ++ [.login, .login, .resume 1 .settled, .resume 2 .settled,
    .resume 1 (.addresses [Ex.alice]), .resume 2 (.addresses [Ex.alice])])
  exact absurd this (by decide +kernel)

/-- Likewise, a rejected `login()` resets the state to "error", so the next one passes the check while the first is running. -/
theorem C61_rejected_login_unlocks : ∃ hs,
    runningLogins (worldAfter Toy.env Ex.keys hs) = 1 ∧
    (worldAfter Toy.env Ex.keys hs).client.ctx.loginStatus = .loggingIn ∧
    runningLogins (worldAfter Toy.env Ex.keys (hs ++ [.login])) = 1 ∧
    runningLogins (worldAfter Toy.env Ex.keys (hs ++ [.login, .login])) = 2 :=
  ⟨Ex.page ++ Ex.fetches 0 Ex.alice 5, by decide +kernel⟩

/-! ### C62 -/

/-- C62, proved part: a `login` that fails after it was started leaves the reason in the state and forgets the message it used.
Missing: a successful `login` does not (see below). -/
theorem C62_failure_forgets_message_partial (E : Env) (K : SessionKeys) (w : World) (x : Happening) (i : Nat) (pc : Pc) (e : ClientError)
    (h1 : w.client.tasks[i]? = some pc) (h2 : RunningLogin pc = true)
    (h3 : (w.step E K x).client.tasks[i]? = some (.failed e)) :
    (w.step E K x).client.ctx.prepareLoginOkResponse = none ∧ (w.step E K x).client.ctx.loginStatus = .error ∧
    (w.step E K x).client.ctx.loginError = some e := by
  have no : w.client.tasks[i]? ≠ some (.failed e) := by
    rw [h1]; rintro h; cases h; cases h2
  have joined : ∀ r : Client × Pc, (w.client.start r).tasks[i]? ≠ some (.failed e) := by
    intro r
    have hi : i < w.client.tasks.length := (List.getElem?_eq_some_iff.mp h1).1
    simp only [Client.start]
    rw [List.getElem?_append_left hi]
    exact no
  cases x with
  | load => simp [World.step, Client.load, Client.construct] at h3
  | create => exact absurd ((create_keeps w.client).1 ▸ h3) no
  | setWallet y => exact absurd h3 no
  | inject y => exact absurd h3 no
  | clear => exact absurd h3 no
  | other now op => exact absurd h3 no
  | prepareLogin => exact absurd h3 (joined _)
  | login => exact absurd h3 (joined _)
  | execute j now cert =>
    simp only [World.step] at h3 ⊢
    split at h3
    · exact absurd h3 no
    · next pc' hpc' =>
      split at h3
      · exact absurd h3 no
      · next op hop =>
        rcases getElem?_set_cases h3 with ⟨_, h⟩ | ⟨_, h⟩
        · cases pc' <;> simp [Pc.request] at hop <;> cases h
        · exact absurd h no
  | lagging j now cert seen =>
    simp only [World.step] at h3 ⊢
    split at h3
    · exact absurd h3 no
    · next pc' hpc' =>
      split at h3
      · exact absurd h3 no
      · next op hop =>
        rcases getElem?_set_cases h3 with ⟨_, h⟩ | ⟨_, h⟩
        · cases pc' <;> simp [Pc.query] at hop <;> cases h
        · exact absurd h no
  | resume j a =>
    simp only [World.step] at h3 ⊢
    split at h3
    · exact absurd h3 no
    · next pc' hpc' =>
      rcases getElem?_set_cases h3 with ⟨rfl, h⟩ | ⟨_, h⟩
      · rw [h1] at hpc'
        cases hpc'
        exact resume_failed h2 h.symm
      · exact absurd h no

theorem Spec.HasWallet.setup {c : Client} {x : Wallet} (h : HasWallet c x) :
    c.setupWalletClient = ({ c with wallet := some x }, true) := by
  unfold Client.setupWalletClient
  rcases h with h | ⟨h, h'⟩
  · rw [h]; cases c; cases h; rfl
  · rw [h, h']

/-- C62, proved part: a `login()` that finds no message fetches a new one before it asks for a signature: when the wallet has answered, it is
starting a preparation and has asked for nothing. -/
theorem C62_fetches_new_message_partial (E : Env) (K : SessionKeys) (w : World) (wallet : Wallet) (a : Bytes) (l : List Bytes)
    (h1 : w.client.ctx.prepareLoginOkResponse = none) (h2 : w.client.ctx.prepareLoginStatus ≠ .preparing)
    (h3 : w.client.ctx.loginStatus ≠ .loggingIn) (h4 : HasWallet w.client wallet) (ha : a ≠ []) :
    (w.run E K [.login, .resume w.client.tasks.length .settled, .resume w.client.tasks.length (.addresses (a :: l))]).log = w.log ∧
    (w.run E K [.login, .resume w.client.tasks.length .settled,
      .resume w.client.tasks.length (.addresses (a :: l))]).client.tasks[w.client.tasks.length]? =
      some (.prepWallet (some a) true) := by
  simp only [World.run, List.foldl_cons, List.foldl_nil, World.step, Client.startLogin, if_neg h2, if_neg h3, Client.start,
    List.getElem?_append_right (Nat.le_refl _), Nat.sub_self, List.getElem?_cons_zero, Client.resume,
    List.getElem?_set_self (show w.client.tasks.length < (w.client.tasks ++ [Pc.loginWallet true]).length by simp),
    Client.loginWith, if_neg ha, Client.loggingIn, h1, Client.startPrepareLogin, List.append_nil, h4.setup]
  simp [Client.setupWalletClient]

/-- Non-vacuity: the user refuses to sign; the message is gone, and the next `login()` fetches another and succeeds. -/
def Ex.refuses : List Happening := Ex.page ++ Ex.fetches 0 Ex.alice 5 ++ [.resume 0 .rejected]

example : (worldAfter Toy.env Ex.keys Ex.refuses).client.tasks[0]? = some (.failed .wallet) ∧
    (worldAfter Toy.env Ex.keys Ex.refuses).client.ctx.prepareLoginOkResponse = none ∧
    (worldAfter Toy.env Ex.keys Ex.refuses).client.ctx.prepareLoginStatus ≠ .preparing ∧
    (worldAfter Toy.env Ex.keys Ex.refuses).client.ctx.loginStatus ≠ .loggingIn ∧
    HasWallet (worldAfter Toy.env Ex.keys Ex.refuses).client 7 ∧
    (worldAfter Toy.env Ex.keys (Ex.refuses ++ Ex.fetches 1 Ex.alice 50 ++ Ex.finishes 1 Ex.aliceSig 100)).client.ctx.loginStatus =
      .success := by decide +kernel

/-- What a user who signs in again relies on: a `login()` in a page where nothing is running signs a text that has not been used
in a login yet. -/
def NoReuse (E : Env) (K : SessionKeys) : Prop :=
  ∀ hs sig account session nonce, Output.login sig account session nonce ∈ (worldAfter E K hs).log →
    (worldAfter E K hs).log.countP (fun | .login _ a _ n => a == account && n == nonce | _ => false) ≤ 1

/-- C62 fails of the code after a success: the message is kept, the next `login()` without `clear()` asks for a signature of the
same text, and the canister refuses it. -/
theorem C62_not_after_success : ¬NoReuse Toy.env Ex.keys ∧
    (worldAfter Toy.env Ex.keys Ex.signIn).client.ctx.loginStatus = .success ∧
    (worldAfter Toy.env Ex.keys (Ex.signIn ++ [.login, .resume 1 .settled, .resume 1 (.addresses [Ex.alice]),
      .resume 1 (.signature Ex.aliceSig), .resume 1 .settled, .execute 1 200 none, .resume 1 .settled])).client.tasks[1]? =
      some (.failed (.canister (.login .messageNotFound))) := by
  refine ⟨fun H => ?_, by decide +kernel, by decide +kernel⟩
  have h := H (Ex.signIn ++ [.login, .resume 1 .settled, .resume 1 (.addresses [Ex.alice]),
      .resume 1 (.signature Ex.aliceSig), .resume 1 .settled]) Ex.aliceSig Ex.alice 0 (Ex.nonce 3) (by decide +kernel)
  exact absurd h (by decide +kernel)

/-! ### C63 -/

/-- Where a call is, with what else matters for its next steps. -/
structure At (i : Nat) (pc : Pc) (calls : History) (n : Nat) (wallet : Wallet) (log : List Output) (w : World) : Prop where
  task : w.client.tasks[i]? = some pc
  calls : w.calls = calls
  generated : w.client.generated = n
  wallet : w.client.wallet = some wallet
  log : w.log = log

theorem At.resume {E : Env} {K : SessionKeys} {i : Nat} {pc pc' : Pc} {h : History} {n n' : Nat} {x : Wallet}
    {log : List Output} {w : World} {a : Answer} (os : List Output) (g : At i pc h n x log w)
    (k : ∀ c : Client, c.wallet = some x → c.generated = n →
      (c.resume pc a).2.1 = pc' ∧ (c.resume pc a).1.wallet = some x ∧ (c.resume pc a).1.generated = n' ∧
      (c.resume pc a).2.2 = os) :
    At i pc' h n' x (log ++ os) (w.step E K (.resume i a)) := by
  have hi : i < w.client.tasks.length := (List.getElem?_eq_some_iff.mp g.task).1
  obtain ⟨k1, k2, k3, k4⟩ := k w.client g.wallet g.generated
  simp only [World.step, g.task]
  exact ⟨by rw [List.getElem?_set_self hi, k1], g.calls, k3, k2, by rw [g.log, k4]⟩

theorem At.execute {E : Env} {K : SessionKeys} {i : Nat} {pc : Pc} {h : History} {n : Nat} {x : Wallet} {log : List Output} {w : World}
    (g : At i pc h n x log w) {op : Op} {t : UInt64} {cert : Option Bytes} (hop : pc.request K cert = some op) :
    At i (pc.answered (Siwe.step (stateAfter E h) t op).2) (h ++ [(t, op)]) n x log
      (w.step E K (.execute i t cert)) := by
  have hi : i < w.client.tasks.length := (List.getElem?_eq_some_iff.mp g.task).1
  simp only [World.step, g.task, hop]
  exact ⟨by rw [List.getElem?_set_self hi, g.calls], by rw [g.calls], g.generated, g.wallet, g.log⟩

/-- Calls other users make to the canister. -/
def others (h : History) : List Happening := h.map fun x => .other x.1 x.2

theorem At.others {E : Env} {K : SessionKeys} {i : Nat} {pc : Pc} {n : Nat} {x : Wallet} {log : List Output}
    (h' : History) : ∀ {h : History} {w : World}, At i pc h n x log w → At i pc (h ++ h') n x log (w.run E K (others h')) := by
  induction h' with
  | nil => intro h w g; rw [List.append_nil]; exact g
  | cons y h' ih =>
    intro h w g
    have : At i pc (h ++ [y]) n x log (w.step E K (.other y.1 y.2)) :=
      ⟨g.task, by simp [World.step, g.calls], g.generated, g.wallet, g.log⟩
    have := ih this
    rw [List.append_assoc, List.singleton_append] at this
    exact this

theorem run_append' {E : Env} {K : SessionKeys} (w : World) (l l' : List Happening) :
    w.run E K (l ++ l') = (w.run E K l).run E K l' := List.foldl_append ..

theorem run_cons' {E : Env} {K : SessionKeys} (w : World) (x : Happening) (l : List Happening) :
    w.run E K (x :: l) = (w.step E K x).run E K l := rfl

/-- `login()`, the page's `i`-th call, until it asks for the signature, when the wallet offers `a` first. -/
def loginFetch (i : Nat) (a : Bytes) (l l' : List Bytes) (t : UInt64) : List Happening :=
  [.login, .resume i .settled, .resume i (.addresses (a :: l)), .resume i .settled, .resume i (.addresses (a :: l')),
    .resume i .settled, .execute i t none, .resume i .settled, .resume i .settled]

/-- ... until the canister has accepted the login. -/
def loginSign (i : Nat) (sig : Bytes) (t : UInt64) : List Happening :=
  [.resume i (.signature sig), .resume i .settled, .execute i t none, .resume i .settled]

/-- ... until it returns. -/
def loginFinish (i : Nat) (t : UInt64) (cert : Bytes) : List Happening := [.execute i t (some cert), .resume i .settled]

theorem at_fetch {E : Env} {K : SessionKeys} (w : World) (x : Wallet) (a : Bytes) (l l' : List Bytes) (t0 : UInt64)
    (p : PrepareLoginOkResponse)
    (h1 : w.client.ctx.prepareLoginOkResponse = none) (h2 : w.client.ctx.prepareLoginStatus ≠ .preparing)
    (h3 : w.client.ctx.loginStatus ≠ .loggingIn) (h4 : HasWallet w.client x) (ha : a ≠ [])
    (hp : (step (stateAfter E w.calls) t0 (.prepareLogin a)).2 = .prepared p) :
    At w.client.tasks.length (.signing a p) (w.calls ++ [(t0, .prepareLogin a)]) w.client.generated x
      (w.log ++ [.prepareLogin a, .sign x a p.siweMessage]) (w.run E K (loginFetch w.client.tasks.length a l l' t0)) := by
  have g : At w.client.tasks.length (.prepWallet (some a) true) w.calls w.client.generated x w.log
      (w.run E K [.login, .resume w.client.tasks.length .settled, .resume w.client.tasks.length (.addresses (a :: l))]) := by
    refine ⟨(C62_fetches_new_message_partial E K w x a l h1 h2 h3 h4 ha).2, ?_, ?_, ?_,
      (C62_fetches_new_message_partial E K w x a l h1 h2 h3 h4 ha).1⟩ <;>
    simp only [World.run, List.foldl_cons, List.foldl_nil, World.step, Client.startLogin, if_neg h2, if_neg h3, Client.start,
      List.getElem?_append_right (Nat.le_refl _), Nat.sub_self, List.getElem?_cons_zero, Client.resume,
      List.getElem?_set_self (show w.client.tasks.length < (w.client.tasks ++ [Pc.loginWallet true]).length by simp),
      Client.loginWith, if_neg ha, Client.loggingIn, h1, Client.startPrepareLogin, List.append_nil, h4.setup] <;>
    simp [Client.setupWalletClient]
  have hw : loginFetch w.client.tasks.length a l l' t0 = [.login, .resume w.client.tasks.length .settled,
      .resume w.client.tasks.length (.addresses (a :: l))] ++ [.resume w.client.tasks.length .settled,
      .resume w.client.tasks.length (.addresses (a :: l')), .resume w.client.tasks.length .settled,
      .execute w.client.tasks.length t0 none, .resume w.client.tasks.length .settled, .resume w.client.tasks.length .settled] :=
    rfl
  rw [hw, run_append']
  clear hw h1 h2 h3 h4
  generalize w.run E K [.login, .resume w.client.tasks.length .settled,
      .resume w.client.tasks.length (.addresses (a :: l))] = w1 at g
  generalize w.client.tasks.length = i at g ⊢
  generalize w.client.generated = n at g ⊢
  generalize w.calls = h at g hp ⊢
  generalize w.log = log at g ⊢
  have g := g.resume (E := E) (K := K) (a := .settled) (pc' := .prepAddresses (some a)) (n' := n) []
    (fun c k1 k2 => ⟨rfl, k1, k2, rfl⟩)
  have g := g.resume (E := E) (K := K) (a := .addresses (a :: l')) (pc' := .prepActor (some a) a) (n' := n) []
    (fun c k1 k2 => by simp only [Client.resume, Client.prepareWith, if_neg ha]; exact ⟨trivial, k1, k2, trivial⟩)
  have g := g.resume (E := E) (K := K) (a := .settled) (pc' := .prepSent (some a) a) (n' := n) [.prepareLogin a]
    (fun c k1 k2 => ⟨rfl, k1, k2, rfl⟩)
  have g := g.execute (E := E) (K := K) (t := t0) (cert := none) rfl
  rw [hp] at g
  have g := g.resume (E := E) (K := K) (a := .settled) (pc' := .loginPrepared a p) (n' := n) []
    (fun c k1 k2 => ⟨rfl, k1, k2, rfl⟩)
  have g := g.resume (E := E) (K := K) (a := .settled) (pc' := .signing a p) (n' := n) [.sign x a p.siweMessage]
    (fun c k1 k2 => ⟨rfl, k1, k2, by simp only [Client.resume, Client.requestSignature, k1]⟩)
  simp only [List.append_nil, List.append_assoc, List.singleton_append] at g
  exact g

theorem at_sign {E : Env} {K : SessionKeys} {w : World} {i n : Nat} {x : Wallet} {log : List Output} {a sig : Bytes}
    {p : PrepareLoginOkResponse} {h : History} {t1 : UInt64} {d : LoginDetails} (g : At i (.signing a p) h n x log w) (hs : sig ≠ [])
    (hd : (step (stateAfter E h) t1 (.login sig a (K n) p.nonce)).2 = .loggedIn d) :
    At i (.delegationSent a n d) (h ++ [(t1, .login sig a (K n) p.nonce)]) (n + 1) x
      (log ++ [.login sig a n p.nonce, .getDelegation a n d.expiration]) (w.run E K (loginSign i sig t1)) := by
  have g := g.resume (E := E) (K := K) (a := .signature sig) (pc' := .loginActor a p sig n) (n' := n + 1) []
    (fun c k1 k2 => by simp only [Client.resume, Client.signed, if_neg hs]; subst k2; exact ⟨rfl, k1, rfl, trivial⟩)
  have g := g.resume (E := E) (K := K) (a := .settled) (pc' := .loginSent a p sig n) (n' := n + 1) [.login sig a n p.nonce]
    (fun c k1 k2 => ⟨rfl, k1, k2, rfl⟩)
  have g := g.execute (E := E) (K := K) (t := t1) (cert := none) rfl
  rw [hd] at g
  have g := g.resume (E := E) (K := K) (a := .settled) (pc' := .delegationSent a n d) (n' := n + 1)
    [.getDelegation a n d.expiration] (fun c k1 k2 => ⟨rfl, k1, k2, rfl⟩)
  simp only [List.append_nil, List.append_assoc, List.singleton_append] at g
  exact g

theorem at_finish {E : Env} {K : SessionKeys} {w : World} {i n m : Nat} {x : Wallet} {log : List Output} {a cert : Bytes}
    {h : History} {t2 : UInt64} {d : LoginDetails} {sd : SignedDelegation} (g : At i (.delegationSent a n d) h m x log w)
    (hd : (step (stateAfter E h) t2 (.getDelegation (some cert) a (K n) d.expiration)).2 = .delegation sd) :
    (w.run E K (loginFinish i t2 cert)).client.ctx.identity = some ⟨n, ⟨sd.delegation, sd.signature, d.userCanisterPubkey⟩⟩ ∧
    (w.run E K (loginFinish i t2 cert)).client.ctx.identityAddress = some a ∧
    (w.run E K (loginFinish i t2 cert)).client.ctx.loginStatus = .success ∧
    (w.run E K (loginFinish i t2 cert)).client.tasks[i]? =
      some (.loggedIn ⟨n, ⟨sd.delegation, sd.signature, d.userCanisterPubkey⟩⟩) ∧
    (w.run E K (loginFinish i t2 cert)).log = log := by
  have g := g.execute (E := E) (K := K) (t := t2) (cert := some cert) rfl
  rw [hd] at g
  have hi := (List.getElem?_eq_some_iff.mp g.task).1
  simp only [loginFinish, run_cons']
  generalize w.step E K (.execute i t2 (some cert)) = w' at g hi ⊢
  have e : ∀ w : World, w.run E K [] = w := fun _ => rfl
  rw [e]
  simp only [World.step, g.task, Pc.answered, Client.resume, Client.delegationReply]
  refine ⟨rfl, rfl, rfl, ?_, ?_⟩
  · rw [List.getElem?_set_self hi]
    rfl
  · simpa using g.log

/-- C63: in a page with a wallet (set by the app or injected) that offers the account `a`, where nothing is in progress and no message is at hand, `login()`
signs the user in if everybody cooperates: the canister issues a message, the wallet signs it for `a`, the session key is a new
DER key, other users' calls `h1` and `h2` come in between but nothing expires.  Then the promise resolves, the state says
"success" and shows `a`, and the displayed identity verifies (provided no login refused for its session key pruned signatures
since, see C29); the page has asked for a message, one signature of that message by `a`, the login and the delegation, and for
nothing else.  The alternatives exhibit a SHA-256 collision with another call. -/
theorem C63_login_signs_in (E : Env) (K : SessionKeys) (w : World) (x : Wallet) (a sig cert : Bytes) (l l' : List Bytes)
    (t0 t1 t2 : UInt64) (h1 h2 : History) (p : PrepareLoginOkResponse)
    (hmsg : w.client.ctx.prepareLoginOkResponse = none) (hprep : w.client.ctx.prepareLoginStatus ≠ .preparing)
    (hlog : w.client.ctx.loginStatus ≠ .loggingIn) (hwal : HasWallet w.client x)
    (hp : (step (stateAfter E w.calls) t0 (.prepareLogin a)).2 = .prepared p)
    (hsig : HexString 130 sig) (hsigns : Signs E sig p.siweMessage a)
    (hk : K w.client.generated ≠ []) (hder : E.derOk (K w.client.generated) = true) (full : History)
    (hfull : full = w.calls ++ [(t0, .prepareLogin a)] ++ h1 ++
      [(t1, .login sig a (K w.client.generated) p.nonce)] ++ h2)
    (hm1 : SameModule (traceFrom (stateAfter E (w.calls ++ [(t0, .prepareLogin a)])) h1))
    (hm2 : SameModule (traceFrom (stateAfter E (w.calls ++ [(t0, .prepareLogin a)] ++ h1 ++
      [(t1, .login sig a (K w.client.generated) p.nonce)])) h2))
    (ho : ∀ e ∈ traceFrom (stateAfter E (w.calls ++ [(t0, .prepareLogin a)])) h1, ¬e.Concerns a p.nonce)
    (hf1 : ∀ y ∈ w.calls ++ h1, ∀ sig' a' nonce', y.2 ≠ .login sig' a' (K w.client.generated) nonce')
    (hf2 : ∀ y ∈ h2, ∀ sig' a' nonce', y.2 ≠ .login sig' a' (K w.client.generated) nonce')
    (hx2 : ∀ y ∈ h2, y.1.toNat ≤ t2.toNat) (ht2 : t2.toNat < min (t1.toNat + minute) (2 ^ 64 - 1))
    (hc : cert.length < 2 ^ 64) (hharm : RefusalsHarmless (trace E full)) :
    ∃ s, (stateAfter E w.calls).lib.settings = some s ∧
    ((∀ y ∈ h1, y.1.toNat < min (t0.toNat + s.signInExpiresIn.toNat) (2 ^ 64 - 1)) →
      t1.toNat < min (t0.toNat + s.signInExpiresIn.toNat) (2 ^ 64 - 1) →
    (∃ w' i, w' = w.run E K (loginFetch w.client.tasks.length a l l' t0 ++ others h1 ++ loginSign w.client.tasks.length sig t1 ++
        others h2 ++ loginFinish w.client.tasks.length t2 cert) ∧
      w'.client.tasks[w.client.tasks.length]? = some (.loggedIn i) ∧ w'.client.ctx.loginStatus = .success ∧
      w'.client.ctx.identityAddress = some a ∧ w'.client.ctx.identity = some i ∧ i.session = w.client.generated ∧
      i.chain.delegation.pubkey = K w.client.generated ∧ i.chain.delegation.targets = s.targets ∧
      i.chain.delegation.expiration.toNat = min (t0.toNat + s.sessionExpiresIn.toNat) (2 ^ 64 - 1) ∧
      w'.log = w.log ++ [.prepareLogin a, .sign x a p.siweMessage, .login sig a i.session p.nonce,
        .getDelegation a i.session i.chain.delegation.expiration] ∧
      Verifies E E.canisterId (stateAfter E full).certifiedData cert i.chain.publicKey
        ⟨i.chain.delegation, i.chain.signature⟩) ∨
    (∃ y ∈ trace E full, ∃ a' key' nonce' d' s' d, y.LogsIn a' key' nonce' d' ∧
      InForce E (trace E full) s' (stateAfter E full).settings ∧ d.toNat = min (t0.toNat + s.sessionExpiresIn.toNat) (2 ^ 64 - 1) ∧
      GrantCollision E s' a (K w.client.generated) d a' key' d'.expiration) ∨
    ∃ e ∈ traceFrom (stateAfter E (w.calls ++ [(t0, .prepareLogin a)])) h1, ∃ a' nonce', e.Concerns a' nonce' ∧
      KeyCollision E a p.nonce a' nonce') := by
  obtain ⟨s, hs, hmain⟩ := C53_sign_in_works E w.calls h1 t0 t1 a sig (K w.client.generated) p hp hsig hsigns hk hder hm1 ho hf1
  refine ⟨s, hs, fun k1 k2 => ?_⟩
  have ha : a ≠ [] := by
    obtain ⟨_, _, _, _, q3, _⟩ := prepared_pending w.calls t0 a p hp
    rintro rfl
    obtain ⟨ds, q, _⟩ := q3
    cases q
  have hs0 : sig ≠ [] := by
    rintro rfl
    obtain ⟨ds, q, _⟩ := hsig
    cases q
  rcases hmain k1 k2 with ⟨d, hd, hexp, hmain⟩ | hcol
  · rcases hmain h2 t2 cert full hfull hm2 hf2 hx2 ht2 hc hharm with ⟨sd, hsd, hdel, hver⟩ | ⟨y, hy, a', key', nonce', d', s', q⟩
    · left
      have g := at_fetch (E := E) (K := K) w x a l l' t0 p hmsg hprep hlog hwal ha hp
      have g := At.others (E := E) (K := K) h1 g
      have g := at_sign (K := K) g hs0 hd
      have g := At.others (E := E) (K := K) h2 g
      rw [← hfull] at g
      obtain ⟨r1, r2, r3, r4, r5⟩ := at_finish (K := K) g hsd
      refine ⟨_, ⟨w.client.generated, ⟨sd.delegation, sd.signature, d.userCanisterPubkey⟩⟩, rfl, ?_, ?_, ?_, ?_, rfl, ?_, ?_, ?_, ?_, hver⟩
      · simp only [run_append']; exact r4
      · simp only [run_append']; exact r3
      · simp only [run_append']; exact r2
      · simp only [run_append']; exact r1
      · rw [hdel]
      · rw [hdel]
      · rw [hdel]; exact hexp
      · simp only [run_append']
        rw [r5, hdel]
        simp only [List.append_assoc, List.cons_append, List.nil_append]
    · exact .inr (.inl ⟨y, hy, a', key', nonce', d', s', d.expiration, q.1, q.2.1, hexp, q.2.2⟩)
  · exact .inr (.inr hcol)

/-- Non-vacuity: the page of the examples meets the hypotheses about the page, with the calls and the session key of the
example beside C53 (which shows the others), and that run ends as claimed. -/
def Ex.keys1 : SessionKeys := fun n => [48, UInt8.ofNat (n + 1)]

example : (worldAfter Toy.env Ex.keys1 Ex.page).client.ctx.prepareLoginOkResponse = none ∧
    (worldAfter Toy.env Ex.keys1 Ex.page).client.ctx.prepareLoginStatus ≠ .preparing ∧
    (worldAfter Toy.env Ex.keys1 Ex.page).client.ctx.loginStatus ≠ .loggingIn ∧
    HasWallet (worldAfter Toy.env Ex.keys1 Ex.page).client 7 ∧
    Ex.keys1 (worldAfter Toy.env Ex.keys1 Ex.page).client.generated = Ex.key ∧
    (worldAfter Toy.env Ex.keys1 Ex.page).client.tasks.length = 0 ∧
    ((worldAfter Toy.env Ex.keys1 Ex.page).run Toy.env Ex.keys1 (loginFetch 0 Ex.alice [] [Ex.bob] 5 ++ others Ex.between ++
      loginSign 0 Ex.aliceSig 100 ++ others Ex.afterwards ++ loginFinish 0 30000000000 [9])).client.ctx.loginStatus = .success := by
  decide +kernel

example : (worldAfter Toy.env Ex.keys1 Ex.page).calls = Ex.start := rfl

/-- The same with an injected wallet instead. -/
def Ex.injectedPage : List Happening := [.other 1 (.install Ex.input), .other 2 (.rngSeeded [1, 2, 3]), .inject (some 8)]

example : HasWallet (worldAfter Toy.env Ex.keys1 Ex.injectedPage).client 8 ∧
    ((worldAfter Toy.env Ex.keys1 Ex.injectedPage).run Toy.env Ex.keys1 (loginFetch 0 Ex.alice [] [Ex.bob] 5 ++
      others Ex.between ++ loginSign 0 Ex.aliceSig 100 ++ others Ex.afterwards ++
      loginFinish 0 30000000000 [9])).client.ctx.loginStatus = .success := by
  decide +kernel

/-! ### C64 -/

/-- C64: what the state reports is true: "success" comes with a displayed identity, "error" with the error. -/
theorem C64_status_truthful (E : Env) (K : SessionKeys) (hs : List Happening) :
    ((worldAfter E K hs).client.ctx.loginStatus = .success →
      ∃ i, (worldAfter E K hs).client.ctx.identity = some i) ∧
    ((worldAfter E K hs).client.ctx.loginStatus = .error → ∃ e, (worldAfter E K hs).client.ctx.loginError = some e) ∧
    ((worldAfter E K hs).client.ctx.prepareLoginStatus = .error →
      ∃ e, (worldAfter E K hs).client.ctx.prepareLoginError = some e) := by
  have x := statusOk E K hs
  exact ⟨fun h => Option.isSome_iff_exists.mp (x.success h), fun h => Option.isSome_iff_exists.mp (x.error h),
    fun h => Option.isSome_iff_exists.mp (x.prepare h)⟩

/-- C64: when a `login()` returns an identity, that identity is the displayed one and the state says "success". -/
theorem C64_returned_identity_displayed (E : Env) (K : SessionKeys) (w : World) (x : Happening) (j : Nat) (i : Identity)
    (h1 : w.client.tasks[j]? ≠ some (.loggedIn i)) (h2 : (w.step E K x).client.tasks[j]? = some (.loggedIn i)) :
    (w.step E K x).client.ctx.identity = some i ∧ (w.step E K x).client.ctx.loginStatus = .success := by
  have joined : ∀ (c : Client) (pc : Pc), (∀ i, pc ≠ .loggedIn i) → (w.client.start (c, pc)).tasks[j]? ≠ some (.loggedIn i) := by
    intro c pc hpc h
    simp only [Client.start] at h
    rcases getElem?_snoc_cases h with h | ⟨_, h⟩
    · exact h1 h
    · exact hpc i h.symm
  cases x with
  | load => simp [World.step, Client.load, Client.construct] at h2
  | create => exact absurd ((create_keeps w.client).1 ▸ h2) h1
  | setWallet y => exact absurd h2 h1
  | inject y => exact absurd h2 h1
  | clear => exact absurd h2 h1
  | other now op => exact absurd h2 h1
  | prepareLogin => exact absurd h2 (joined _ _ (fun _ => by simp))
  | login =>
    simp only [World.step, Client.startLogin] at h2
    split at h2
    · exact absurd h2 (joined _ _ (fun _ => by simp))
    · split at h2
      · exact absurd h2 (joined _ _ (fun _ => by simp))
      · exact absurd h2 (joined _ _ (fun _ => by simp))
  | execute k now cert =>
    simp only [World.step] at h2 ⊢
    split at h2
    · exact absurd h2 h1
    · next pc' hpc' =>
      split at h2
      · exact absurd h2 h1
      · next op hop =>
        rcases getElem?_set_cases h2 with ⟨_, h⟩ | ⟨_, h⟩
        · cases pc' <;> simp [Pc.request] at hop <;> cases h
        · exact absurd h h1
  | lagging k now cert seen =>
    simp only [World.step] at h2 ⊢
    split at h2
    · exact absurd h2 h1
    · next pc' hpc' =>
      split at h2
      · exact absurd h2 h1
      · next op hop =>
        rcases getElem?_set_cases h2 with ⟨_, h⟩ | ⟨_, h⟩
        · cases pc' <;> simp [Pc.query] at hop <;> cases h
        · exact absurd h h1
  | resume k ans =>
    simp only [World.step] at h2 ⊢
    split at h2
    · exact absurd h2 h1
    · next pc' hpc' =>
      rcases getElem?_set_cases h2 with ⟨rfl, h⟩ | ⟨_, h⟩
      · exact resume_loggedIn (fun g => h1 (by rw [hpc', g])) h.symm
      · exact absurd h h1

/-- Non-vacuity: the last step of the example sign-in, and a failed one. -/
example : (worldAfter Toy.env Ex.keys Ex.signIn).client.tasks[0]? = some (.loggedIn Ex.identity) ∧
    (worldAfter Toy.env Ex.keys Ex.signIn.dropLast).client.tasks[0]? ≠ some (.loggedIn Ex.identity) ∧
    (worldAfter Toy.env Ex.keys Ex.signIn).client.ctx.loginStatus = .success ∧
    (worldAfter Toy.env Ex.keys Ex.refuses).client.ctx.loginStatus = .error ∧
    (worldAfter Toy.env Ex.keys Ex.refuses).client.ctx.loginError = some .wallet := by decide +kernel

end Siwe
