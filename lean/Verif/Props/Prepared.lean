import Verif.Props.Client
import Verif.Props.Busy
/- C63 for pages that prepare the message before the user presses the button. -/
namespace Siwe
open Spec

/-- `prepareLogin()`, the page's `i`-th call, from start to end, when the wallet offers `a` first. -/
def pagePrepares (i : Nat) (a : Bytes) (l : List Bytes) (t : UInt64) : List Happening :=
  [.prepareLogin, .resume i .settled, .resume i (.addresses (a :: l)), .resume i .settled, .execute i t none, .resume i .settled]

/-- `login()`, the page's `i`-th call, until it asks for the signature, with a message at hand. -/
def loginAsks (i : Nat) (a : Bytes) (l : List Bytes) : List Happening := [.login, .resume i .settled, .resume i (.addresses (a :: l))]

theorem run_others {E : Env} {K : SessionKeys} (h : History) (w : World) :
    w.run E K (others h) = { w with calls := w.calls ++ h } := by
  induction h generalizing w with
  | nil => simp [others, World.run]
  | cons x h ih =>
    have := ih (w.step E K (.other x.1 x.2))
    simp only [others, List.map_cons, run_cons'] at this ⊢
    rw [this]
    simp [World.step]

/-- The page after `prepareLogin()`. -/
structure HasPrepared (w : World) (x : Wallet) (p : PrepareLoginOkResponse) (a : Bytes) (t : UInt64) (w' : World) : Prop where
  message : w'.client.ctx.prepareLoginOkResponse = some p
  preparing : w'.client.ctx.prepareLoginStatus = .success
  logging : w'.client.ctx.loginStatus = w.client.ctx.loginStatus
  wallet : w'.client.wallet = some x
  generated : w'.client.generated = w.client.generated
  tasks : w'.client.tasks = w.client.tasks ++ [.prepared p]
  calls : w'.calls = w.calls ++ [(t, .prepareLogin a)]
  log : w'.log = w.log ++ [.prepareLogin a]

theorem hasPrepared {E : Env} {K : SessionKeys} (w : World) (x : Wallet) (a : Bytes) (l : List Bytes) (t0 : UInt64)
    (p : PrepareLoginOkResponse) (h4 : HasWallet w.client x) (ha : a ≠ [])
    (hp : (step (stateAfter E w.calls) t0 (.prepareLogin a)).2 = .prepared p) :
    HasPrepared w x p a t0 (w.run E K (pagePrepares w.client.tasks.length a l t0)) := by
  have set : ∀ pc pc', (w.client.tasks ++ [pc]).set w.client.tasks.length pc' = w.client.tasks ++ [pc'] := by
    intro pc pc'; simp
  have get : ∀ pc, (w.client.tasks ++ [pc])[w.client.tasks.length]? = some pc := by intro pc; simp
  constructor <;>
  simp only [pagePrepares, World.run, List.foldl_cons, List.foldl_nil, World.step, Client.start, Client.startPrepareLogin, h4.setup, get, set,
    Client.resume, Client.prepareWith, if_neg ha, List.append_nil, Pc.request, Pc.answered, hp, Client.prepareReply]

theorem at_asks {E : Env} {K : SessionKeys} (w : World) (x : Wallet) (a : Bytes) (l : List Bytes) (p : PrepareLoginOkResponse)
    (h1 : w.client.ctx.prepareLoginOkResponse = some p) (h2 : w.client.ctx.prepareLoginStatus ≠ .preparing)
    (h3 : w.client.ctx.loginStatus ≠ .loggingIn) (h4 : HasWallet w.client x) (ha : a ≠ []) :
    At w.client.tasks.length (.signing a p) w.calls w.client.generated x (w.log ++ [.sign x a p.siweMessage])
      (w.run E K (loginAsks w.client.tasks.length a l)) := by
  have set : ∀ pc pc', (w.client.tasks ++ [pc]).set w.client.tasks.length pc' = w.client.tasks ++ [pc'] := by
    intro pc pc'; simp
  have get : ∀ pc, (w.client.tasks ++ [pc])[w.client.tasks.length]? = some pc := by intro pc; simp
  constructor <;>
  simp only [loginAsks, World.run, List.foldl_cons, List.foldl_nil, World.step, Client.start, Client.startLogin, if_neg h2, if_neg h3, h4.setup, get, set,
    Client.resume, Client.loginWith, if_neg ha, List.append_nil, Client.loggingIn, h1, Client.requestSignature]

/-- C63: the same for a page that prepares the message early, as the README's example does. In a page with a wallet that offers the account `a`, where no login is
in progress, `prepareLogin()` is called, and later, after any calls `h0` of others, `login()`. If everybody cooperates, as in `C63_login_signs_in`, the user is
signed in with the message that was prepared, whatever message the page had before; nothing else is asked of the canister and of the wallet. -/
theorem C63_prepared_login_signs_in (E : Env) (K : SessionKeys) (w : World) (x : Wallet) (a sig cert : Bytes) (l l' : List Bytes)
    (t0 t1 t2 : UInt64) (h0 h1 h2 : History) (p : PrepareLoginOkResponse)
    (hlog : w.client.ctx.loginStatus ≠ .loggingIn) (hwal : HasWallet w.client x)
    (hp : (step (stateAfter E w.calls) t0 (.prepareLogin a)).2 = .prepared p)
    (hsig : HexString 130 sig) (hsigns : Signs E sig p.siweMessage a)
    (hk : K w.client.generated ≠ []) (hder : E.derOk (K w.client.generated) = true) (full : History)
    (hfull : full = w.calls ++ [(t0, .prepareLogin a)] ++ (h0 ++ h1) ++
      [(t1, .login sig a (K w.client.generated) p.nonce)] ++ h2)
    (hm1 : SameModule (traceFrom (stateAfter E (w.calls ++ [(t0, .prepareLogin a)])) (h0 ++ h1)))
    (hm2 : SameModule (traceFrom (stateAfter E (w.calls ++ [(t0, .prepareLogin a)] ++ (h0 ++ h1) ++
      [(t1, .login sig a (K w.client.generated) p.nonce)])) h2))
    (ho : ∀ e ∈ traceFrom (stateAfter E (w.calls ++ [(t0, .prepareLogin a)])) (h0 ++ h1), ¬e.Concerns a p.nonce)
    (hf1 : ∀ y ∈ w.calls ++ (h0 ++ h1), ∀ sig' a' nonce', y.2 ≠ .login sig' a' (K w.client.generated) nonce')
    (hf2 : ∀ y ∈ h2, ∀ sig' a' nonce', y.2 ≠ .login sig' a' (K w.client.generated) nonce')
    (hx2 : ∀ y ∈ h2, y.1.toNat ≤ t2.toNat) (ht2 : t2.toNat < min (t1.toNat + minute) (2 ^ 64 - 1))
    (hc : cert.length < 2 ^ 64) (hharm : RefusalsHarmless (trace E full)) :
    ∃ s, (stateAfter E w.calls).lib.settings = some s ∧
    ((∀ y ∈ h0 ++ h1, y.1.toNat < min (t0.toNat + s.signInExpiresIn.toNat) (2 ^ 64 - 1)) →
      t1.toNat < min (t0.toNat + s.signInExpiresIn.toNat) (2 ^ 64 - 1) →
    (∃ w' i, w' = w.run E K (pagePrepares w.client.tasks.length a l t0 ++ others h0 ++ loginAsks (w.client.tasks.length + 1) a l' ++ others h1 ++
        loginSign (w.client.tasks.length + 1) sig t1 ++ others h2 ++ loginFinish (w.client.tasks.length + 1) t2 cert) ∧
      w'.client.tasks[w.client.tasks.length + 1]? = some (.loggedIn i) ∧ w'.client.ctx.loginStatus = .success ∧
      w'.client.ctx.identityAddress = some a ∧ w'.client.ctx.identity = some i ∧ i.session = w.client.generated ∧
      i.chain.delegation.pubkey = K w.client.generated ∧ i.chain.delegation.targets = s.targets ∧
      i.chain.delegation.expiration.toNat = min (t0.toNat + s.sessionExpiresIn.toNat) (2 ^ 64 - 1) ∧
      w'.log = w.log ++ [.prepareLogin a, .sign x a p.siweMessage, .login sig a i.session p.nonce,
        .getDelegation a i.session i.chain.delegation.expiration] ∧
      Verifies E E.canisterId (stateAfter E full).certifiedData cert i.chain.publicKey
        ⟨i.chain.delegation, i.chain.signature⟩) ∨
    (∃ y ∈ trace E full, ∃ a' key' nonce' d' s' d, y.LogsIn a' key' nonce' d' ∧
      InForce E (trace E full) s' (stateAfter E full).settings ∧ d.toNat = min (t0.toNat + s.sessionExpiresIn.toNat) (2 ^ 64 - 1) ∧
      GrantCollision E s' a (K w.client.generated) d a' key' d'.expiration) ∨
    ∃ e ∈ traceFrom (stateAfter E (w.calls ++ [(t0, .prepareLogin a)])) (h0 ++ h1), ∃ a' nonce', e.Concerns a' nonce' ∧
      KeyCollision E a p.nonce a' nonce') := by
  obtain ⟨s, hs, hmain⟩ := C53_sign_in_works E w.calls (h0 ++ h1) t0 t1 a sig (K w.client.generated) p hp hsig hsigns hk hder hm1 ho hf1
  refine ⟨s, hs, fun k1 k2 => ?_⟩
  have ha : a ≠ [] := by
    obtain ⟨_, _, _, _, q3, _⟩ := prepared_pending w.calls t0 a p hp
    rintro rfl
    obtain ⟨ds, q, _⟩ := q3
    cases q
  have hs0 : sig ≠ [] := by
    rintro rfl
    obtain ⟨ds, q, _⟩ := hsig
    cases q
  rcases hmain k1 k2 with ⟨d, hd, hexp, hmain⟩ | hcol
  · rcases hmain h2 t2 cert full hfull hm2 hf2 hx2 ht2 hc hharm with ⟨sd, hsd, hdel, hver⟩ | ⟨y, hy, a', key', nonce', d', s', q⟩
    · left
      have f := hasPrepared (E := E) (K := K) w x a l t0 p hwal ha hp
      have e : (w.run E K (pagePrepares w.client.tasks.length a l t0)).run E K (others h0) = _ := run_others h0 _
      have g := at_asks (E := E) (K := K) ((w.run E K (pagePrepares w.client.tasks.length a l t0)).run E K (others h0)) x a l' p
        (by rw [e]; exact f.message) (by rw [e]; simp [f.preparing]) (by rw [e]; simpa [f.logging] using hlog) (by rw [e]; exact .inl f.wallet) ha
      have e1 : ((w.run E K (pagePrepares w.client.tasks.length a l t0)).run E K (others h0)).client.tasks.length = w.client.tasks.length + 1 := by
        rw [e]; simp [f.tasks]
      have e2 : ((w.run E K (pagePrepares w.client.tasks.length a l t0)).run E K (others h0)).calls = w.calls ++ [(t0, .prepareLogin a)] ++ h0 := by
        rw [e]; simp [f.calls]
      have e3 : ((w.run E K (pagePrepares w.client.tasks.length a l t0)).run E K (others h0)).client.generated = w.client.generated := by
        rw [e]; exact f.generated
      have e4 : ((w.run E K (pagePrepares w.client.tasks.length a l t0)).run E K (others h0)).log = w.log ++ [.prepareLogin a] := by
        rw [e]; exact f.log
      rw [e1, e2, e3, e4] at g
      have g := At.others (E := E) (K := K) h1 g
      rw [List.append_assoc _ h0 h1] at g
      have g := at_sign (K := K) g hs0 hd
      have g := At.others (E := E) (K := K) h2 g
      rw [← hfull] at g
      obtain ⟨r1, r2, r3, r4, r5⟩ := at_finish (K := K) g hsd
      refine ⟨_, ⟨w.client.generated, ⟨sd.delegation, sd.signature, d.userCanisterPubkey⟩⟩, rfl, ?_, ?_, ?_, ?_, rfl, ?_, ?_, ?_, ?_, hver⟩
      · simp only [run_append']; exact r4
      · simp only [run_append']; exact r3
      · simp only [run_append']; exact r2
      · simp only [run_append']; exact r1
      · rw [hdel]
      · rw [hdel]
      · rw [hdel]; exact hexp
      · simp only [run_append']
        rw [r5, hdel]
        simp only [List.append_assoc, List.cons_append, List.nil_append]
    · exact .inr (.inl ⟨y, hy, a', key', nonce', d', s', d.expiration, q.1, q.2.1, hexp, q.2.2⟩)
  · exact .inr (.inr hcol)

/-- Non-vacuity: as beside `C63_login_signs_in`, with the message prepared first. -/
example : (worldAfter Toy.env Ex.keys1 Ex.page).client.ctx.loginStatus ≠ .loggingIn ∧ HasWallet (worldAfter Toy.env Ex.keys1 Ex.page).client 7 ∧
    Ex.keys1 (worldAfter Toy.env Ex.keys1 Ex.page).client.generated = Ex.key ∧ (worldAfter Toy.env Ex.keys1 Ex.page).client.tasks.length = 0 ∧
    ((worldAfter Toy.env Ex.keys1 Ex.page).run Toy.env Ex.keys1 (pagePrepares 0 Ex.alice [] 5 ++ others Ex.between ++ loginAsks 1 Ex.alice [Ex.bob] ++
      others [] ++ loginSign 1 Ex.aliceSig 100 ++ others Ex.afterwards ++ loginFinish 1 30000000000 [9])).client.ctx.loginStatus = .success := by
  decide +kernel

/-- C63: nothing that ever happened keeps a user from signing in: in a page that has just been loaded, and right after `clear()`, no message is at hand and nothing is in progress, as `C63_login_signs_in` asks for; in one whose calls have all settled, no login is in progress,
as `C63_prepared_login_signs_in` asks for. -/
theorem C63_possible_again (E : Env) (K : SessionKeys) (hs : List Happening) :
    let fresh (w : World) := w.client.ctx.prepareLoginOkResponse = none ∧ w.client.ctx.prepareLoginStatus ≠ .preparing ∧
      w.client.ctx.loginStatus ≠ .loggingIn
    fresh (worldAfter E K (hs ++ [.load])) ∧ fresh (worldAfter E K (hs ++ [.clear])) ∧
    ((∀ pc ∈ (worldAfter E K hs).client.tasks, Running pc = false) → (worldAfter E K hs).client.ctx.loginStatus ≠ .loggingIn) := by
  refine ⟨?_, ?_, fun h => (C74_not_stuck E K hs h).2.1⟩
  · simp only [worldAfter, World.run, List.foldl_append, List.foldl_cons, List.foldl_nil, World.step, Client.load, Client.construct]
    split <;> simp [Context.initial]
  · simp [worldAfter, World.run, World.step, Client.clear]

end Siwe
