import Verif.Props.Client
/- Property C116: the query for the delegation is answered by a replica that lags behind. -/
namespace Siwe
open Spec

/-- The last steps of a `login()` whose query is answered by a replica that has executed the first `seen` calls. -/
def loginFinishLagging (i : Nat) (t : UInt64) (cert : Bytes) (seen : Nat) : List Happening :=
  [.lagging i t (some cert) seen, .resume i .settled]

/-- What these two steps do. -/
theorem lagging_run {E : Env} {K : SessionKeys} {w : World} {i n seen : Nat} {a : Bytes} {d : LoginDetails} {t : UInt64}
    {cert : Option Bytes} {r : Reply} (h : w.client.tasks[i]? = some (.delegationSent a n d))
    (hr : (step (stateAfter E (w.calls.take seen)) t (.getDelegation cert a (K n) d.expiration)).2 = r) :
    ∃ c : Client, c.ctx = w.client.ctx ∧ c.storage = w.client.storage ∧ c.tasks.length = w.client.tasks.length ∧
    w.run E K [.lagging i t cert seen, .resume i .settled] =
      ⟨{ (c.delegationReply a n d false r).1 with tasks := c.tasks.set i (c.delegationReply a n d false r).2.1 }, w.calls,
        w.log ++ (c.delegationReply a n d false r).2.2⟩ := by
  have hi := (List.getElem?_eq_some_iff.mp h).1
  have e1 : w.step E K (.lagging i t cert seen) =
      ⟨{ w.client with tasks := w.client.tasks.set i (.delegationReplied a n d r) }, w.calls, w.log⟩ := by
    simp only [World.step, h, Pc.query, hr, Pc.answered]
  refine ⟨{ w.client with tasks := w.client.tasks.set i (.delegationReplied a n d r) }, rfl, rfl, by simp, ?_⟩
  rw [run_cons', e1]
  simp only [World.run, List.foldl_cons, List.foldl_nil, World.step, List.getElem?_set_self hi, Client.resume]

theorem at_finish_lagging {E : Env} {K : SessionKeys} {w : World} {i n m : Nat} {x : Wallet} {log : List Output} {a cert : Bytes}
    {h : History} {t2 : UInt64} {d : LoginDetails} {sd : SignedDelegation} (seen : Nat) (g : At i (.delegationSent a n d) h m x log w)
    (hd : (step (stateAfter E (h.take seen)) t2 (.getDelegation (some cert) a (K n) d.expiration)).2 = .delegation sd) :
    (w.run E K (loginFinishLagging i t2 cert seen)).client.ctx.identity =
      some ⟨n, ⟨sd.delegation, sd.signature, d.userCanisterPubkey⟩⟩ ∧
    (w.run E K (loginFinishLagging i t2 cert seen)).client.ctx.identityAddress = some a ∧
    (w.run E K (loginFinishLagging i t2 cert seen)).client.ctx.loginStatus = .success ∧
    (w.run E K (loginFinishLagging i t2 cert seen)).client.tasks[i]? =
      some (.loggedIn ⟨n, ⟨sd.delegation, sd.signature, d.userCanisterPubkey⟩⟩) ∧
    (w.run E K (loginFinishLagging i t2 cert seen)).log = log := by
  have hi := (List.getElem?_eq_some_iff.mp g.task).1
  rw [← g.calls] at hd
  obtain ⟨c, h1, h2, h3, h4⟩ := lagging_run g.task hd
  rw [loginFinishLagging, h4]
  simp only [Client.delegationReply]
  refine ⟨rfl, rfl, rfl, ?_, ?_⟩
  · simp only [Bool.false_eq_true, if_false]
    rw [List.getElem?_set_self (by rw [h3]; exact hi)]
    rfl
  · simpa using g.log

/-- C116: as C63, but the query for the delegation is answered by a replica that lags behind: it has executed the login and the calls `h2`
after it, but not the calls `h3` after those, whatever they are.  The user is signed in all the same, and the chain verifies against what
that replica has certified. -/
theorem C116_signs_in (E : Env) (K : SessionKeys) (w : World) (x : Wallet) (a sig cert : Bytes) (l l' : List Bytes)
    (t0 t1 t2 : UInt64) (h1 h2 h3 : History) (p : PrepareLoginOkResponse)
    (hmsg : w.client.ctx.prepareLoginOkResponse = none) (hprep : w.client.ctx.prepareLoginStatus ≠ .preparing)
    (hlog : w.client.ctx.loginStatus ≠ .loggingIn) (hwal : HasWallet w.client x)
    (hp : (step (stateAfter E w.calls) t0 (.prepareLogin a)).2 = .prepared p)
    (hsig : HexString 130 sig) (hsigns : Signs E sig p.siweMessage a)
    (hk : K w.client.generated ≠ []) (hder : E.derOk (K w.client.generated) = true) (full : History)
    (hfull : full = w.calls ++ [(t0, .prepareLogin a)] ++ h1 ++
      [(t1, .login sig a (K w.client.generated) p.nonce)] ++ h2)
    (hm1 : SameModule (traceFrom (stateAfter E (w.calls ++ [(t0, .prepareLogin a)])) h1))
    (hm2 : SameModule (traceFrom (stateAfter E (w.calls ++ [(t0, .prepareLogin a)] ++ h1 ++
      [(t1, .login sig a (K w.client.generated) p.nonce)])) h2))
    (ho : ∀ e ∈ traceFrom (stateAfter E (w.calls ++ [(t0, .prepareLogin a)])) h1, ¬e.Concerns a p.nonce)
    (hf1 : ∀ y ∈ w.calls ++ h1, ∀ sig' a' nonce', y.2 ≠ .login sig' a' (K w.client.generated) nonce')
    (hf2 : ∀ y ∈ h2, ∀ sig' a' nonce', y.2 ≠ .login sig' a' (K w.client.generated) nonce')
    (hx2 : ∀ y ∈ h2, y.1.toNat ≤ t2.toNat) (ht2 : t2.toNat < min (t1.toNat + minute) (2 ^ 64 - 1))
    (hc : cert.length < 2 ^ 64) (hharm : RefusalsHarmless (trace E full)) :
    ∃ s, (stateAfter E w.calls).lib.settings = some s ∧
    ((∀ y ∈ h1, y.1.toNat < min (t0.toNat + s.signInExpiresIn.toNat) (2 ^ 64 - 1)) →
      t1.toNat < min (t0.toNat + s.signInExpiresIn.toNat) (2 ^ 64 - 1) →
    (∃ w' i, w' = w.run E K (loginFetch w.client.tasks.length a l l' t0 ++ others h1 ++ loginSign w.client.tasks.length sig t1 ++
        others (h2 ++ h3) ++ loginFinishLagging w.client.tasks.length t2 cert full.length) ∧
      w'.client.tasks[w.client.tasks.length]? = some (.loggedIn i) ∧ w'.client.ctx.loginStatus = .success ∧
      w'.client.ctx.identityAddress = some a ∧ w'.client.ctx.identity = some i ∧ i.session = w.client.generated ∧
      i.chain.delegation.pubkey = K w.client.generated ∧ i.chain.delegation.targets = s.targets ∧
      i.chain.delegation.expiration.toNat = min (t0.toNat + s.sessionExpiresIn.toNat) (2 ^ 64 - 1) ∧
      w'.log = w.log ++ [.prepareLogin a, .sign x a p.siweMessage, .login sig a i.session p.nonce,
        .getDelegation a i.session i.chain.delegation.expiration] ∧
      Verifies E E.canisterId (stateAfter E full).certifiedData cert i.chain.publicKey
        ⟨i.chain.delegation, i.chain.signature⟩) ∨
    (∃ y ∈ trace E full, ∃ a' key' nonce' d' s' d, y.LogsIn a' key' nonce' d' ∧
      InForce E (trace E full) s' (stateAfter E full).settings ∧ d.toNat = min (t0.toNat + s.sessionExpiresIn.toNat) (2 ^ 64 - 1) ∧
      GrantCollision E s' a (K w.client.generated) d a' key' d'.expiration) ∨
    ∃ e ∈ traceFrom (stateAfter E (w.calls ++ [(t0, .prepareLogin a)])) h1, ∃ a' nonce', e.Concerns a' nonce' ∧
      KeyCollision E a p.nonce a' nonce') := by
  obtain ⟨s, hs, hmain⟩ := C53_sign_in_works E w.calls h1 t0 t1 a sig (K w.client.generated) p hp hsig hsigns hk hder hm1 ho hf1
  refine ⟨s, hs, fun k1 k2 => ?_⟩
  have ha : a ≠ [] := by
    obtain ⟨_, _, _, _, q3, _⟩ := prepared_pending w.calls t0 a p hp
    rintro rfl
    obtain ⟨ds, q, _⟩ := q3
    cases q
  have hs0 : sig ≠ [] := by
    rintro rfl
    obtain ⟨ds, q, _⟩ := hsig
    cases q
  rcases hmain k1 k2 with ⟨d, hd, hexp, hmain⟩ | hcol
  · rcases hmain h2 t2 cert full hfull hm2 hf2 hx2 ht2 hc hharm with ⟨sd, hsd, hdel, hver⟩ | ⟨y, hy, a', key', nonce', d', s', q⟩
    · left
      have g := at_fetch (E := E) (K := K) w x a l l' t0 p hmsg hprep hlog hwal ha hp
      have g := At.others (E := E) (K := K) h1 g
      have g := at_sign (K := K) g hs0 hd
      have g := At.others (E := E) (K := K) (h2 ++ h3) g
      rw [← List.append_assoc, ← hfull] at g
      obtain ⟨r1, r2, r3, r4, r5⟩ := at_finish_lagging (K := K) full.length g (by rw [List.take_left]; exact hsd)
      refine ⟨_, ⟨w.client.generated, ⟨sd.delegation, sd.signature, d.userCanisterPubkey⟩⟩, rfl, ?_, ?_, ?_, ?_, rfl, ?_, ?_, ?_, ?_, hver⟩
      · simp only [run_append']; exact r4
      · simp only [run_append']; exact r3
      · simp only [run_append']; exact r2
      · simp only [run_append']; exact r1
      · rw [hdel]
      · rw [hdel]
      · rw [hdel]; exact hexp
      · simp only [run_append']
        rw [r5, hdel]
        simp only [List.append_assoc, List.cons_append, List.nil_append]
    · exact .inr (.inl ⟨y, hy, a', key', nonce', d', s', d.expiration, q.1, q.2.1, hexp, q.2.2⟩)
  · exact .inr (.inr hcol)

/-- Non-vacuity: the page of the examples, as beside C63; after the calls that the replica has executed the module is upgraded. -/
example : ((worldAfter Toy.env Ex.keys1 Ex.page).run Toy.env Ex.keys1 (loginFetch 0 Ex.alice [] [Ex.bob] 5 ++ others Ex.between ++
      loginSign 0 Ex.aliceSig 100 ++ others (Ex.afterwards ++ [(200, .upgrade Ex.input)]) ++ loginFinishLagging 0 30000000000 [9]
        (Ex.start ++ [(5, Op.prepareLogin Ex.alice)] ++ Ex.between ++ [(100, Op.login Ex.aliceSig Ex.alice Ex.key (Ex.nonce 3))] ++
          Ex.afterwards).length)).client.ctx.loginStatus = .success ∧
    ((worldAfter Toy.env Ex.keys1 Ex.page).run Toy.env Ex.keys1 (loginFetch 0 Ex.alice [] [Ex.bob] 5 ++ others Ex.between ++
      loginSign 0 Ex.aliceSig 100 ++ others (Ex.afterwards ++ [(200, .upgrade Ex.input)]) ++
      loginFinish 0 30000000000 [9])).client.ctx.loginStatus = .error := by
  decide +kernel

/-- C116: a replica that lags so far behind that it has not executed the login (nor another login of the account with the same session key
and expiration) does not give the delegation: `login()` fails, the message is forgotten, and who is displayed and stored as signed in
does not change.  The alternative exhibits a SHA-256 collision with another login. -/
theorem C116_stale_fails (E : Env) (K : SessionKeys) (w : World) (i n seen : Nat) (a : Bytes) (d : LoginDetails) (t : UInt64)
    (cert : Option Bytes) (h : w.client.tasks[i]? = some (.delegationSent a n d))
    (hno : ∀ e ∈ trace E (w.calls.take seen), ∀ nonce d', e.LogsIn a (K n) nonce d' → d'.expiration ≠ d.expiration) :
    (∃ w' err, w' = w.run E K [.lagging i t cert seen, .resume i .settled] ∧
      w'.client.tasks[i]? = some (.failed err) ∧ w'.client.ctx.loginStatus = .error ∧ w'.client.ctx.loginError = some err ∧
      w'.client.ctx.prepareLoginOkResponse = none ∧ w'.client.ctx.identity = w.client.ctx.identity ∧
      w'.client.ctx.identityAddress = w.client.ctx.identityAddress ∧ w'.client.storage = w.client.storage ∧
      w'.calls = w.calls ∧ w'.log = w.log) ∨
    ∃ e ∈ trace E (w.calls.take seen), ∃ a' key' nonce d' s, e.LogsIn a' key' nonce d' ∧
      InForce E (trace E (w.calls.take seen)) s (stateAfter E (w.calls.take seen)).settings ∧
      GrantCollision E s a (K n) d.expiration a' key' d'.expiration := by
  have hi := (List.getElem?_eq_some_iff.mp h).1
  obtain ⟨r, hr⟩ : ∃ r, (step (stateAfter E (w.calls.take seen)) t (.getDelegation cert a (K n) d.expiration)).2 = r := ⟨_, rfl⟩
  by_cases hd : ∃ sd, r = .delegation sd
  · obtain ⟨sd, rfl⟩ := hd
    obtain ⟨b, e, af, a', key', nonce, d', s, g1, g2, g3, g4, g5, g6⟩ := C27_needs_recent_login E _ t cert a (K n) d.expiration sd hr
    have he : e ∈ trace E (w.calls.take seen) := by rw [g1]; simp
    rcases g6 with ⟨rfl, rfl, g6⟩ | g6
    · exact absurd g6 (hno e he nonce d' g3)
    · exact .inr ⟨e, he, a', key', nonce, d', s, g3, g5, g6⟩
  · left
    have hf : ∃ err, ∀ c : Client, c.delegationReply a n d false r = c.loginFails err := by
      cases r with
      | delegation sd => exact absurd ⟨sd, rfl⟩ hd
      | err e => exact ⟨_, fun _ => rfl⟩
      | _ => exact ⟨.network, fun _ => rfl⟩
    obtain ⟨err, hf⟩ := hf
    obtain ⟨c, h1, h2, h3, h4⟩ := lagging_run h hr
    rw [hf] at h4
    refine ⟨_, err, rfl, ?_⟩
    rw [h4]
    simp only [Client.loginFails, List.append_nil, h1, h2]
    refine ⟨?_, trivial, trivial, trivial, trivial, trivial, trivial, trivial, trivial⟩
    rw [List.getElem?_set_self (by rw [h3]; exact hi)]

/-- Non-vacuity: in the example sign-in, the query is answered by a replica that has executed the calls up to the message: the login, which
the canister has accepted, fails. -/
example : (worldAfter Toy.env Ex.keys (Ex.signIn.dropLast.dropLast ++ [.lagging 0 110 (some [9]) 3, .resume 0 .settled])).client.tasks[0]? =
      some (.failed (.canister (.delegation .signatureNotFound))) ∧
    (trace Toy.env (worldAfter Toy.env Ex.keys Ex.signIn).calls).any (fun e => match e.reply with | .loggedIn _ => true | _ => false) = true ∧
    ((trace Toy.env ((worldAfter Toy.env Ex.keys Ex.signIn).calls.take 3)).all
      (fun e => match e.reply with | .loggedIn _ => false | _ => true)) = true := by
  decide +kernel

/-- C116: a replica that is up to date answers as the canister itself would: nothing but the record of the calls differs. -/
theorem C116_up_to_date (E : Env) (K : SessionKeys) (w : World) (i n seen : Nat) (a : Bytes) (d : LoginDetails) (t : UInt64)
    (cert : Option Bytes) (h : w.client.tasks[i]? = some (.delegationSent a n d)) (hs : w.calls.length ≤ seen) :
    (w.step E K (.lagging i t cert seen)).client = (w.step E K (.execute i t cert)).client ∧
    (w.step E K (.lagging i t cert seen)).log = (w.step E K (.execute i t cert)).log ∧
    (w.step E K (.execute i t cert)).calls = w.calls ++ [(t, .getDelegation cert a (K n) d.expiration)] ∧
    (w.step E K (.lagging i t cert seen)).calls = w.calls := by
  simp only [World.step, h, Pc.query, Pc.request, List.take_of_length_le hs]
  exact ⟨trivial, trivial, trivial, trivial⟩

end Siwe
