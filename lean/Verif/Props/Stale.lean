import Verif.Lemmas.Stale
import Verif.Props.Client
import Verif.Props.LoginHistory
import Verif.Props.Prepared
/- C132: how old the message is that a wallet is asked to sign. -/
namespace Siwe
open Spec

theorem Stale.start {E : Env} {w : World} (h : NoMessage w.client) : StaleWorld E w.calls w.log w [] [] := by
  refine ⟨by simp, by simp, fun p hp => ?_, fun pc hpc => ?_, by simp⟩
  · rw [h.1] at hp; cases hp
  · rcases h.2 pc hpc with ⟨_, rfl⟩ | ⟨_, rfl⟩ | ⟨_, rfl⟩ <;> trivial

/-- C132, proved part: take any moment at which the page has no message at hand and no call of it is running, for example after it was loaded, or
after a failed `login()`. Every text it asks a wallet to sign later was issued by a call executed after that moment. Missing: that it has not
expired since. -/
theorem C132_issued_since_partial (E : Env) (K : SessionKeys) (before after : List Happening) (h : NoMessage (worldAfter E K before).client) :
    ∃ since requests, trace E (worldAfter E K (before ++ after)).calls = trace E (worldAfter E K before).calls ++ since ∧
      (worldAfter E K (before ++ after)).log = (worldAfter E K before).log ++ requests ∧
      ∀ wallet account text, Output.sign wallet account text ∈ requests → ∃ e ∈ since, ∃ addr nonce, e.Issues addr nonce text := by
  obtain ⟨g, m, x⟩ := stale_run (E := E) (K := K) after (Stale.start h)
  have q : worldAfter E K (before ++ after) = (worldAfter E K before).run E K after := by simp [worldAfter, World.run]
  rw [q]
  refine ⟨traceFrom (stateAfter E (worldAfter E K before).calls) g, m, ?_, x.log, fun wallet account text ho => ?_⟩
  · rw [x.calls, trace, traceFrom_append]; rfl
  · obtain ⟨p, ⟨e, he, addr, h1⟩, rfl⟩ := x.out _ ho
    exact ⟨e, he, addr, p.nonce, h1⟩

/-- Non-vacuity: a message is fetched, the user refuses to sign it, and the next `login()` has another one signed. -/
example : NoMessage (worldAfter Toy.env Ex.keys Ex.refuses).client ∧
    (worldAfter Toy.env Ex.keys (Ex.refuses ++ Ex.fetches 1 Ex.alice 50)).log.length = (worldAfter Toy.env Ex.keys Ex.refuses).log.length + 2 := by
  refine ⟨⟨by decide +kernel, ?_⟩, by decide +kernel⟩
  have : (worldAfter Toy.env Ex.keys Ex.refuses).client.tasks = [.failed .wallet] := by decide +kernel
  rw [this]
  intro pc hpc
  exact .inr (.inr ⟨_, List.mem_singleton.mp hpc⟩)

/-- C132, proved part: if the page had no message at hand at some moment, everything the canister has executed since happened within the time
that messages are valid, and the canister has not been upgraded since, then every text the page asks a wallet to sign since that moment has
not expired. Missing: pages that keep a message for longer. -/
theorem C132_soon_partial (E : Env) (K : SessionKeys) (before after : List Happening) (h : NoMessage (worldAfter E K before).client)
    (s : Settings) (p : ProviderSettings) (hs : InForce E (trace E (worldAfter E K before).calls) s p) (t : Nat) (since : List Event)
    (requests : List Output)
    (h1 : trace E (worldAfter E K (before ++ after)).calls = trace E (worldAfter E K before).calls ++ since)
    (h2 : (worldAfter E K (before ++ after)).log = (worldAfter E K before).log ++ requests)
    (hm : SameModule since) (ht : ∀ e ∈ since, t ≤ e.time.toNat ∧ e.time.toNat < t + s.signInExpiresIn.toNat)
    (wallet : Wallet) (account text : Bytes) (ho : Output.sign wallet account text ∈ requests) :
    Unexpired E (trace E (worldAfter E K (before ++ after)).calls) text := by
  obtain ⟨since', requests', g1, g2, g3⟩ := C132_issued_since_partial E K before after h
  obtain rfl : since' = since := List.append_cancel_left (g1.symm.trans h1)
  obtain rfl : requests' = requests := List.append_cancel_left (g2.symm.trans h2)
  obtain ⟨e, he, addr, nonce, hi⟩ := g3 _ _ _ ho
  obtain ⟨b, a, rfl⟩ := List.append_of_mem he
  refine ⟨trace E (worldAfter E K before).calls ++ b, e, a, addr, nonce, s, p, by rw [h1]; simp, hi,
    inForce_carry hs (fun x hx => hm x (List.mem_append_left _ hx)), fun x hx => ?_⟩
  have := (ht x (by simp [hx])).2
  have := (ht e he).1
  omega

/-- Prepared at time 5, with five minutes to sign, and then left alone. -/
def Ex.preparesEarly : List Happening := Ex.page ++ Ex.pagePrepares 0 Ex.alice 5 ++ [.other 400000000000 (.getPrincipal Ex.alice)]

/-- ... until the user presses the button. -/
def Ex.pressesLate : List Happening := Ex.preparesEarly ++ [.login, .resume 1 .settled]

theorem Ex.pressesLate_calls : (worldAfter Toy.env Ex.keys (Ex.pressesLate ++ [.resume 1 (.addresses [Ex.alice])])).calls =
    [(1, .install Ex.input), (2, .rngSeeded [1, 2, 3]), (5, .prepareLogin Ex.alice), (400000000000, .getPrincipal Ex.alice)] := by
  decide +kernel

/-- C132, as one would want it, is false: the page does not know when its message expires. A message is prepared when the page is loaded, as the
README's example has it, and the user presses the button after it has expired. The wallet is asked to sign it nevertheless. -/
theorem C132_signs_expired : ¬SignsUnexpired Toy.env Ex.keys := by
  intro H
  obtain ⟨text, hlog⟩ : ∃ text, (worldAfter Toy.env Ex.keys (Ex.pressesLate ++ [.resume 1 (.addresses [Ex.alice])])).log =
      (worldAfter Toy.env Ex.keys Ex.pressesLate).log ++ [.sign 7 Ex.alice text] := by
    have : (worldAfter Toy.env Ex.keys (Ex.pressesLate ++ [.resume 1 (.addresses [Ex.alice])])).log =
      (worldAfter Toy.env Ex.keys Ex.pressesLate).log ++ [.sign 7 Ex.alice (match (worldAfter Toy.env Ex.keys Ex.pressesLate).client.ctx.prepareLoginOkResponse with
        | some p => p.siweMessage | none => [])] := by decide +kernel
    exact ⟨_, this⟩
  have hx := H Ex.pressesLate (.resume 1 (.addresses [Ex.alice])) 7 Ex.alice text ?_ hlog
  · rw [Ex.pressesLate_calls] at hx
    obtain ⟨before, e, after, addr, nonce, s, p, h1, h2, h3, h4⟩ := hx
    obtain ⟨g1, g2, e1, e2, -, e4⟩ := traceFrom_split (show traceFrom (State.fresh Toy.env) _ = _ from h1)
    rw [h2.1] at e1
    have hg : g1 = [(1, .install Ex.input), (2, .rngSeeded [1, 2, 3])] ∧ e.time = 5 ∧ g2 = [(400000000000, .getPrincipal Ex.alice)] := by
      match g1, e1 with
      | [], e1 => simp at e1
      | [a], e1 => simp at e1
      | [a, b], e1 => simp only [List.cons_append, List.nil_append, List.cons.injEq, Prod.mk.injEq] at e1; simp [e1]
      | [a, b, c], e1 => simp at e1
      | a :: b :: c :: d :: l, e1 => simp at e1
    obtain ⟨rfl, ht, rfl⟩ := hg
    subst e2
    have hset := (inForce_state h3).1
    have hx : (stateAfter Toy.env [(1, Op.install Ex.input), (2, .rngSeeded [1, 2, 3])]).lib.settings.map (·.signInExpiresIn) = some 300000000000 := by
      decide +kernel
    rw [hset] at hx
    have hx : s.signInExpiresIn = 300000000000 := Option.some.inj hx
    have : (400000000000 : UInt64).toNat < e.time.toNat + s.signInExpiresIn.toNat :=
      h4 ⟨400000000000, .getPrincipal Ex.alice, _⟩ (by rw [e4]; exact List.mem_singleton_self _)
    rw [ht, hx] at this
    exact absurd this (by decide)
  · rw [Ex.pressesLate_calls]
    simp [trace, traceFrom]

/-- C132: in general, however late: a `login()` that finds a message asks the wallet to sign it, whatever the canister has executed since it was issued, and
at whatever times. -/
theorem C132_however_late (E : Env) (K : SessionKeys) (w : World) (x : Wallet) (a : Bytes) (l : List Bytes) (p : PrepareLoginOkResponse) (h : History)
    (h1 : w.client.ctx.prepareLoginOkResponse = some p) (h2 : w.client.ctx.prepareLoginStatus ≠ .preparing)
    (h3 : w.client.ctx.loginStatus ≠ .loggingIn) (h4 : HasWallet w.client x) (ha : a ≠ []) :
    (w.run E K (others h ++ loginAsks w.client.tasks.length a l)).log = w.log ++ [.sign x a p.siweMessage] := by
  rw [run_append', run_others]
  exact (at_asks (E := E) (K := K) { w with calls := w.calls ++ h } x a l p h1 h2 h3 h4 ha).log

/-- What comes of it: the user signs, and the canister answers that there is no such message. The page reports it and forgets the message, so
the next attempt has a fresh one signed. -/
theorem C132_in_vain :
    let w := worldAfter Toy.env Ex.keys (Ex.pressesLate ++ [.resume 1 (.addresses [Ex.alice])] ++ Ex.finishes 1 Ex.aliceSig 400000000001)
    w.client.tasks[1]? = some (.failed (.canister (.login .messageNotFound))) ∧ w.client.ctx.loginStatus = .error ∧
      w.client.ctx.prepareLoginOkResponse = none := by
  decide +kernel

end Siwe
