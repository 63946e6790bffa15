import Verif.Lemmas.Moments
import Verif.Props.Client
/- Properties C113 to C115: what subscribers of the client's state are told. -/
namespace Siwe
open Spec

/-! ### C113 -/

/-- C113: the moments of a step end with the state after it; a step without any changes neither the state nor local storage. -/
theorem C113_last (E : Env) (K : SessionKeys) (w : World) (x : Happening) :
    (w.moments x = [] → (w.step E K x).client.ctx = w.client.ctx ∧ (w.step E K x).client.storage = w.client.storage) ∧
    ∀ before m, w.moments x = before ++ [m] →
      (w.step E K x).client.ctx = m.ctx ∧ (w.step E K x).client.storage = m.storage := by
  have key : EndsWith w.client (w.step E K x).client (w.moments x) := by
    cases x with
    | load =>
      cases hc : w.client.storage with
      | none => exact .inr ⟨[⟨.initial, none, true⟩], ⟨{ Context.initial with isInitializing := false }, none, true⟩,
          by simp [World.moments, Client.loadMoments, Client.constructMoments, hc],
          by simp [World.step, Client.load, Client.construct, hc], by simp [World.step, Client.load, Client.construct, hc]⟩
      | some s => exact .inr ⟨_, _, by simp only [World.moments, Client.loadMoments, Client.constructMoments, hc]
                                       exact (List.append_cons [_] _ [_]),
          by simp [World.step, Client.load, Client.construct, hc], by simp [World.step, Client.load, Client.construct, hc]⟩
    | create =>
      cases hc : w.client.storage with
      | none => exact .inr ⟨[], ⟨{ w.client.ctx with isInitializing := false }, none, true⟩,
          by simp [World.moments, Client.constructMoments, hc],
          by simp [World.step, Client.create, Client.construct, hc], by simp [World.step, Client.create, Client.construct, hc]⟩
      | some s => exact .inr ⟨[_], _, by simp only [World.moments, Client.constructMoments, hc]; rfl,
          by simp [World.step, Client.create, Client.construct, hc], by simp [World.step, Client.create, Client.construct, hc]⟩
    | login =>
      simp only [World.step, World.moments, Client.startLogin, Client.startLoginMoments]
      split
      · exact endsWith_one _ _
      · split
        · exact endsWith_one _ _
        · exact .inl ⟨rfl, (setup_ctx _).1, (setup_ctx _).2.1⟩
    | prepareLogin => exact .inl ⟨rfl, (setup_ctx _).1, (setup_ctx _).2.1⟩
    | clear => exact .inr ⟨[_], _, rfl, rfl, rfl⟩
    | resume i a =>
      cases ht : w.client.tasks[i]? with
      | none => simp only [World.step, World.moments, ht]; exact .inl ⟨rfl, rfl, rfl⟩
      | some pc => simp only [World.step, World.moments, ht]; exact resume_last _ _ _
    | execute i t c =>
      refine .inl ⟨rfl, ?_⟩
      simp only [World.step]
      split
      · exact ⟨rfl, rfl⟩
      · split <;> exact ⟨rfl, rfl⟩
    | lagging i t c seen =>
      refine .inl ⟨rfl, ?_⟩
      simp only [World.step]
      split
      · exact ⟨rfl, rfl⟩
      · split <;> exact ⟨rfl, rfl⟩
    | setWallet y => exact .inl ⟨rfl, rfl, rfl⟩
    | inject y => exact .inl ⟨rfl, rfl, rfl⟩
    | other t op => exact .inl ⟨rfl, rfl, rfl⟩
  rcases key with ⟨h, h1, h2⟩ | ⟨b, m, h, h1, h2⟩
  · exact ⟨fun _ => ⟨h1, h2⟩, fun before m hm => absurd (h.symm.trans hm) (by simp)⟩
  · refine ⟨fun hm => absurd (h.symm.trans hm) (by simp), fun before m' hm => ?_⟩
    obtain ⟨_, e⟩ := List.append_inj' (h.symm.trans hm) rfl
    rw [← (List.cons.inj e).1]
    exact ⟨h1, h2⟩

/-- C113: every state that subscribers are told of, also in the midst of a step, shows nobody as signed in, or an account with an
identity that the canister gave this browser for that account. -/
theorem C113_whole (E : Env) (K : SessionKeys) (hs : List Happening) (x : Happening) (m : Moment)
    (hm : m ∈ (worldAfter E K hs).moments x) : WholeState E K ((worldAfter E K hs).step E K x) m.ctx := by
  have ok := worldOk E K hs
  have ok' := worldOk_step ok x
  have whole : ∀ c : Client, CtxOk E K ((worldAfter E K hs).step E K x).calls ((worldAfter E K hs).step E K x).log c →
      WholeState E K ((worldAfter E K hs).step E K x) c.ctx := by
    intro c y
    cases hc : c.storage with
    | none => exact .inl ⟨by rw [y.identity, hc]; rfl, by rw [y.address, hc]; rfl, by rw [y.chain, hc]; rfl⟩
    | some s => exact .inr ⟨s.address, ⟨s.session, s.chain⟩, by rw [y.identity, hc]; rfl, by rw [y.address, hc]; rfl,
        by rw [y.chain, hc]; rfl, y.stored s hc⟩
  have old : CtxOk E K ((worldAfter E K hs).step E K x).calls ((worldAfter E K hs).step E K x).log (worldAfter E K hs).client := by
    obtain ⟨e1, e2⟩ := step_grows E K (worldAfter E K hs) x
    obtain ⟨h', e1⟩ := e1
    obtain ⟨l', e2⟩ := e2
    rw [← e1, ← e2]
    exact ok.ctx.mono
  rcases moment_cases E K hs x m hm with h | h
  · rcases h with h | ⟨c', h, h1, h2, h3, _⟩ | ⟨_, h, _⟩
    · rw [h]; exact whole _ ok'.ctx
    · rw [h]
      have := whole _ old
      rw [WholeState] at this ⊢
      rwa [← h3.identity, ← h3.address, ← h3.chain] at this
    · rw [h]; exact whole _ old
  · rcases h with ⟨_, h, _⟩ | ⟨_, h | ⟨s, hs', h⟩⟩
    · rw [h]; exact .inl ⟨rfl, rfl, rfl⟩
    · rw [h]; exact .inl ⟨rfl, rfl, rfl⟩
    · rw [h]; exact .inr ⟨s.address, ⟨s.session, s.chain⟩, rfl, rfl, rfl, old.stored s hs'⟩

/-- C113: in every such state "success" comes with an identity, and an error of preparing or logging in with its reason (see C64). -/
theorem C113_truthful (E : Env) (K : SessionKeys) (hs : List Happening) (x : Happening) (m : Moment)
    (hm : m ∈ (worldAfter E K hs).moments x) :
    (m.ctx.loginStatus = .success → ∃ i, m.ctx.identity = some i) ∧
    (m.ctx.loginStatus = .error → ∃ e, m.ctx.loginError = some e) ∧
    (m.ctx.prepareLoginStatus = .error → ∃ e, m.ctx.prepareLoginError = some e) := by
  have y := statusOk E K hs
  have y' := statusOk_step (E := E) (K := K) y x
  have done : ∀ c : Client, StatusOk c → (c.ctx.loginStatus = .success → ∃ i, c.ctx.identity = some i) ∧
      (c.ctx.loginStatus = .error → ∃ e, c.ctx.loginError = some e) ∧
      (c.ctx.prepareLoginStatus = .error → ∃ e, c.ctx.prepareLoginError = some e) := fun c z =>
    ⟨fun h => Option.isSome_iff_exists.mp (z.success h), fun h => Option.isSome_iff_exists.mp (z.error h),
      fun h => Option.isSome_iff_exists.mp (z.prepare h)⟩
  rcases moment_cases E K hs x m hm with h | h
  · rcases h with h | ⟨c', h, _, _, _, h3⟩ | ⟨_, h, _⟩
    · rw [h]; exact done _ y'
    · rw [h]; exact done _ (h3 y)
    · rw [h]; exact done _ y
  · rcases h with ⟨_, h, _⟩ | ⟨_, h | ⟨s, hs', h⟩⟩ <;> rw [h] <;> exact ⟨(fun h => nomatch h), (fun h => nomatch h), (fun h => nomatch h)⟩

/-- C113: an app that waits until the state does not say "initializing" never takes a signed-in user for signed out: a page begins with
a state that says so, and whenever subscribers are told of a state that does not, it shows the identity in local storage (`clear()`
excepted, see C114). -/
theorem C113_initializing (E : Env) (K : SessionKeys) (hs : List Happening) :
    (∃ m rest, (worldAfter E K hs).moments .load = m :: rest ∧ m.ctx.isInitializing = true ∧ m.ctx.identity = none) ∧
    (∀ m ∈ (worldAfter E K hs).moments .load, m.ctx.isInitializing = false →
      m.ctx.identity = (worldAfter E K hs).client.ctx.identity ∧ m.ctx.identityAddress = (worldAfter E K hs).client.ctx.identityAddress) ∧
    ∀ x m, x ≠ .load → m ∈ (worldAfter E K hs).moments x → m.ctx.isInitializing = false := by
  have ok := (worldOk E K hs).ctx
  have hi := initialized E K hs
  refine ⟨⟨_, _, rfl, rfl, rfl⟩, fun m hm h => ?_, fun x m hx hm => ?_⟩
  · rw [ok.identity, ok.address]
    simp only [World.moments, Client.loadMoments, Client.constructMoments] at hm
    cases hc : (worldAfter E K hs).client.storage with
    | none =>
      simp only [hc, List.mem_cons, List.not_mem_nil, or_false] at hm
      rcases hm with rfl | rfl <;> exact ⟨rfl, rfl⟩
    | some s =>
      simp only [hc, List.mem_cons, List.not_mem_nil, or_false] at hm
      rcases hm with rfl | rfl | rfl
      · exact nomatch h
      · exact nomatch h
      · exact ⟨rfl, rfl⟩
  · have hi' := step_initializing E K _ x hi
    rcases moment_cases E K hs x m hm with h | h
    · rcases h with h | ⟨c', h, _, _, h3, _⟩ | ⟨_, h, _⟩
      · rw [h]; exact hi'
      · rw [h]; exact h3.initializing.trans hi
      · rw [h]; exact hi
    · rcases h with ⟨_, h, _⟩ | ⟨h, _⟩
      · rw [h]; exact hi
      · exact absurd h hx

/-- Non-vacuity: the last step of the example sign-in has two moments; first the identity is stored, then it is shown. -/
example : ((worldAfter Toy.env Ex.keys Ex.signIn.dropLast).moments (Ex.signIn.getLast (by decide))).map
    (fun m => (m.ctx.identity, m.storage.isSome, m.told)) = [(none, true, false), (some Ex.identity, true, true)] := by decide +kernel

/-- Non-vacuity: a page loaded after it shows nobody while it is initializing, then the identity. -/
example : ((worldAfter Toy.env Ex.keys Ex.signIn).moments .load).map (fun m => (m.ctx.isInitializing, m.ctx.identity)) =
    [(true, none), (true, some Ex.identity), (false, some Ex.identity)] := by decide +kernel

/-! ### C114 -/

/-- C114, proved part: whenever subscribers are told of a state that does not say "initializing", a page opened after the browser ended this
page at that moment shows the identity they were told of; unless they were told by `clear()`.  Missing: `clear()`
(`C114_not_at_sign_out`). -/
theorem C114_told_survives_partial (E : Env) (K : SessionKeys) (hs : List Happening) (x : Happening) (m : Moment) (hx : x ≠ .clear)
    (hm : m ∈ (worldAfter E K hs).moments x) (ht : m.told = true) (hi : m.ctx.isInitializing = false) :
    shownByNextPage (worldAfter E K hs).client m = m.ctx.identity := by
  have ok := worldOk E K hs
  have ok' := (worldOk_step ok x).ctx
  have shown : ∀ m : Moment, shownByNextPage (worldAfter E K hs).client m = m.storage.map fun s => ⟨s.session, s.chain⟩ := by
    intro m
    cases hs : m.storage <;> simp [shownByNextPage, Client.load, Client.construct, hs, Context.initial]
  rw [shown]
  rcases moment_cases E K hs x m hm with h | h
  · rcases h with h | ⟨c', h, h1, _, h3, _⟩ | ⟨h, _⟩
    · rw [h]; exact ok'.identity.symm
    · rw [h]; simp only [Client.told]; rw [h3.identity, ok.ctx.identity, h1]
    · rw [ht] at h; exact nomatch h
  · rcases h with ⟨h, _⟩ | ⟨_, h | ⟨s, _, h⟩⟩
    · exact absurd h hx
    · rw [h] at hi; exact nomatch hi
    · rw [h] at hi; exact nomatch hi

/-- C114, proved part: whenever the browser ends the page, within whatever step, the next page shows who was shown before the step or who would
have been shown after it; nothing in between. -/
theorem C114_before_or_after_partial (E : Env) (K : SessionKeys) (hs : List Happening) (x : Happening) (m : Moment)
    (hm : m ∈ (worldAfter E K hs).moments x) :
    shownByNextPage (worldAfter E K hs).client m = (worldAfter E K hs).client.ctx.identity ∨
    shownByNextPage (worldAfter E K hs).client m = ((worldAfter E K hs).step E K x).client.ctx.identity := by
  have ok := worldOk E K hs
  have ok' := (worldOk_step ok x).ctx
  have shown : ∀ m : Moment, shownByNextPage (worldAfter E K hs).client m = m.storage.map fun s => ⟨s.session, s.chain⟩ := by
    intro m
    cases hs : m.storage <;> simp [shownByNextPage, Client.load, Client.construct, hs, Context.initial]
  rw [shown, ok.ctx.identity]
  rcases moment_cases E K hs x m hm with h | h
  · rcases h with h | ⟨c', h, h1, _⟩ | ⟨_, _, h⟩
    · rw [h]; exact .inr ok'.identity.symm
    · rw [h]; simp only [Client.told, h1]; exact .inl trivial
    · rw [h]; exact .inr ok'.identity.symm
  · rcases h with ⟨rfl, _, h | h⟩ | ⟨rfl, h | ⟨s, h0, h⟩⟩
    · rw [h]; exact .inl rfl
    · rw [h]; exact .inr rfl
    · rw [h]; exact .inl rfl
    · rw [h, h0]; exact .inl rfl

/-- C114 fails of the code: `clear()` tells the subscribers that nobody is signed in before it empties local storage; if the page ends
then, the next one shows the user as signed in. -/
theorem C114_not_at_sign_out : ¬ToldSurvives Toy.env Ex.keys := by
  intro H
  have h := H Ex.signIn .clear ⟨(worldAfter Toy.env Ex.keys Ex.signIn).client.clear.ctx, (worldAfter Toy.env Ex.keys Ex.signIn).client.storage, true⟩
    (by simp [World.moments, Client.clearMoments]) rfl
    (by simp only [Client.clear]; exact initialized _ _ _)
  have h2 : shownByNextPage (worldAfter Toy.env Ex.keys Ex.signIn).client
      ⟨(worldAfter Toy.env Ex.keys Ex.signIn).client.clear.ctx, (worldAfter Toy.env Ex.keys Ex.signIn).client.storage, true⟩ =
      some Ex.identity := by decide +kernel
  rw [h2] at h
  exact nomatch h

/-! ### C115 -/

/-- The wallet refuses to sign, then the user signs out. -/
def Ex.refusedToSign : List Happening := Ex.page ++ Ex.fetches 0 Ex.alice 5 ++ [.resume 0 .rejected]

/-- C115 fails of the code: after a refused signature and `clear()` the state says that signing failed, without any error. -/
theorem C115_error_missing : ¬SignatureErrorsGiven Toy.env Ex.keys := by
  intro H
  obtain ⟨e, h⟩ := H (Ex.refusedToSign ++ [.clear]) (by decide +kernel)
  have : (worldAfter Toy.env Ex.keys (Ex.refusedToSign ++ [.clear])).client.ctx.signMessageError = none := by decide +kernel
  rw [this] at h
  exact nomatch h

/-- C115 fails of the code: `clear()` does not put everything back. -/
theorem C115_not_reset : ¬ClearResets Toy.env Ex.keys := by
  intro H
  have h := congrArg Context.signMessageStatus (H Ex.refusedToSign)
  have : (worldAfter Toy.env Ex.keys (Ex.refusedToSign ++ [.clear])).client.ctx.signMessageStatus = .error := by decide +kernel
  rw [this] at h
  exact nomatch h

/-- C115, proved part: `clear()` puts everything back but the status of signing.  Missing: that status (`C115_not_reset`). -/
theorem C115_reset_partial (E : Env) (K : SessionKeys) (hs : List Happening) :
    (worldAfter E K (hs ++ [.clear])).client.ctx = { Context.initial with
      isInitializing := false
      signMessageStatus := (worldAfter E K hs).client.ctx.signMessageStatus } := by
  have e : worldAfter E K (hs ++ [.clear]) = (worldAfter E K hs).step E K .clear := by simp [worldAfter, World.run]
  have hi := initialized E K hs
  rw [e]
  simp only [World.step, Client.clear, Context.initial, hi]

/-- C115, proved part: the error is there when signing fails, and stays as long as the status says so, unless `clear()` is called or
another `login()` gets its account.  Missing: these two (`C115_error_missing`). -/
theorem C115_error_given_partial (E : Env) (K : SessionKeys) (w : World) (x : Happening)
    (h1 : (w.step E K x).client.ctx.signMessageStatus = .error) (h2 : (w.step E K x).client.ctx.signMessageError = none) :
    (w.client.ctx.signMessageStatus = .error ∧ w.client.ctx.signMessageError = none) ∨ x = .clear ∨
    ∃ i l, x = .resume i (.addresses l) ∧ w.client.tasks[i]? = some .loginAddresses := by
  cases x with
  | load => cases hc : w.client.storage <;> simp [World.step, Client.load, Client.construct, hc, Context.initial] at h1
  | create =>
    refine .inl ?_
    cases hc : w.client.storage <;> simp [World.step, Client.create, Client.construct, hc] at h1 h2 <;> exact ⟨h1, h2⟩
  | clear => exact .inr (.inl rfl)
  | prepareLogin =>
    simp only [World.step, Client.start, Client.startPrepareLogin, (setup_ctx _).1] at h1 h2
    exact .inl ⟨h1, h2⟩
  | login =>
    refine .inl ?_
    simp only [World.step, Client.start, Client.startLogin] at h1 h2
    split at h1
    · next h =>
      rw [if_pos h] at h2
      exact ⟨h1, h2⟩
    · next h =>
      rw [if_neg h] at h2
      split at h1
      · next h' => rw [if_pos h'] at h2; exact ⟨h1, h2⟩
      · next h' => rw [if_neg h'] at h2; simp only [(setup_ctx _).1] at h1 h2; exact ⟨h1, h2⟩
  | resume i a =>
    cases ht : w.client.tasks[i]? with
    | none => simp only [World.step, ht] at h1 h2; exact .inl ⟨h1, h2⟩
    | some pc =>
      simp only [World.step, ht] at h1 h2
      rcases resume_signature w.client pc a h1 h2 with h | ⟨l, h, h'⟩
      · exact .inl h
      · subst h h'
        exact .inr (.inr ⟨i, l, rfl, ht⟩)
  | execute i t c =>
    refine .inl ?_
    simp only [World.step] at h1 h2
    split at h1
    · next h => simp only [h] at h2; exact ⟨h1, h2⟩
    · next pc h =>
      simp only [h] at h2
      split at h1
      · next h' => simp only [h'] at h2; exact ⟨h1, h2⟩
      · next h' => simp only [h'] at h2; exact ⟨h1, h2⟩
  | lagging i t c seen =>
    refine .inl ?_
    simp only [World.step] at h1 h2
    split at h1
    · next h => simp only [h] at h2; exact ⟨h1, h2⟩
    · next pc h =>
      simp only [h] at h2
      split at h1
      · next h' => simp only [h'] at h2; exact ⟨h1, h2⟩
      · next h' => simp only [h'] at h2; exact ⟨h1, h2⟩
  | setWallet y => exact .inl ⟨h1, h2⟩
  | inject y => exact .inl ⟨h1, h2⟩
  | other t op => exact .inl ⟨h1, h2⟩

/-- Non-vacuity: after the refusal the error is given; clearing it meets the hypotheses of `C115_error_given_partial`. -/
example : (worldAfter Toy.env Ex.keys Ex.refusedToSign).client.ctx.signMessageStatus = .error ∧
    (worldAfter Toy.env Ex.keys Ex.refusedToSign).client.ctx.signMessageError = some .wallet ∧
    ((worldAfter Toy.env Ex.keys Ex.refusedToSign).step Toy.env Ex.keys .clear).client.ctx.signMessageStatus = .error ∧
    ((worldAfter Toy.env Ex.keys Ex.refusedToSign).step Toy.env Ex.keys .clear).client.ctx.signMessageError = none := by decide +kernel

end Siwe
