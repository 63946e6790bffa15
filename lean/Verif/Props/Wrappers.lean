import Verif.Spec.Wrappers
import Verif.Props.ClientMore
/- Properties C69, C70: the React and Vue wrappers. -/
namespace Siwe
open Spec

/-! ### C69 -/

/-- C69: components below the React provider see the client's state. -/
theorem C69_react (E : Env) (K : SessionKeys) (hs : List Happening) :
    Shows (reactView (worldAfter E K hs).client.ctx) (worldAfter E K hs).client.ctx := by
  refine ⟨?_, ?_⟩
  · constructor <;> exact beq_iff_eq
  · constructor <;> rfl

theorem shows_notified (c : Context) : Shows (vueNotified c) c := by
  refine ⟨?_, ?_⟩
  · constructor <;> exact beq_iff_eq
  · constructor <;> rfl

theorem shows_create {c : Context} (h1 : c.prepareLoginStatus = .idle) (h2 : c.loginStatus = .idle) : Shows (vueCreate c) c := by
  refine ⟨?_, ?_⟩
  · constructor <;> simp [vueCreate, h1, h2]
  · constructor <;> rfl

theorem load_idle (c : Client) : c.load.ctx.prepareLoginStatus = .idle ∧ c.load.ctx.loginStatus = .idle := by
  simp only [Client.load, Client.construct]
  split <;> exact ⟨rfl, rfl⟩

/-- What a Vue app is promised: after a page load, whenever the provider is mounted, its components see the client's state. -/
def VueShows (E : Env) (K : SessionKeys) : Prop :=
  ∀ hs es, NoLoad es → (VuePage.run E K (.create (worldAfter E K (hs ++ [.load]))) es).mounted = true →
    Shows (VuePage.run E K (.create (worldAfter E K (hs ++ [.load]))) es).view
      (VuePage.run E K (.create (worldAfter E K (hs ++ [.load]))) es).world.client.ctx

/-- `login()` is called while the components are set up, in a page without a wallet: it fails before the provider is mounted. -/
def Ex.earlyLogin : List VueEvent := [.happens .login true, .happens (.resume 0 .settled) true, .mount]

/-- C69, the negation: changes between the creation of the Vue provider's state and its mounting are not seen. -/
theorem C69_vue_not_always (E : Env) (K : SessionKeys) : ¬VueShows E K := by
  intro h
  have := (h [] Ex.earlyLogin (by intro s hs; simp [Ex.earlyLogin] at hs) rfl).2.loginStatus
  exact nomatch this

/-- C69, the negation for a provider created again in the same page (its component was removed and comes back after the user has
signed in): it shows a successful login and says at the same time that none has succeeded. -/
theorem C69_vue_recreated : ∃ hs, (worldAfter Toy.env Ex.keys hs).client.construct.ctx.loginStatus = .success ∧
    (vueCreate (worldAfter Toy.env Ex.keys hs).client.construct.ctx).loginStatus = .success ∧
    (vueCreate (worldAfter Toy.env Ex.keys hs).client.construct.ctx).isLoginSuccess = false ∧
    (vueCreate (worldAfter Toy.env Ex.keys hs).client.construct.ctx).isLoginIdle = true :=
  ⟨Ex.signIn, by decide +kernel⟩

theorem vue_step_shows {E : Env} {K : SessionKeys} {p : VuePage} (h1 : p.mounted = true)
    (h2 : Shows p.view p.world.client.ctx) (e : VueEvent) :
    (p.step E K e).mounted = true ∧ Shows (p.step E K e).view (p.step E K e).world.client.ctx := by
  cases e with
  | mount => exact ⟨rfl, h2⟩
  | happens x sent =>
    refine ⟨h1, ?_⟩
    simp only [VuePage.step]
    split
    · exact shows_notified _
    · next h =>
      simp only [h1, Bool.true_and, Bool.or_eq_true, bne_iff_ne, ne_eq, not_or, not_not] at h
      rw [h.2]
      exact h2

theorem vue_run_shows {E : Env} {K : SessionKeys} (es : List VueEvent) {p : VuePage} (h1 : p.mounted = true)
    (h2 : Shows p.view p.world.client.ctx) : Shows (p.run E K es).view (p.run E K es).world.client.ctx := by
  induction es generalizing p with
  | nil => exact h2
  | cons e es ih =>
    obtain ⟨g1, g2⟩ := vue_step_shows (E := E) (K := K) h1 h2 e
    exact ih g1 g2

theorem vue_unmounted {E : Env} {K : SessionKeys} (es : List VueEvent) {p : VuePage} (h : p.mounted = false)
    (hm : .mount ∉ es) : (p.run E K es).view = p.view := by
  induction es generalizing p with
  | nil => rfl
  | cons e es ih =>
    cases e with
    | mount => exact absurd List.mem_cons_self hm
    | happens x sent =>
      rw [show p.run E K (.happens x sent :: es) = (p.step E K (.happens x sent)).run E K es from rfl,
        ih (p := p.step E K (.happens x sent)) h fun g => hm (List.mem_cons_of_mem _ g)]
      simp [VuePage.step, h]

/-- C69, partial: if the client's state is at the mounting of the provider what it was when the page was loaded, then from the
mounting on components see the client's state.  (Missing: changes between page load and mounting, see `C69_vue_not_always`, and
providers created again, see `C69_vue_recreated`.) -/
theorem C69_vue_shows_partial (E : Env) (K : SessionKeys) (hs : List Happening) (es es' : List VueEvent) (hm : .mount ∉ es)
    (hc : (VuePage.run E K (.create (worldAfter E K (hs ++ [.load]))) es).world.client.ctx =
      (worldAfter E K (hs ++ [.load])).client.ctx) :
    Shows (VuePage.run E K (.create (worldAfter E K (hs ++ [.load]))) (es ++ .mount :: es')).view
      (VuePage.run E K (.create (worldAfter E K (hs ++ [.load]))) (es ++ .mount :: es')).world.client.ctx := by
  have e : worldAfter E K (hs ++ [.load]) = { worldAfter E K hs with client := (worldAfter E K hs).client.load } := by
    simp [worldAfter, World.run, World.step]
  rw [show ∀ p : VuePage, p.run E K (es ++ .mount :: es') = ((p.run E K es).step E K .mount).run E K es' from
    fun p => by simp [VuePage.run]]
  refine vue_run_shows es' rfl ?_
  simp only [VuePage.step]
  rw [hc, vue_unmounted es rfl hm]
  have hi := load_idle (worldAfter E K hs).client
  simp only [VuePage.create]
  rw [e]
  exact shows_create hi.1 hi.2

/-- C69, partial: however it was created, from the first change or update of the client's state after the mounting, components see
the client's state. -/
theorem C69_vue_from_first_update_partial (E : Env) (K : SessionKeys) (p : VuePage) (hm : p.mounted = true) (x : Happening)
    (sent : Bool) (hx : sent = true ∨ (p.world.step E K x).client.ctx ≠ p.world.client.ctx) (es : List VueEvent) :
    Shows (p.run E K (.happens x sent :: es)).view (p.run E K (.happens x sent :: es)).world.client.ctx := by
  refine vue_run_shows (p := p.step E K (.happens x sent)) es hm ?_
  simp only [VuePage.step]
  rw [if_pos (by simpa [hm] using hx)]
  exact shows_notified _

/-- C69, exactly when components of a Vue app see the client's state at the mounting of a provider, and until the first update after it:
if the state looks as it did when the provider was created, and both statuses were idle then.  (Missing from C69: that this is
always so, see `C69_vue_not_always` and `C69_vue_recreated`.) -/
theorem C69_vue_exact_partial (E : Env) (K : SessionKeys) (w : World) (es es' : List VueEvent) (hm : .mount ∉ es)
    (hq : ∀ i, i < es'.length → ((VuePage.create w).run E K (es ++ .mount :: es'.take (i + 1))).world.client.ctx =
      ((VuePage.create w).run E K es).world.client.ctx) (hs : ∀ x, .happens x true ∉ es') :
    Shows ((VuePage.create w).run E K (es ++ .mount :: es')).view ((VuePage.create w).run E K (es ++ .mount :: es')).world.client.ctx ↔
      w.client.ctx.prepareLoginStatus = .idle ∧ w.client.ctx.loginStatus = .idle ∧
      LooksLike w.client.ctx ((VuePage.create w).run E K es).world.client.ctx := by
  have e1 : ∀ l, (VuePage.create w).run E K (es ++ .mount :: l) = (((VuePage.create w).run E K es).step E K .mount).run E K l :=
    fun l => by simp [VuePage.run]
  have hv : ((VuePage.create w).run E K es).view = vueCreate w.client.ctx := vue_unmounted es rfl hm
  -- nothing is updated after the mounting
  have key : ∀ (l : List VueEvent) (p : VuePage), p.mounted = true → (∀ x, .happens x true ∉ l) →
      (∀ i, i < l.length → (p.run E K (l.take (i + 1))).world.client.ctx = p.world.client.ctx) →
      (p.run E K l).view = p.view ∧ (p.run E K l).world.client.ctx = p.world.client.ctx := by
    intro l
    induction l with
    | nil => intro p _ _ _; exact ⟨rfl, rfl⟩
    | cons e l ih =>
      intro p hp hs hq
      have h0 : (p.step E K e).world.client.ctx = p.world.client.ctx := hq 0 (by simp)
      have hp' : (p.step E K e).mounted = true := by cases e <;> first | rfl | exact hp
      have hv : (p.step E K e).view = p.view := by
        cases e with
        | mount => rfl
        | happens x sent =>
          have h1 : (p.world.step E K x).client.ctx = p.world.client.ctx := h0
          cases sent with
          | true => exact absurd List.mem_cons_self (hs x)
          | false => simp [VuePage.step, h1]
      obtain ⟨g1, g2⟩ := ih (p.step E K e) hp' (fun x hx => hs x (List.mem_cons_of_mem _ hx)) fun i hi => by
        rw [h0]; exact hq (i + 1) (by simp; omega)
      exact ⟨g1.trans hv, g2.trans h0⟩
  obtain ⟨g1, g2⟩ := key es' (((VuePage.create w).run E K es).step E K .mount) rfl hs fun i hi => by
    rw [← e1]; exact hq i hi
  rw [e1, g1, g2]
  simp only [VuePage.step, hv]
  generalize ((VuePage.create w).run E K es).world.client.ctx = c
  constructor
  · rintro ⟨hf, h⟩
    exact ⟨hf.prepareIdle.mp rfl, hf.loginIdle.mp rfl,
      ⟨h.1, h.2, h.3, h.4, h.5, h.6, h.7, h.8, h.9, h.10⟩⟩
  · rintro ⟨h1, h2, h⟩
    exact ⟨(shows_create h1 h2).1, ⟨h.1, h.2, h.3, h.4, h.5, h.6, h.7, h.8, h.9, h.10⟩⟩

/-- The example sign-in in a Vue app. -/
def Ex.vueSignIn : List VueEvent :=
  .happens (.setWallet 7) false :: .mount :: (Ex.fetches 0 Ex.alice 5 ++ Ex.finishes 0 Ex.aliceSig 100).map fun x => .happens x false

/-- Non-vacuity: a page is loaded in which the user then signs in; the state is unchanged until the mounting, and in the end
components see the identity. -/
example : (VuePage.run Toy.env Ex.keys (.create (worldAfter Toy.env Ex.keys (Ex.page ++ [.load]))) [.happens (.setWallet 7) false]).world.client.ctx =
      (worldAfter Toy.env Ex.keys (Ex.page ++ [.load])).client.ctx ∧
    (VuePage.run Toy.env Ex.keys (.create (worldAfter Toy.env Ex.keys (Ex.page ++ [.load]))) Ex.vueSignIn).view.isLoginSuccess = true ∧
    (VuePage.run Toy.env Ex.keys (.create (worldAfter Toy.env Ex.keys (Ex.page ++ [.load]))) Ex.vueSignIn).view.identity =
      some Ex.identity ∧
    (VuePage.run Toy.env Ex.keys (.create (worldAfter Toy.env Ex.keys ([] ++ [.load]))) Ex.earlyLogin).mounted = true ∧
    (((VuePage.run Toy.env Ex.keys (.create (worldAfter Toy.env Ex.keys ([] ++ [.load]))) Ex.earlyLogin).world.step Toy.env Ex.keys
      .clear).client.ctx ≠
      (VuePage.run Toy.env Ex.keys (.create (worldAfter Toy.env Ex.keys ([] ++ [.load]))) Ex.earlyLogin).world.client.ctx) := by
  decide +kernel

/-- Non-vacuity: a wallet is set before and another after the mounting, and the state stays as it was. -/
example (x : Happening) : (∀ i, i < 1 → ((VuePage.create (worldAfter Toy.env Ex.keys (Ex.page ++ [.load]))).run Toy.env Ex.keys
      ([.happens (.setWallet 7) false] ++ .mount :: [VueEvent.happens (.setWallet 8) false].take (i + 1))).world.client.ctx =
      ((VuePage.create (worldAfter Toy.env Ex.keys (Ex.page ++ [.load]))).run Toy.env Ex.keys
        [.happens (.setWallet 7) false]).world.client.ctx) ∧
    .happens x true ∉ [VueEvent.happens (.setWallet 8) false] := by
  refine ⟨fun i hi => ?_, by simp⟩
  rw [show i = 0 by omega]
  decide +kernel

/-! ### C70 -/

/-- What a React app is promised: only the wallet of the connected account is asked to sign. -/
def SignsWithConnected (E : Env) (K : SessionKeys) : Prop :=
  ∀ es x os, LeftToReact es → (∀ v, .happens (.inject v) ∉ es) →
    (worldAfter E K (es.flatMap ReactEvent.effect ++ [x])).log = (worldAfter E K (es.flatMap ReactEvent.effect)).log ++ os →
    ∀ wallet account text, Output.sign wallet account text ∈ os → connected es = some wallet

/-- The user disconnects the wallet while a message is fetched. -/
def Ex.disconnects : List ReactEvent :=
  [.happens (.other 1 (.install Ex.input)), .happens (.other 2 (.rngSeeded [1, 2, 3])), .render (some Ex.alice) (some 7)] ++
    (Ex.fetches 0 Ex.alice 5).dropLast.map .happens ++ [.render none none]

/-- C70, the negation: after the user has disconnected the wallet, it is still asked to sign. -/
theorem C70_not_always : ¬SignsWithConnected Toy.env Ex.keys := by
  intro h
  have h1 : ((worldAfter Toy.env Ex.keys (Ex.disconnects.flatMap ReactEvent.effect ++ [.resume 0 .settled])).log =
        (worldAfter Toy.env Ex.keys (Ex.disconnects.flatMap ReactEvent.effect)).log ++
        ((worldAfter Toy.env Ex.keys (Ex.disconnects.flatMap ReactEvent.effect ++ [.resume 0 .settled])).log.drop 1)) ∧
      (((worldAfter Toy.env Ex.keys (Ex.disconnects.flatMap ReactEvent.effect ++ [.resume 0 .settled])).log.drop 1).any
        (fun | .sign 7 _ _ => true | _ => false)) = true := by decide +kernel
  obtain ⟨o, ho, hs⟩ := List.any_eq_true.mp h1.2
  split at hs
  · next a t =>
    have := h Ex.disconnects (.resume 0 .settled) _ (by intro w hw; simp [Ex.disconnects, Ex.fetches] at hw)
      (by intro v hv; simp [Ex.disconnects, Ex.fetches] at hv) h1.1 7 a t ho
    exact nomatch this
  · cases hs

theorem connected_app (es : List ReactEvent) (hl : LeftToReact es) : ∀ w, connected es = some w →
    appWallet (es.flatMap ReactEvent.effect) = some w := by
  have key : ∀ (es : List ReactEvent), LeftToReact es → ∀ o o' : Option Wallet, (∀ w, o = some w → o' = some w) → ∀ w,
      es.foldl (fun o e => match e with
        | .render (some _) w => w
        | .render none _ => none
        | .happens .load => none
        | .happens .create => none
        | .happens _ => o) o = some w →
      (es.flatMap ReactEvent.effect).foldl (fun o x => match x with | .load => none | .create => none | .setWallet v => some v | _ => o) o' = some w := by
    intro es
    induction es with
    | nil => intro _ o o' h w hw; exact h w hw
    | cons e es ih =>
      intro hl o o' h w hw
      have hl' : LeftToReact es := fun v hv => hl v (List.mem_cons_of_mem _ hv)
      rw [List.flatMap_cons, List.foldl_append]
      refine ih hl' _ _ ?_ w hw
      intro v hv
      cases e with
      | render a x =>
        cases a with
        | none => cases hv
        | some a =>
          simp only at hv
          subst hv
          rfl
      | happens x =>
        cases x with
        | load => cases hv
        | create => cases hv
        | setWallet u => exact absurd List.mem_cons_self (hl u)
        | _ => exact h v hv
  exact key es hl none none (fun _ h => nomatch h)

theorem lastConnected_app (es : List ReactEvent) (hl : LeftToReact es) :
    lastConnected es = appWallet (es.flatMap ReactEvent.effect) := by
  have key : ∀ (es : List ReactEvent), LeftToReact es → ∀ o : Option Wallet,
      es.foldl (fun o e => match e with
        | .render (some _) (some w) => some w
        | .happens .load => none
        | .happens .create => none
        | _ => o) o =
      (es.flatMap ReactEvent.effect).foldl (fun o x => match x with | .load => none | .create => none | .setWallet v => some v | _ => o) o := by
    intro es
    induction es with
    | nil => intro _ o; rfl
    | cons e es ih =>
      intro hl o
      have hl' : LeftToReact es := fun v hv => hl v (List.mem_cons_of_mem _ hv)
      rw [List.flatMap_cons, List.foldl_append, List.foldl_cons, ih hl']
      congr 1
      cases e with
      | render a x => cases a <;> cases x <;> rfl
      | happens x =>
        cases x with
        | setWallet u => exact absurd List.mem_cons_self (hl u)
        | _ => rfl
  exact key es hl none

/-- C70, partial: while an account is connected, its wallet is the one that is asked.  (Missing: that none is asked after
disconnecting.) -/
theorem C70_connected_wallet_signs_partial (E : Env) (K : SessionKeys) (es : List ReactEvent) (x : Happening) (os : List Output)
    (hl : LeftToReact es)
    (h : (worldAfter E K (es.flatMap ReactEvent.effect ++ [x])).log = (worldAfter E K (es.flatMap ReactEvent.effect)).log ++ os)
    (w : Wallet) (hw : connected es = some w) (wallet : Wallet) (account text : Bytes)
    (ho : Output.sign wallet account text ∈ os) : wallet = w := by
  have h1 := connected_app es hl w hw
  rcases C65_which_wallet_signs E K _ x os h wallet account text ho with h2 | ⟨h2, _⟩
  · rw [h1] at h2; exact (Option.some.inj h2).symm
  · rw [h1] at h2; cases h2

/-- C70, exactly which wallet is asked: the one connected last, even if it was disconnected since; if none was ever connected in this page, one
that was injected.  (Missing from C70: that none is asked after disconnecting.) -/
theorem C70_last_connected_signs_partial (E : Env) (K : SessionKeys) (es : List ReactEvent) (x : Happening) (os : List Output)
    (hl : LeftToReact es)
    (h : (worldAfter E K (es.flatMap ReactEvent.effect ++ [x])).log = (worldAfter E K (es.flatMap ReactEvent.effect)).log ++ os)
    (wallet : Wallet) (account text : Bytes) (ho : Output.sign wallet account text ∈ os) :
    lastConnected es = some wallet ∨ lastConnected es = none ∧ InjectedSinceLoad (es.flatMap ReactEvent.effect) wallet := by
  rw [lastConnected_app es hl]
  exact C65_which_wallet_signs E K _ x os h wallet account text ho

/-- Non-vacuity: without disconnecting, the connected wallet is asked. -/
example : LeftToReact Ex.disconnects.dropLast := by intro w hw; simp [Ex.disconnects, Ex.fetches] at hw

example : connected Ex.disconnects.dropLast = some 7 ∧ connected Ex.disconnects = none ∧ lastConnected Ex.disconnects = some 7 ∧
    (worldAfter Toy.env Ex.keys (Ex.disconnects.dropLast.flatMap ReactEvent.effect ++ [.resume 0 .settled])).log.any
      (fun | .sign 7 _ _ => true | _ => false) = true := by decide +kernel

end Siwe
