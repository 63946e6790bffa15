import Verif.Model.Moments
import Verif.Spec.Client
/- Vocabulary for what subscribers of the client's state are told, and for pages that end at any moment. -/
namespace Siwe.Spec

/-- The state shows nobody as signed in, or an account with an identity that the canister gave this browser for that account, and the
identity's chain. -/
def WholeState (E : Env) (K : SessionKeys) (w : World) (ctx : Context) : Prop :=
  (ctx.identity = none ∧ ctx.identityAddress = none ∧ ctx.delegationChain = none) ∨
  ∃ a i, ctx.identity = some i ∧ ctx.identityAddress = some a ∧ ctx.delegationChain = some i.chain ∧ Obtained E K w.calls w.log a i

/-- A page that is opened with what local storage holds at the moment shows this identity. -/
def shownByNextPage (c : Client) (m : Moment) : Option Identity := (Client.load { c with storage := m.storage }).ctx.identity

/-- Wanted: whenever subscribers are told who is signed in (and the client is not initializing any more), a page opened after the browser
ended this page then shows the same. -/
def ToldSurvives (E : Env) (K : SessionKeys) : Prop :=
  ∀ hs x m, m ∈ (worldAfter E K hs).moments x → m.told = true → m.ctx.isInitializing = false →
    shownByNextPage (worldAfter E K hs).client m = m.ctx.identity

/-- Wanted: if the state says that signing failed, it says why. -/
def SignatureErrorsGiven (E : Env) (K : SessionKeys) : Prop :=
  ∀ hs, (worldAfter E K hs).client.ctx.signMessageStatus = .error → ∃ e, (worldAfter E K hs).client.ctx.signMessageError = some e

/-- Wanted: `clear()` puts everything back. -/
def ClearResets (E : Env) (K : SessionKeys) : Prop :=
  ∀ hs, (worldAfter E K (hs ++ [.clear])).client.ctx = { Context.initial with isInitializing := false }

end Siwe.Spec
