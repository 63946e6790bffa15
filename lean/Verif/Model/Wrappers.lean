import Verif.Model.Client
/-
The React and Vue wrappers of the browser client: packages/ic_siwe_js/src/react/index.tsx and vue/index.ts.  They copy the state
store of the `SiweManager` into what an app's components see, with a flag for each status.

Simplifications: components render from the store's current state (React's `useSelector`); of the account and wallet state of the
wagmi library only the two values the wrapper reads are kept; one manager at a time, as in `Model/Client.lean` (several are in
`Model/Managers.lean`); a Vue provider that is created again is only modelled at its creation.
-/
namespace Siwe

/-- context.type.ts:7-76 `SiweIdentityContextType`, without the methods -/
structure View where
  isInitializing : Bool
  prepareLoginStatus : PrepareLoginStatus
  isPreparingLogin : Bool
  isPrepareLoginError : Bool
  isPrepareLoginSuccess : Bool
  isPrepareLoginIdle : Bool
  prepareLoginError : Option ClientError
  loginStatus : LoginStatus
  isLoggingIn : Bool
  isLoginError : Bool
  isLoginSuccess : Bool
  isLoginIdle : Bool
  loginError : Option ClientError
  signMessageStatus : SignMessageStatus
  signMessageError : Option ClientError
  delegationChain : Option Chain
  identity : Option Identity
  identityAddress : Option Bytes
  deriving DecidableEq

/-- react/index.tsx:31,38-54, what a component gets from `useSiwe` -/
def reactView (state : Context) : View where
  isInitializing := state.isInitializing
  prepareLoginStatus := state.prepareLoginStatus
  isPreparingLogin := state.prepareLoginStatus == .preparing
  isPrepareLoginError := state.prepareLoginStatus == .error
  isPrepareLoginSuccess := state.prepareLoginStatus == .success
  isPrepareLoginIdle := state.prepareLoginStatus == .idle
  prepareLoginError := state.prepareLoginError
  loginStatus := state.loginStatus
  isLoggingIn := state.loginStatus == .loggingIn
  isLoginError := state.loginStatus == .error
  isLoginSuccess := state.loginStatus == .success
  isLoginIdle := state.loginStatus == .idle
  loginError := state.loginError
  signMessageStatus := state.signMessageStatus
  signMessageError := state.signMessageError
  delegationChain := state.delegationChain
  identity := state.identity
  identityAddress := state.identityAddress

/-- react/index.tsx:22-36, the effect: the wallet client of a connected account is passed on -/
def reactEffect (address : Option Bytes) (walletClient : Option Wallet) : List Happening :=
  match address, walletClient with
  | some _, some w => [.setWallet w]
  | _, _ => []

/-- vue/index.ts:22-35, the state as it is created -/
def vueCreate (snapshot : Context) : View where
  isInitializing := snapshot.isInitializing
  prepareLoginStatus := snapshot.prepareLoginStatus
  isPreparingLogin := false
  isPrepareLoginError := false
  isPrepareLoginSuccess := false
  isPrepareLoginIdle := true
  prepareLoginError := snapshot.prepareLoginError
  loginStatus := snapshot.loginStatus
  isLoggingIn := false
  isLoginError := false
  isLoginSuccess := false
  isLoginIdle := true
  loginError := snapshot.loginError
  signMessageStatus := snapshot.signMessageStatus
  signMessageError := snapshot.signMessageError
  delegationChain := snapshot.delegationChain
  identity := snapshot.identity
  identityAddress := snapshot.identityAddress

/-- vue/index.ts:38-70, the subscriber of the store -/
def vueNotified (context : Context) : View where
  isInitializing := context.isInitializing
  prepareLoginStatus := context.prepareLoginStatus
  isPreparingLogin := context.prepareLoginStatus == .preparing
  isPrepareLoginError := context.prepareLoginStatus == .error
  isPrepareLoginSuccess := context.prepareLoginStatus == .success
  isPrepareLoginIdle := context.prepareLoginStatus == .idle
  prepareLoginError := context.prepareLoginError
  loginStatus := context.loginStatus
  isLoggingIn := context.loginStatus == .loggingIn
  isLoginError := context.loginStatus == .error
  isLoginSuccess := context.loginStatus == .success
  isLoginIdle := context.loginStatus == .idle
  loginError := context.loginError
  signMessageStatus := context.signMessageStatus
  signMessageError := context.signMessageError
  delegationChain := context.delegationChain
  identity := context.identity
  identityAddress := context.identityAddress

/-- The Vue provider in a page: created with the page, mounted some time later (vue/index.ts:37-75). -/
structure VuePage where
  world : World
  mounted : Bool
  view : View

/-- vue/index.ts:16-35: the manager is made (with the page, see `Client.load`), then the state -/
def VuePage.create (w : World) : VuePage where
  world := w
  mounted := false
  view := vueCreate w.client.ctx

/-- What can happen to a page with the Vue provider. -/
inductive VueEvent where
  /-- vue/index.ts:37-38: the subscription starts; it does not report the current state -/
  | mount
  /-- something happens in the page that is not a new page load; `sent` tells whether the store was sent an update that left it
  as it was (subscribers of the store are called for every update) -/
  | happens (x : Happening) (sent : Bool)

/-- One such step. -/
def VuePage.step (E : Env) (K : SessionKeys) (p : VuePage) : VueEvent → VuePage
  | .mount => { p with mounted := true }
  | .happens x sent =>
    { p with
      world := p.world.step E K x
      view :=
        if p.mounted && (sent || (p.world.step E K x).client.ctx != p.world.client.ctx) then
          vueNotified (p.world.step E K x).client.ctx
        else p.view }

/-- The page after some events. -/
def VuePage.run (E : Env) (K : SessionKeys) (p : VuePage) (es : List VueEvent) : VuePage := es.foldl (VuePage.step E K) p

/-- What a React app sees of the wallet library: renders with the connected account and its wallet client; in between things
happen in the page. -/
inductive ReactEvent where
  | render (address : Option Bytes) (walletClient : Option Wallet)
  | happens (x : Happening)

/-- What happens in the page then (react/index.tsx:33-36; the effect also runs when nothing changed, which makes no difference). -/
def ReactEvent.effect : ReactEvent → List Happening
  | .render a w => reactEffect a w
  | .happens x => [x]

end Siwe
