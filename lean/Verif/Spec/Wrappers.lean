import Verif.Model.Wrappers
/- What the documentation of `SiweIdentityContextType` promises (context.type.ts:7-76). -/
namespace Siwe.Spec

/-- Each flag is documented by the status it stands for. -/
structure FlagsAgree (v : View) : Prop where
  preparing : v.isPreparingLogin = true ↔ v.prepareLoginStatus = .preparing
  prepareError : v.isPrepareLoginError = true ↔ v.prepareLoginStatus = .error
  prepareSuccess : v.isPrepareLoginSuccess = true ↔ v.prepareLoginStatus = .success
  prepareIdle : v.isPrepareLoginIdle = true ↔ v.prepareLoginStatus = .idle
  loggingIn : v.isLoggingIn = true ↔ v.loginStatus = .loggingIn
  loginError : v.isLoginError = true ↔ v.loginStatus = .error
  loginSuccess : v.isLoginSuccess = true ↔ v.loginStatus = .success
  loginIdle : v.isLoginIdle = true ↔ v.loginStatus = .idle

/-- The values are those of the client. -/
structure ShowsValues (v : View) (c : Context) : Prop where
  isInitializing : v.isInitializing = c.isInitializing
  prepareLoginStatus : v.prepareLoginStatus = c.prepareLoginStatus
  prepareLoginError : v.prepareLoginError = c.prepareLoginError
  loginStatus : v.loginStatus = c.loginStatus
  loginError : v.loginError = c.loginError
  signMessageStatus : v.signMessageStatus = c.signMessageStatus
  signMessageError : v.signMessageError = c.signMessageError
  delegationChain : v.delegationChain = c.delegationChain
  identity : v.identity = c.identity
  identityAddress : v.identityAddress = c.identityAddress

/-- A component sees the client's state. -/
def Shows (v : View) (c : Context) : Prop := FlagsAgree v ∧ ShowsValues v c

/-- Two states of the client that look the same to components: they differ at most in the message at hand. -/
structure LooksLike (c c' : Context) : Prop where
  isInitializing : c.isInitializing = c'.isInitializing
  prepareLoginStatus : c.prepareLoginStatus = c'.prepareLoginStatus
  prepareLoginError : c.prepareLoginError = c'.prepareLoginError
  loginStatus : c.loginStatus = c'.loginStatus
  loginError : c.loginError = c'.loginError
  signMessageStatus : c.signMessageStatus = c'.signMessageStatus
  signMessageError : c.signMessageError = c'.signMessageError
  delegationChain : c.delegationChain = c'.delegationChain
  identity : c.identity = c'.identity
  identityAddress : c.identityAddress = c'.identityAddress

/-- No page load among the events. -/
def NoLoad (es : List VueEvent) : Prop := ∀ sent, VueEvent.happens .load sent ∉ es

/-- The wallet of the account that is connected according to the last render since the page was loaded or another manager was made; `none`: not connected. -/
def connected (es : List ReactEvent) : Option Wallet :=
  es.foldl (fun o e => match e with
    | .render (some _) w => w
    | .render none _ => none
    | .happens .load => none
    | .happens .create => none
    | .happens _ => o) none

/-- The wallet of the account that was connected at the last render at which one was, since the page was loaded or another manager was made. -/
def lastConnected (es : List ReactEvent) : Option Wallet :=
  es.foldl (fun o e => match e with
    | .render (some _) (some w) => some w
    | .happens .load => none
    | .happens .create => none
    | _ => o) none

/-- The app itself does not call `setWalletClient`. -/
def LeftToReact (es : List ReactEvent) : Prop := ∀ w, ReactEvent.happens (.setWallet w) ∉ es

end Siwe.Spec
