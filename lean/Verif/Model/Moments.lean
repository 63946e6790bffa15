import Verif.Model.Client
/-
What subscribers of the store see while the client works, and what local storage holds meanwhile.

`World.step` (Model/Client.lean) gives the state at the end of everything the page does without waiting.  In between the code updates the
store and local storage one after the other: each `updateState` calls the subscribers at once (index.ts:54-61 and 111-113), and the browser may
end the page at any of these points.  The definitions here list these points; that the last one is the state of `World.step` is proved
(`C113_last`), not assumed.

Simplification: a subscriber that calls the manager from within the notification is not modelled (its call can be made right after).
-/
namespace Siwe

/-- The state right after an update of the store (then the subscribers are told of `ctx`) or of local storage. -/
structure Moment where
  ctx : Context
  storage : Option Stored
  told : Bool
  deriving DecidableEq

/-- The moment after an `updateState` that led to the client's state (index.ts:111-113) -/
def Client.told (c : Client) : Moment := ⟨c.ctx, c.storage, true⟩

/-- index.ts:77-89, the constructor: `loadIdentity` throws if nothing is stored, otherwise its result is shown; then `isInitializing` is
reset -/
def Client.constructMoments (c : Client) : List Moment :=
  match c.storage with
  | none => [⟨{ c.ctx with isInitializing := false }, none, true⟩]
  | some s =>
    let ctx := { c.ctx with identityAddress := some s.address, identity := some ⟨s.session, s.chain⟩, delegationChain := some s.chain }
    [⟨ctx, some s, true⟩, ⟨{ ctx with isInitializing := false }, some s, true⟩]

/-- A page load: index.ts:47-61, the new store with its first state, then the constructor -/
def Client.loadMoments (c : Client) : List Moment :=
  ⟨.initial, c.storage, true⟩ :: Client.constructMoments { c with ctx := .initial }

/-- index.ts:308-321 `clear`: the store, then local storage -/
def Client.clearMoments (c : Client) : List Moment :=
  [⟨c.clear.ctx, c.storage, true⟩, ⟨c.clear.ctx, none, false⟩]

/-- index.ts:176-188: `login` up to its first await updates the store only if it is refused -/
def Client.startLoginMoments (c : Client) : List Moment :=
  if c.ctx.prepareLoginStatus = .preparing then [(c.loginFails .isPreparing).1.told]
  else if c.ctx.loginStatus = .loggingIn then [(c.loginFails .isLoggingIn).1.told]
  else []

/-- index.ts:137-147 after `getAddresses` -/
def Client.prepareWithMoments (c : Client) (f : Option Bytes) (l : List Bytes) : List Moment := [(c.prepareWith f l).1.told]

/-- index.ts:191-217 after `getAddresses`: "logging-in", then "pending" if there is a message to sign already -/
def Client.loginWithMoments (c : Client) (l : List Bytes) : List Moment :=
  match l with
  | [] => [(c.loginFails .noAccount).1.told]
  | account :: _ =>
    if account = [] then [(c.loginFails .noAccount).1.told]
    else
      match c.loggingIn.ctx.prepareLoginOkResponse with
      | some p => [c.loggingIn.told, (c.loggingIn.requestSignature account p).1.told]
      | none => [c.loggingIn.told]

/-- index.ts:228-236 and 293-302: the catch block around `signMessage`, then that of `login` -/
def Client.signatureFailsMoments (c : Client) (e : ClientError) : List Moment :=
  let c' : Client := { c with ctx := { c.ctx with signMessageStatus := .error, signMessageError := some e } }
  [c'.told, (c'.loginFails e).1.told]

/-- index.ts:225-240 after `signMessage` -/
def Client.signedMoments (c : Client) (account : Bytes) (p : PrepareLoginOkResponse) (s : Bytes) : List Moment :=
  if s = [] then c.signatureFailsMoments .noSignature else [(c.signed account p s).1.told]

/-- index.ts:253-262 after the reply to `siwe_login` -/
def Client.loginReplyMoments (c : Client) : Reply → List Moment
  | .loggedIn _ => []
  | .err e => [(c.loginFails (.canister e)).1.told]
  | _ => [(c.loginFails .network).1.told]

/-- index.ts:270-292 after the reply to `siwe_get_delegation`: `saveIdentity`, then the store -/
def Client.delegationReplyMoments (c : Client) (account : Bytes) (session : Nat) (d : LoginDetails) (storageFull : Bool) :
    Reply → List Moment
  | .delegation sd =>
    if storageFull then [(c.loginFails .storage).1.told]
    else
      let c' := c.save account ⟨session, createDelegationChain sd d.userCanisterPubkey⟩
      [⟨c.ctx, c'.storage, false⟩, c'.told]
  | .err e => [(c.loginFails (.canister e)).1.told]
  | _ => [(c.loginFails .network).1.told]

/-- A call continues (compare `Client.resume`). -/
def Client.resumeMoments (c : Client) : Pc → Answer → List Moment
  | .prepWallet f false, .settled => [(c.prepareFails f .noProvider).1.told]
  | .prepAddresses f, .addresses l => c.prepareWithMoments f l
  | .prepAddresses f, .rejected => [(c.prepareFails f .wallet).1.told]
  | .prepActor f _, .rejected => [(c.prepareFails f .network).1.told]
  | .prepSent f _, .rejected => [(c.prepareFails f .network).1.told]
  | .prepReplied f _ r, .settled => [(c.prepareReply f r).1.told]
  | .prepReplied f _ _, .rejected => [(c.prepareFails f .network).1.told]
  | .loginWallet false, .settled => [(c.loginFails .noProvider).1.told]
  | .loginAddresses, .addresses l => c.loginWithMoments l
  | .loginAddresses, .rejected => [(c.loginFails .wallet).1.told]
  | .loginPrepared a p, .settled => [(c.requestSignature a p).1.told]
  | .loginPrepareFailed e, .settled => [(c.loginFails e).1.told]
  | .signing a p, .signature s => c.signedMoments a p s
  | .signing _ _, .rejected => c.signatureFailsMoments .wallet
  | .loginActor _ _ _ _, .rejected => [(c.loginFails .network).1.told]
  | .loginSent _ _ _ _, .rejected => [(c.loginFails .network).1.told]
  | .loginReplied _ _ _ _ r, .settled => c.loginReplyMoments r
  | .loginReplied _ _ _ _ _, .rejected => [(c.loginFails .network).1.told]
  | .delegationSent _ _ _, .rejected => [(c.loginFails .network).1.told]
  | .delegationReplied a n d r, .settled => c.delegationReplyMoments a n d false r
  | .delegationReplied a n d r, .settledStorageFull => c.delegationReplyMoments a n d true r
  | .delegationReplied _ _ _ _, .rejected => [(c.loginFails .network).1.told]
  | _, _ => []

/-- The moments of one step of the world, in order. -/
def World.moments (w : World) : Happening → List Moment
  | .load => w.client.loadMoments
  | .create => w.client.constructMoments
  | .login => w.client.startLoginMoments
  | .clear => w.client.clearMoments
  | .resume i a =>
    match w.client.tasks[i]? with
    | none => []
    | some pc => w.client.resumeMoments pc a
  | _ => []

end Siwe
