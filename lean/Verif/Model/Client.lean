import Verif.Model.Provider
/-
packages/ic_siwe_js/src: the browser client `SiweManager` (index.ts) with its state store, its calls to the canister
(siwe-provider.ts), the delegation chain it builds (delegation.ts) and local storage (local-storage.ts).

JavaScript runs one task at a time and switches only where a task awaits.  A task is modelled by where it awaits (`Pc`), with the
values of its local variables; the code between two awaits is one step.  The environment decides when an await settles and with
what, in any order: the wallet's answers, the network, and when the canister executes a call.  A page can be reloaded at any point.

Simplifications: one `SiweManager` at a time in a page (several are in `Model/Managers.lean`); an `Ed25519KeyIdentity` is the number of the
`generate()` call that made it, and its public key a parameter; local storage holds the saved values themselves (the JSON encoding
and decoding of @dfinity/identity is trusted to be lossless); error objects are data.  Not modelled: console output.  The React and Vue
wrappers are in `Model/Wrappers.lean`.
-/
namespace Siwe

/-- A `WalletClient` object. -/
abbrev Wallet := Nat

/-- The DER public keys of the successively generated session identities (`Ed25519KeyIdentity.generate`, `getPublicKey().toDer()`). -/
abbrev SessionKeys := Nat → Bytes

/-- delegation.ts:30-47, a `DelegationChain` with one delegation -/
structure Chain where
  delegation : Delegation
  signature : Bytes
  publicKey : Bytes
  deriving DecidableEq

/-- delegation.ts:30-47 `createDelegationChain`, on arrays that own their buffers (`Model/ByteArrays.lean`) -/
def createDelegationChain (d : SignedDelegation) (publicKey : Bytes) : Chain := ⟨d.delegation, d.signature, publicKey⟩

/-- A `DelegationIdentity`: a session identity with a delegation chain. -/
structure Identity where
  session : Nat
  chain : Chain
  deriving DecidableEq

/-- storage.type.ts:1-5 `SiweIdentityStorage` -/
structure Stored where
  address : Bytes
  session : Nat
  chain : Chain
  deriving DecidableEq

/-- The errors thrown or caught in index.ts and siwe-provider.ts, by origin. -/
inductive ClientError where
  | noProvider
  | noAccount
  | isPreparing
  | isLoggingIn
  | wallet
  | noSignature
  | network
  | canister (e : ProviderError)
  | storage
  deriving DecidableEq

/-- context.type.ts:3 `PrepareLoginStatus` -/
inductive PrepareLoginStatus where
  | error | preparing | success | idle
  deriving DecidableEq

/-- context.type.ts:4 `LoginStatus` -/
inductive LoginStatus where
  | error | loggingIn | success | idle
  deriving DecidableEq

/-- context.type.ts:5 `SignMessageStatus` -/
inductive SignMessageStatus where
  | error | idle | pending | success
  deriving DecidableEq

/-- index.ts:31-43 `Context`, the observable state -/
structure Context where
  isInitializing : Bool
  prepareLoginStatus : PrepareLoginStatus
  prepareLoginError : Option ClientError
  prepareLoginOkResponse : Option PrepareLoginOkResponse
  loginStatus : LoginStatus
  loginError : Option ClientError
  signMessageStatus : SignMessageStatus
  signMessageError : Option ClientError
  identity : Option Identity
  identityAddress : Option Bytes
  delegationChain : Option Chain
  deriving DecidableEq

/-- index.ts:47-52 `initialContext` -/
def Context.initial : Context where
  isInitializing := true
  prepareLoginStatus := .idle
  prepareLoginError := none
  prepareLoginOkResponse := none
  loginStatus := .idle
  loginError := none
  signMessageStatus := .idle
  signMessageError := none
  identity := none
  identityAddress := none
  delegationChain := none

/-- Where a call of `prepareLogin` or `login` awaits, with its local variables.  `login` calls `prepareLogin` (index.ts:207): the
`for_` of a `prep` state is the account of the `login` that awaits it. -/
inductive Pc where
  /-- index.ts:133, whether `setupWalletClient` succeeded -/
  | prepWallet (for_ : Option Bytes) (ok : Bool)
  /-- index.ts:135 -/
  | prepAddresses (for_ : Option Bytes)
  /-- index.ts:147 -/
  | prepActor (for_ : Option Bytes) (account : Bytes)
  /-- index.ts:154, the call is on its way -/
  | prepSent (for_ : Option Bytes) (account : Bytes)
  /-- index.ts:154, the canister has answered -/
  | prepReplied (for_ : Option Bytes) (account : Bytes) (r : Reply)
  /-- index.ts:188 -/
  | loginWallet (ok : Bool)
  /-- index.ts:190 -/
  | loginAddresses
  /-- index.ts:207, `prepareLogin` has returned -/
  | loginPrepared (account : Bytes) (p : PrepareLoginOkResponse)
  /-- index.ts:207, `prepareLogin` has thrown -/
  | loginPrepareFailed (e : ClientError)
  /-- index.ts:221 -/
  | signing (account : Bytes) (p : PrepareLoginOkResponse)
  /-- index.ts:246 -/
  | loginActor (account : Bytes) (p : PrepareLoginOkResponse) (signature : Bytes) (session : Nat)
  /-- index.ts:253, the call is on its way -/
  | loginSent (account : Bytes) (p : PrepareLoginOkResponse) (signature : Bytes) (session : Nat)
  /-- index.ts:253, the canister has answered -/
  | loginReplied (account : Bytes) (p : PrepareLoginOkResponse) (signature : Bytes) (session : Nat) (r : Reply)
  /-- index.ts:262, the call is on its way -/
  | delegationSent (account : Bytes) (session : Nat) (d : LoginDetails)
  /-- index.ts:262, the canister has answered -/
  | delegationReplied (account : Bytes) (session : Nat) (d : LoginDetails) (r : Reply)
  /-- `prepareLogin`'s promise is resolved (index.ts:160) -/
  | prepared (p : PrepareLoginOkResponse)
  /-- `login`'s promise is resolved (index.ts:292) -/
  | loggedIn (i : Identity)
  /-- the promise is rejected (index.ts:168 and 301) -/
  | failed (e : ClientError)
  deriving DecidableEq

/-- The page's state: the store, local storage, the manager's wallet client, `window.ethereum`, the running calls, and how many
session identities have been generated. -/
structure Client where
  ctx : Context
  storage : Option Stored
  wallet : Option Wallet
  injected : Option Wallet
  tasks : List Pc
  generated : Nat

/-- What the client asks of the wallet and of the canister; a session is named by its number. -/
inductive Output where
  | sign (wallet : Wallet) (account : Bytes) (message : Bytes)
  | prepareLogin (account : Bytes)
  | login (signature account : Bytes) (session : Nat) (nonce : Bytes)
  | getDelegation (account : Bytes) (session : Nat) (expiration : UInt64)
  deriving DecidableEq

/-- How an await settles. -/
inductive Answer where
  /-- with the value at hand: the actor, the canister's reply, a previous call's result -/
  | settled
  /-- likewise, and local storage refuses to store (quota) -/
  | settledStorageFull
  /-- `getAddresses` returns -/
  | addresses (l : List Bytes)
  /-- `signMessage` returns -/
  | signature (s : Bytes)
  /-- the wallet, the agent or the network fails -/
  | rejected

/-- index.ts:95-108 `setupWalletClient` -/
def Client.setupWalletClient (c : Client) : Client × Bool :=
  match c.wallet with
  | some _ => (c, true)
  | none =>
    match c.injected with
    | none => (c, false)
    | some w => ({ c with wallet := some w }, true)

/-- index.ts:72-90 `constructor`, with local-storage.ts:14-33 `loadIdentity` -/
def Client.construct (c : Client) : Client :=
  let ctx :=
    match c.storage with
    | none => c.ctx
    | some s => { c.ctx with
        identityAddress := some s.address
        identity := some ⟨s.session, s.chain⟩
        delegationChain := some s.chain }
  { c with ctx := { ctx with isInitializing := false } }

/-- A page load: the module's store and the manager are new, running calls are gone; local storage and the wallet
extension stay. -/
def Client.load (c : Client) : Client :=
  Client.construct { c with ctx := .initial, wallet := none, tasks := [] }

/-- index.ts:72-90: the page makes another manager, which works on the same store (index.ts:54-61) and has no wallet client yet.
Running calls go on; that they would use the wallet client of the manager they were made on is modelled in `Model/Managers.lean`. -/
def Client.create (c : Client) : Client := Client.construct { c with wallet := none }

/-- index.ts:123-125 `setWalletClient` -/
def Client.setWallet (c : Client) (w : Wallet) : Client := { c with wallet := some w }

/-- index.ts:161-169, the catch block of `prepareLogin`; a `login` awaiting it goes on with the error -/
def Client.prepareFails (c : Client) (for_ : Option Bytes) (e : ClientError) : Client × Pc × List Output :=
  ({ c with ctx := { c.ctx with prepareLoginStatus := .error, prepareLoginError := some e } },
    match for_ with
    | none => .failed e
    | some _ => .loginPrepareFailed e, [])

/-- index.ts:293-302, the catch block of `login` -/
def Client.loginFails (c : Client) (e : ClientError) : Client × Pc × List Output :=
  ({ c with ctx := { c.ctx with prepareLoginOkResponse := none, loginStatus := .error, loginError := some e } }, .failed e, [])

/-- index.ts:131-133, `prepareLogin` up to its first await -/
def Client.startPrepareLogin (c : Client) (for_ : Option Bytes) : Client × Pc :=
  (c.setupWalletClient.1, .prepWallet for_ c.setupWalletClient.2)

/-- index.ts:176-188, `login` up to its first await -/
def Client.startLogin (c : Client) : Client × Pc :=
  if c.ctx.prepareLoginStatus = .preparing then ((c.loginFails .isPreparing).1, .failed .isPreparing)
  else if c.ctx.loginStatus = .loggingIn then ((c.loginFails .isLoggingIn).1, .failed .isLoggingIn)
  else (c.setupWalletClient.1, .loginWallet c.setupWalletClient.2)

/-- index.ts:215-224, asking for the signature (with no wallet client nothing is asked and there is no signature) -/
def Client.requestSignature (c : Client) (account : Bytes) (p : PrepareLoginOkResponse) : Client × Pc × List Output :=
  ({ c with ctx := { c.ctx with signMessageStatus := .pending } }, .signing account p,
    match c.wallet with
    | some w => [.sign w account p.siweMessage]
    | none => [])

/-- index.ts:137-147 after `getAddresses` -/
def Client.prepareWith (c : Client) (for_ : Option Bytes) (l : List Bytes) : Client × Pc × List Output :=
  match l with
  | [] => c.prepareFails for_ .noAccount
  | account :: _ =>
    if account = [] then c.prepareFails for_ .noAccount
    else ({ c with ctx := { c.ctx with prepareLoginStatus := .preparing, prepareLoginError := none } },
      .prepActor for_ account, [])

/-- index.ts:154-160 after the reply; siwe-provider.ts:39-54 `callPrepareLogin` -/
def Client.prepareReply (c : Client) (for_ : Option Bytes) : Reply → Client × Pc × List Output
  | .prepared p =>
    ({ c with ctx := { c.ctx with prepareLoginOkResponse := some p, prepareLoginStatus := .success } },
      match for_ with
      | none => .prepared p
      | some account => .loginPrepared account p, [])
  | .err e => c.prepareFails for_ (.canister e)
  | _ => c.prepareFails for_ .network

/-- index.ts:197-201 -/
def Client.loggingIn (c : Client) : Client :=
  { c with ctx := { c.ctx with loginStatus := .loggingIn, loginError := none, signMessageError := none } }

/-- index.ts:191-214 after `getAddresses` -/
def Client.loginWith (c : Client) (l : List Bytes) : Client × Pc × List Output :=
  match l with
  | [] => c.loginFails .noAccount
  | account :: _ =>
    if account = [] then c.loginFails .noAccount
    else
      match c.loggingIn.ctx.prepareLoginOkResponse with
      | some p => c.loggingIn.requestSignature account p
      | none => ((c.loggingIn.startPrepareLogin (some account)).1, (c.loggingIn.startPrepareLogin (some account)).2, [])

/-- index.ts:228-236, the catch block around `signMessage`, then that of `login` -/
def Client.signatureFails (c : Client) (e : ClientError) : Client × Pc × List Output :=
  Client.loginFails { c with ctx := { c.ctx with signMessageStatus := .error, signMessageError := some e } } e

/-- index.ts:225-246 after `signMessage`: a new session identity is generated -/
def Client.signed (c : Client) (account : Bytes) (p : PrepareLoginOkResponse) (s : Bytes) : Client × Pc × List Output :=
  if s = [] then c.signatureFails .noSignature
  else ({ c with ctx := { c.ctx with signMessageStatus := .success }, generated := c.generated + 1 },
    .loginActor account p s c.generated, [])

/-- index.ts:253-262 after the reply; siwe-provider.ts:59-83 `callLogin` -/
def Client.loginReply (c : Client) (account : Bytes) (session : Nat) : Reply → Client × Pc × List Output
  | .loggedIn d => (c, .delegationSent account session d, [.getDelegation account session d.expiration])
  | .err e => c.loginFails (.canister e)
  | _ => c.loginFails .network

/-- index.ts:283-290; local-storage.ts:38-51 `saveIdentity` -/
def Client.save (c : Client) (account : Bytes) (identity : Identity) : Client :=
  { c with
    storage := some ⟨account, identity.session, identity.chain⟩
    ctx := { c.ctx with
      loginStatus := .success
      identityAddress := some account
      identity := some identity
      delegationChain := some identity.chain } }

/-- index.ts:270-292 after the reply; siwe-provider.ts:88-109 `callGetDelegation` -/
def Client.delegationReply (c : Client) (account : Bytes) (session : Nat) (d : LoginDetails) (storageFull : Bool) :
    Reply → Client × Pc × List Output
  | .delegation sd =>
    if storageFull then c.loginFails .storage
    else (c.save account ⟨session, createDelegationChain sd d.userCanisterPubkey⟩,
      .loggedIn ⟨session, createDelegationChain sd d.userCanisterPubkey⟩, [])
  | .err e => c.loginFails (.canister e)
  | _ => c.loginFails .network

/-- A call continues when what it awaits settles; an answer that does not fit changes nothing. -/
def Client.resume (c : Client) : Pc → Answer → Client × Pc × List Output
  | .prepWallet f true, .settled => (c, .prepAddresses f, [])
  | .prepWallet f false, .settled => c.prepareFails f .noProvider
  | .prepAddresses f, .addresses l => c.prepareWith f l
  | .prepAddresses f, .rejected => c.prepareFails f .wallet
  | .prepActor f a, .settled => (c, .prepSent f a, [.prepareLogin a])
  | .prepActor f _, .rejected => c.prepareFails f .network
  | .prepSent f _, .rejected => c.prepareFails f .network
  | .prepReplied f _ r, .settled => c.prepareReply f r
  | .prepReplied f _ _, .rejected => c.prepareFails f .network
  | .loginWallet true, .settled => (c, .loginAddresses, [])
  | .loginWallet false, .settled => c.loginFails .noProvider
  | .loginAddresses, .addresses l => c.loginWith l
  | .loginAddresses, .rejected => c.loginFails .wallet
  | .loginPrepared a p, .settled => c.requestSignature a p
  | .loginPrepareFailed e, .settled => c.loginFails e
  | .signing a p, .signature s => c.signed a p s
  | .signing _ _, .rejected => c.signatureFails .wallet
  | .loginActor a p s n, .settled => (c, .loginSent a p s n, [.login s a n p.nonce])
  | .loginActor _ _ _ _, .rejected => c.loginFails .network
  | .loginSent _ _ _ _, .rejected => c.loginFails .network
  | .loginReplied a _ _ n r, .settled => c.loginReply a n r
  | .loginReplied _ _ _ _ _, .rejected => c.loginFails .network
  | .delegationSent _ _ _, .rejected => c.loginFails .network
  | .delegationReplied a n d r, .settled => c.delegationReply a n d false r
  | .delegationReplied a n d r, .settledStorageFull => c.delegationReply a n d true r
  | .delegationReplied _ _ _ _, .rejected => c.loginFails .network
  | pc, _ => (c, pc, [])

/-- index.ts:308-321 `clear`, with local-storage.ts:56-58 `clearIdentity` -/
def Client.clear (c : Client) : Client :=
  { c with
    storage := none
    ctx := { c.ctx with
      prepareLoginStatus := .idle
      prepareLoginError := none
      prepareLoginOkResponse := none
      loginStatus := .idle
      loginError := none
      signMessageError := none
      identity := none
      identityAddress := none
      delegationChain := none } }

/-- The page, the canister (given by the calls it has executed), and everything the page has asked for so far. -/
structure World where
  client : Client
  calls : History
  log : List Output

/-- A page just loaded for the first time, and a canister not yet installed. -/
def World.initial : World where
  client := Client.load ⟨.initial, none, none, none, [], 0⟩
  calls := []
  log := []

/-- What can happen next. -/
inductive Happening where
  /-- the page is loaded again -/
  | load
  /-- another manager is made in the same page -/
  | create
  | setWallet (w : Wallet)
  /-- `window.ethereum` appears or disappears -/
  | inject (w : Option Wallet)
  | prepareLogin
  | login
  | clear
  /-- what the `i`-th call awaits settles -/
  | resume (i : Nat) (a : Answer)
  /-- the canister executes the call that the `i`-th task has sent; `certificate` is used by the query -/
  | execute (i : Nat) (now : UInt64) (certificate : Option Bytes)
  /-- a replica that has executed only the first `seen` calls answers the query that the `i`-th task has sent -/
  | lagging (i : Nat) (now : UInt64) (certificate : Option Bytes) (seen : Nat)
  /-- anything else happens at the canister -/
  | other (now : UInt64) (op : Op)

/-- The canister's operation for a call on its way. -/
def Pc.request (K : SessionKeys) (certificate : Option Bytes) : Pc → Option Op
  | .prepSent _ a => some (.prepareLogin a)
  | .loginSent a p s n => some (.login s a (K n) p.nonce)
  | .delegationSent a n d => some (.getDelegation certificate a (K n) d.expiration)
  | _ => none

/-- The query among them (siwe-provider.ts:88-109; service/siwe_get_delegation.rs:24): one replica answers it from the state it has, and
replicas may lag behind.  (The agent library repeats a query whose answer is older than the certificates it has seen; it is not modelled:
whatever holds for every lag holds for those it lets through.) -/
def Pc.query (K : SessionKeys) (certificate : Option Bytes) : Pc → Option Op
  | .delegationSent a n d => some (.getDelegation certificate a (K n) d.expiration)
  | _ => none

/-- The state of a call once the canister has answered. -/
def Pc.answered (r : Reply) : Pc → Pc
  | .prepSent f a => .prepReplied f a r
  | .loginSent a p s n => .loginReplied a p s n r
  | .delegationSent a n d => .delegationReplied a n d r
  | pc => pc

/-- A new call joins the running ones. -/
def Client.start (c : Client) (r : Client × Pc) : Client := { r.1 with tasks := c.tasks ++ [r.2] }

/-- One step of the world; public keys of sessions and the canister's parameters are given. -/
def World.step (E : Env) (K : SessionKeys) (w : World) : Happening → World
  | .load => { w with client := w.client.load }
  | .create => { w with client := w.client.create }
  | .setWallet x => { w with client := w.client.setWallet x }
  | .inject x => { w with client := { w.client with injected := x } }
  | .prepareLogin =>
    { w with client := w.client.start (w.client.startPrepareLogin none) }
  | .login =>
    { w with client := w.client.start w.client.startLogin }
  | .clear => { w with client := w.client.clear }
  | .resume i a =>
    match w.client.tasks[i]? with
    | none => w
    | some pc =>
      { w with
        client := { (w.client.resume pc a).1 with tasks := w.client.tasks.set i (w.client.resume pc a).2.1 }
        log := w.log ++ (w.client.resume pc a).2.2 }
  | .execute i now certificate =>
    match w.client.tasks[i]? with
    | none => w
    | some pc =>
      match pc.request K certificate with
      | none => w
      | some op => { w with
          client := { w.client with
            tasks := w.client.tasks.set i (pc.answered (Siwe.step (stateAfter E w.calls) now op).2) }
          calls := w.calls ++ [(now, op)] }
  | .lagging i now certificate seen =>
    match w.client.tasks[i]? with
    | none => w
    | some pc =>
      match pc.query K certificate with
      | none => w
      | some op => { w with
          client := { w.client with
            tasks := w.client.tasks.set i (pc.answered (Siwe.step (stateAfter E (w.calls.take seen)) now op).2) } }
  | .other now op => { w with calls := w.calls ++ [(now, op)] }

/-- The world after a sequence of happenings. -/
def World.run (E : Env) (K : SessionKeys) (w : World) (hs : List Happening) : World := hs.foldl (World.step E K) w

/-- The world after a sequence of happenings from the beginning. -/
def worldAfter (E : Env) (K : SessionKeys) (hs : List Happening) : World := World.run E K .initial hs

end Siwe
