import Verif.Model.Client
import Verif.Spec.Grant
/- Vocabulary for the properties of the browser client. -/
namespace Siwe.Spec

/-- The page asked the canister for a sign-in message for `addr`, and among the canister's answers to such requests is this text
and nonce. -/
def FetchedFor (E : Env) (calls : History) (log : List Output) (addr : Bytes) (p : PrepareLoginOkResponse) : Prop :=
  Output.prepareLogin addr ∈ log ∧ ∃ e ∈ trace E calls, e.Issues addr p.nonce p.siweMessage

/-- ... for some address. -/
def Fetched (E : Env) (calls : History) (log : List Output) (p : PrepareLoginOkResponse) : Prop :=
  ∃ addr, FetchedFor E calls log addr p

/-- The page sent a login for the account with the public key of session `n`, with a nonce it had fetched, and the canister
answered with `d`. -/
def LoggedInAs (E : Env) (K : SessionKeys) (calls : History) (log : List Output) (account : Bytes) (n : Nat) (d : LoginDetails) :
    Prop :=
  ∃ sig p, Fetched E calls log p ∧ Output.login sig account n p.nonce ∈ log ∧
    ∃ e ∈ trace E calls, e.call = .login sig account (K n) p.nonce ∧ e.reply = .loggedIn d

/-- The identity is what the canister gave the page: after a login of the account with the session's public key, the canister
was asked for the delegation with the expiration the login named, and the chain consists of its answer and the login's public key.  The
question is a query: the replica that answered it may have executed only the calls `before`. -/
def Obtained (E : Env) (K : SessionKeys) (calls : History) (log : List Output) (account : Bytes) (i : Identity) : Prop :=
  ∃ before after t cert d sd, calls = before ++ after ∧
    (step (stateAfter E before) t (.getDelegation cert account (K i.session) d.expiration)).2 = .delegation sd ∧
    i.chain = ⟨sd.delegation, sd.signature, d.userCanisterPubkey⟩ ∧ LoggedInAs E K calls log account i.session d

/-- The sessions whose public keys were sent in login calls, in order. -/
def sentSessions (log : List Output) : List Nat :=
  log.filterMap fun | .login _ _ n _ => some n | _ => none

/-- The account a request is about. -/
def _root_.Siwe.Output.account : Output → Bytes
  | .sign _ a _ | .prepareLogin a | .login _ a _ _ | .getDelegation a _ _ => a

/-- The call is still running. -/
def Running : Pc → Bool
  | .prepared _ | .loggedIn _ | .failed _ => false
  | _ => true

/-- The call is a `login` (possibly waiting for its `prepareLogin`) that is still running. -/
def RunningLogin : Pc → Bool
  | .prepWallet f _ | .prepAddresses f | .prepActor f _ | .prepSent f _ | .prepReplied f _ _ => f.isSome
  | .prepared _ | .loggedIn _ | .failed _ => false
  | _ => true

/-- The wallet at hand: the one the app has set, or else the injected one. -/
def HasWallet (c : Client) (x : Wallet) : Prop := c.wallet = some x ∨ c.wallet = none ∧ c.injected = some x

instance (c : Client) (x : Wallet) : Decidable (HasWallet c x) := inferInstanceAs (Decidable (_ ∨ _))

/-- The call of the canister is one the page has asked for. -/
def Requested (K : SessionKeys) (log : List Output) : Op → Prop
  | .prepareLogin a => .prepareLogin a ∈ log
  | .login sig a key nonce => ∃ n, K n = key ∧ .login sig a n nonce ∈ log
  | .getDelegation _ a key expiration => ∃ n, K n = key ∧ .getDelegation a n expiration ∈ log
  | _ => False

/-- The canister gave this answer: as one of its calls, or, to a query, from the state after a first part of them (the replica that
answered lagged behind). -/
def AnsweredWith (E : Env) (calls : History) (op : Op) (r : Reply) : Prop :=
  (∃ e ∈ trace E calls, e.call = op ∧ e.reply = r) ∨
  (∃ certificate addr key expiration, op = .getDelegation certificate addr key expiration) ∧
    ∃ before after t, calls = before ++ after ∧ (step (stateAfter E before) t op).2 = r

/-- The wallet the app has set last since the page was loaded or another manager was made. -/
def appWallet (hs : List Happening) : Option Wallet :=
  hs.foldl (fun o x => match x with | .load => none | .create => none | .setWallet v => some v | _ => o) none

/-- The wallet injected into the page. -/
def injectedWallet (hs : List Happening) : Option Wallet :=
  hs.foldl (fun o x => match x with | .inject v => v | _ => o) none

/-- The wallet was injected at some time since the page was loaded or another manager was made. -/
def InjectedSinceLoad (hs : List Happening) (v : Wallet) : Prop :=
  ∃ before after, hs = before ++ after ∧ .load ∉ after ∧ .create ∉ after ∧ injectedWallet before = some v

/-- Happenings that leave the page's `i`-th call alone. -/
def Leaves (i : Nat) : Happening → Bool
  | .load => false
  | .resume j _ => j != i
  | .execute j _ _ => j != i
  | .lagging j _ _ _ => j != i
  | _ => true

end Siwe.Spec
