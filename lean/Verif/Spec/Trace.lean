import Verif.Model.Provider
import Verif.Spec.Message
/-
What an observer of the canister sees: the calls with their times and replies; and what "signed by" means.
-/
namespace Siwe.Spec

/-- One observed call. -/
structure Event where
  time : UInt64
  call : Op
  reply : Reply

/-- The observed calls of a history that starts in a given state. -/
def traceFrom {E : Env} (s : State E) : History → List Event
  | [] => []
  | (now, op) :: rest => ⟨now, op, (step s now op).2⟩ :: traceFrom (step s now op).1 rest

/-- The observed calls of a history of a new canister. -/
def trace (E : Env) (h : History) : List Event := traceFrom (State.fresh E) h

/-- The module was installed or upgraded successfully. -/
def Event.Reinstalls (e : Event) : Prop :=
  ∃ i, (e.call = .install i ∨ e.call = .upgrade i) ∧ e.reply = .done

/-- No successful installation or upgrade among the events. -/
def SameModule (es : List Event) : Prop := ∀ e ∈ es, ¬e.Reinstalls

/-- `siwe_prepare_login(addr)` issued the text with the nonce. -/
def Event.Issues (e : Event) (addr nonce text : Bytes) : Prop :=
  e.call = .prepareLogin addr ∧ e.reply = .prepared ⟨text, nonce⟩

/-- `siwe_login` for this address, session key and nonce succeeded. -/
def Event.LogsIn (e : Event) (addr sessionKey nonce : Bytes) (d : LoginDetails) : Prop :=
  (∃ sig, e.call = .login sig addr sessionKey nonce) ∧ e.reply = .loggedIn d

/-- The 65-byte signature (as hex text) recovers the public key for the personal message `text`; the last byte modulo
27 is the recovery id. -/
def RecoversKey (E : Env) (sig text key : Bytes) : Prop :=
  ∃ bs v signed, Spells (sig.drop 2) bs ∧ bs[64]? = some v ∧ v.toNat % 27 ≤ 3 ∧ E.sigOk (bs.take 64) = true ∧
    IsPersonalMessage text signed ∧ E.recoverKey (E.keccak signed) (bs.take 64) (v % 27) = some key

/-- The signature recovers the address for the personal message `text`: the last 20 bytes of the recovered key's
hash are the address. -/
def Signs (E : Env) (sig text addr : Bytes) : Prop :=
  ∃ key, RecoversKey E sig text key ∧ Spells (addr.drop 2) ((E.keccak key).bytes.drop 12)

/-- Why no key is recovered. -/
def RecoveryFails (E : Env) (sig text : Bytes) (e : EthError) : Prop :=
  ∃ bs v signed, Spells (sig.drop 2) bs ∧ bs[64]? = some v ∧ IsPersonalMessage text signed ∧
    ((v.toNat % 27 > 3 ∧ e = .invalidRecoveryId) ∨
     (v.toNat % 27 ≤ 3 ∧ E.sigOk (bs.take 64) = false ∧ e = .invalidSignature) ∨
     (v.toNat % 27 ≤ 3 ∧ E.sigOk (bs.take 64) = true ∧
      E.recoverKey (E.keccak signed) (bs.take 64) (v % 27) = none ∧ e = .publicKeyRecoveryFailure))

/-- The message stored for an address and a nonce. -/
def Pending {E : Env} (s : State E) (addr nonce : Bytes) (m : SiweMessage) : Prop :=
  ∃ bs, bs.length = 20 ∧ Spells (addr.drop 2) bs ∧ s.lib.messages.lookup (E.sha256 (pendingKey bs nonce)) = some m

/-- Storage keys of two (address, nonce) pairs that collide. -/
def KeyCollision (E : Env) (addr nonce addr' nonce' : Bytes) : Prop :=
  ∃ bs bs', Spells (addr.drop 2) bs ∧ Spells (addr'.drop 2) bs' ∧
    Collision E.sha256 (pendingKey bs nonce) (pendingKey bs' nonce')

/-- The call asked for a login of the address with the nonce. -/
def Event.Attempts (e : Event) (addr nonce : Bytes) : Prop := ∃ sig key, e.call = .login sig addr key nonce

/-- The call issued a message to, or asked for a login of, the address with the nonce. -/
def Event.Concerns (e : Event) (addr nonce : Bytes) : Prop := (∃ text, e.Issues addr nonce text) ∨ e.Attempts addr nonce

/-- The call issued a message with this nonce to the address. -/
def Event.issuesTo (addr nonce : Bytes) (e : Event) : Bool :=
  match e.call, e.reply with
  | .prepareLogin a, .prepared r => a == addr && r.nonce == nonce
  | _, _ => false

/-- The call logged the address in with this nonce. -/
def Event.logsInWith (addr nonce : Bytes) (e : Event) : Bool :=
  match e.call, e.reply with
  | .login _ a _ n, .loggedIn _ => a == addr && n == nonce
  | _, _ => false

end Siwe.Spec
