import Verif.Spec.Wording
/-
Two canisters whose configurations differ in how long a prepared message may be used.
-/
namespace Siwe.Spec

/-- The sign-in time of a configuration: five minutes if none is given. -/
def signInTime (i : SettingsInput) : Nat := match i.signInExpiresIn with | some t => t.toNat | none => 5 * 60 * 1000000000

/-- Two configurations that can be installed and agree on everything but the sign-in time, which is at least as long in the second. -/
def LongerSignIn (E : Env) (i i' : SettingsInput) : Prop :=
  Installs E i ∧ Installs E i' ∧ (∃ t, i' = { i with signInExpiresIn := t }) ∧ signInTime i ≤ signInTime i'

/-- Corresponding calls on two canisters in these states: installations and upgrades with such configurations; logins with well-formed
signatures, each of a message that may still be used on its own canister, or neither; and otherwise the same call. -/
inductive LongerCalls {E : Env} (s s' : State E) (now : UInt64) : Op → Op → Prop
  | install (i i' : SettingsInput) : LongerSignIn E i i' → LongerCalls s s' now (.install i) (.install i')
  | upgrade (i i' : SettingsInput) : LongerSignIn E i i' → LongerCalls s s' now (.upgrade i) (.upgrade i')
  | login (sig sig' addr key nonce : Bytes) : HexString 130 sig → HexString 130 sig' →
      (SignsWaiting s now sig addr nonce ↔ SignsWaiting s' now sig' addr nonce) →
      LongerCalls s s' now (.login sig addr key nonce) (.login sig' addr key nonce)
  | same (op : Op) : (∀ sig addr key nonce, op = .login sig addr key nonce → ¬HexString 130 sig) → LongerCalls s s' now op op

/-- Corresponding calls at the same times. -/
inductive LongerHistories (E : Env) : History → History → Prop
  | nil : LongerHistories E [] []
  | snoc (now : UInt64) {op op' : Op} {h h' : History} : LongerHistories E h h' →
      LongerCalls (stateAfter E h) (stateAfter E h') now op op' →
      LongerHistories E (h ++ [(now, op)]) (h' ++ [(now, op')])

/-- The login was refused because of the signature, or because there is no message. -/
def OfSigning : LoginError → Prop
  | .messageNotFound => True
  | e => OfSignature e

/-- What may differ in the answers: the text of prepared messages, and why a login is refused. -/
inductive SameButExpiry : Op → Reply → Reply → Prop
  | equal (op : Op) (r : Reply) : SameButExpiry op r r
  | prepared (addr nonce text text' : Bytes) : SameButExpiry (.prepareLogin addr) (.prepared ⟨text, nonce⟩) (.prepared ⟨text', nonce⟩)
  | refused (sig addr key nonce : Bytes) (e e' : LoginError) : OfSigning e → OfSigning e' →
      SameButExpiry (.login sig addr key nonce) (.err (.login e)) (.err (.login e'))

end Siwe.Spec
