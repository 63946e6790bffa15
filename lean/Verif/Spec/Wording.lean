import Verif.Spec.Login
/-
Two canisters whose configurations differ in the wording of the messages: domain, scheme, chain id, statement and, unless it is part of
the seed, URI.
-/
namespace Siwe.Spec

/-- A canister can be installed with this configuration. -/
def Installs (E : Env) (i : SettingsInput) : Prop := (step (State.fresh E) 0 (.install i)).2 = .done

/-- Two configurations that can be installed and agree on everything but domain, scheme, chain id, statement and, without the feature that
includes it in the seed, URI. -/
def SameButWording (E : Env) (i i' : SettingsInput) : Prop :=
  Installs E i ∧ Installs E i' ∧
    ∃ domain uri scheme chainId statement,
      i' = { i with domain := domain, uri := uri, scheme := scheme, chainId := chainId, statement := statement } ∧
      (uri = i.uri ∨ .includeUriInSeed ∉ i.runtimeFeatures.getD [])

/-- The signature is well formed, and is one of the message that waits for this address and nonce. -/
def SignsWaiting {E : Env} (s : State E) (now : UInt64) (sig addr nonce : Bytes) : Prop :=
  ∃ m txt, Usable s now addr nonce m txt ∧ Signs E sig txt addr

/-- Corresponding calls on two canisters in these states: installations and upgrades with such configurations; logins with well-formed
signatures, each of the message on its own canister or neither; and otherwise the same call. -/
inductive WordingCalls {E : Env} (s s' : State E) (now : UInt64) : Op → Op → Prop
  | install (i i' : SettingsInput) : SameButWording E i i' → WordingCalls s s' now (.install i) (.install i')
  | upgrade (i i' : SettingsInput) : SameButWording E i i' → WordingCalls s s' now (.upgrade i) (.upgrade i')
  | login (sig sig' addr key nonce : Bytes) : HexString 130 sig → HexString 130 sig' →
      (SignsWaiting s now sig addr nonce ↔ SignsWaiting s' now sig' addr nonce) →
      WordingCalls s s' now (.login sig addr key nonce) (.login sig' addr key nonce)
  | same (op : Op) : (∀ sig addr key nonce, op = .login sig addr key nonce → ¬HexString 130 sig) → WordingCalls s s' now op op

/-- Corresponding calls at the same times. -/
inductive WordingHistories (E : Env) : History → History → Prop
  | nil : WordingHistories E [] []
  | snoc (now : UInt64) {op op' : Op} {h h' : History} : WordingHistories E h h' →
      WordingCalls (stateAfter E h) (stateAfter E h') now op op' →
      WordingHistories E (h ++ [(now, op)]) (h' ++ [(now, op')])

/-- The same call, or an installation or upgrade with configurations that can be installed and agree on everything but the scheme. -/
inductive SchemeCalls (E : Env) : Op → Op → Prop
  | install (i : SettingsInput) (scheme : Option Bytes) : Installs E i → Installs E { i with scheme := scheme } →
      SchemeCalls E (.install i) (.install { i with scheme := scheme })
  | upgrade (i : SettingsInput) (scheme : Option Bytes) : Installs E i → Installs E { i with scheme := scheme } →
      SchemeCalls E (.upgrade i) (.upgrade { i with scheme := scheme })
  | same (op : Op) : SchemeCalls E op op

/-- Such calls at the same times. -/
inductive SchemeHistories (E : Env) : History → History → Prop
  | nil : SchemeHistories E [] []
  | cons (now : UInt64) {op op' : Op} {h h' : History} : SchemeCalls E op op' → SchemeHistories E h h' →
      SchemeHistories E ((now, op) :: h) ((now, op') :: h')

/-- The login was refused because of the signature. -/
def OfSignature : LoginError → Prop
  | .eth _ => True
  | .addressMismatch => True
  | _ => False

/-- What may differ in the answers: the text of prepared messages, and why a signature is not accepted. -/
inductive SameButText : Op → Reply → Reply → Prop
  | equal (op : Op) (r : Reply) : SameButText op r r
  | prepared (addr nonce text text' : Bytes) : SameButText (.prepareLogin addr) (.prepared ⟨text, nonce⟩) (.prepared ⟨text', nonce⟩)
  | refused (sig addr key nonce : Bytes) (e e' : LoginError) : OfSignature e → OfSignature e' →
      SameButText (.login sig addr key nonce) (.err (.login e)) (.err (.login e'))

end Siwe.Spec
