import Verif.Spec.Login
import Verif.Spec.Config
/-
What `siwe_login` is supposed to answer, told from the calls the canister has answered so far and not from its state.
-/
namespace Siwe.Spec

/-- Two pairs of address and nonce with one storage key: the same pair, or a SHA-256 collision. -/
def SameSlot (E : Env) (addr nonce addr' nonce' : Bytes) : Prop :=
  (addr' = addr ∧ nonce' = nonce) ∨ KeyCollision E addr nonce addr' nonce'

/-- The call asked for a login of the address with the nonce, with an address and a signature of the right form. -/
def Event.Tries (E : Env) (e : Event) (addr nonce : Bytes) : Prop :=
  ∃ sig key, e.call = .login sig addr key nonce ∧ IsAddress E.keccak addr ∧ HexString 130 sig

/-- A message issued at `time` with the text `text` still awaits its login at `now`: it was issued by the module in force, its sign-in
time is not over, since then no message was issued and no login tried with the same slot, and no login was tried at all at or after the
end of its sign-in time. -/
def Awaits (E : Env) (es : List Event) (now : UInt64) (addr nonce : Bytes) (time : UInt64) (text : Bytes) : Prop :=
  ∃ before e after addr' nonce' s p, es = before ++ e :: after ∧ SameModule after ∧ InForce E es s p ∧
    e.time = time ∧ e.Issues addr' nonce' text ∧ SameSlot E addr nonce addr' nonce' ∧
    now.toNat < min (time.toNat + s.signInExpiresIn.toNat) (2 ^ 64 - 1) ∧
    ∀ x ∈ after, (∀ a n t, x.Issues a n t → ¬SameSlot E addr nonce a n) ∧
      ∀ a n, x.Tries E a n → ¬SameSlot E addr nonce a n ∧
        x.time.toNat < min (time.toNat + s.signInExpiresIn.toNat) (2 ^ 64 - 1)

/-- The answer `siwe_login` owes after the observed calls. -/
inductive LoginAnswer (E : Env) (es : List Event) (now : UInt64) (sig addr key nonce : Bytes) : Reply → Prop
  | badAddress (e : EthError) : AddressError E.keccak addr e → LoginAnswer E es now sig addr key nonce (.err (.eth e))
  | badSignature (e : EthError) : IsAddress E.keccak addr → SignatureError sig e →
      LoginAnswer E es now sig addr key nonce (.err (.eth e))
  | notFound : IsAddress E.keccak addr → HexString 130 sig → (¬∃ t txt, Awaits E es now addr nonce t txt) →
      LoginAnswer E es now sig addr key nonce (.err (.login .messageNotFound))
  | unrecoverable (t : UInt64) (txt : Bytes) (e : EthError) : IsAddress E.keccak addr → HexString 130 sig →
      Awaits E es now addr nonce t txt → RecoveryFails E sig txt e →
      LoginAnswer E es now sig addr key nonce (.err (.login (.eth e)))
  | otherSigner (t : UInt64) (txt pub : Bytes) : IsAddress E.keccak addr → HexString 130 sig →
      Awaits E es now addr nonce t txt → RecoversKey E sig txt pub → ¬Signs E sig txt addr →
      LoginAnswer E es now sig addr key nonce (.err (.login .addressMismatch))
  | badKey (t : UInt64) (txt : Bytes) (e : DelegationError) : IsAddress E.keccak addr → HexString 130 sig →
      Awaits E es now addr nonce t txt → Signs E sig txt addr → KeyError E key e →
      LoginAnswer E es now sig addr key nonce (.err (.login (.delegation e)))
  | success (t : UInt64) (txt : Bytes) (s : Settings) (p : ProviderSettings) (seed : Hash) (d : LoginDetails) :
      IsAddress E.keccak addr → HexString 130 sig →
      Awaits E es now addr nonce t txt → Signs E sig txt addr → key ≠ [] → E.derOk key = true →
      InForce E es s p → IsSeed E s addr seed →
      d.expiration.toNat = min (t.toNat + s.sessionExpiresIn.toNat) (2 ^ 64 - 1) →
      d.userCanisterPubkey = createUserCanisterPubkey E.canisterId seed.bytes →
      LoginAnswer E es now sig addr key nonce (.loggedIn d)

end Siwe.Spec
