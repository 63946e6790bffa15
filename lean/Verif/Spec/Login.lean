import Verif.Spec.Trace
import Verif.Spec.Identity
/-
What `siwe_login` is supposed to answer.
-/
namespace Siwe.Spec

/-- Why a string is not an address: shape, first bad character, or letter case. -/
inductive AddressError (keccak : Bytes → Hash) (s : Bytes) : EthError → Prop
  | shape : (¬∃ ds, s = [48, 120] ++ ds ∧ ds.length = 40) → AddressError keccak s .addressFormatError
  | digit (ds : Bytes) (i : Nat) (c : UInt8) : s = [48, 120] ++ ds → ds.length = 40 → ds[i]? = some c →
      isHexDigit c = false → (∀ j d, j < i → ds[j]? = some d → isHexDigit d = true) →
      AddressError keccak s (.decodingError (.invalidHexCharacter c i))
  | letterCase (ds : Bytes) : s = [48, 120] ++ ds → ds.length = 40 → (∀ c ∈ ds, isHexDigit c = true) →
      ¬Eip55Case keccak ds → AddressError keccak s .notEip55

/-- Why a string is not a signature: shape or first bad character. -/
inductive SignatureError (s : Bytes) : EthError → Prop
  | shape : (¬∃ ds, s = [48, 120] ++ ds ∧ ds.length = 130) → SignatureError s .signatureFormatError
  | digit (ds : Bytes) (i : Nat) (c : UInt8) : s = [48, 120] ++ ds → ds.length = 130 → ds[i]? = some c →
      isHexDigit c = false → (∀ j d, j < i → ds[j]? = some d → isHexDigit d = true) →
      SignatureError s (.decodingError (.invalidHexCharacter c i))

/-- The seed of an address's identity under a configuration. -/
def IsSeed (E : Env) (s : Settings) (addr : Bytes) (seed : Hash) : Prop :=
  (UsesUri s ∧ seed = E.sha256 (identityString s.salt addr (some s.uri))) ∨
  (¬UsesUri s ∧ seed = E.sha256 (identityString s.salt addr none))

/-- Why a session key is refused. -/
inductive KeyError (E : Env) (sessionKey : Bytes) : DelegationError → Prop
  | empty : sessionKey = [] → KeyError E sessionKey .sessionKeyEmpty
  | notDer : sessionKey ≠ [] → E.derOk sessionKey = false → KeyError E sessionKey .sessionKeyNotDer

/-- An unexpired message is stored for the address and nonce, and `txt` is its text. -/
def Usable {E : Env} (st : State E) (now : UInt64) (addr nonce : Bytes) (m : SiweMessage) (txt : Bytes) : Prop :=
  Pending st addr nonce m ∧ now.toNat < m.expirationTime.toNat ∧ (m.text : Res Empty Bytes) = .ok txt

/-- The answer `siwe_login` owes in a state. -/
inductive LoginReply {E : Env} (st : State E) (now : UInt64) (sig addr key nonce : Bytes) : Reply → Prop
  | badAddress (e : EthError) : AddressError E.keccak addr e → LoginReply st now sig addr key nonce (.err (.eth e))
  | badSignature (e : EthError) : IsAddress E.keccak addr → SignatureError sig e →
      LoginReply st now sig addr key nonce (.err (.eth e))
  | notFound : IsAddress E.keccak addr → HexString 130 sig → (¬∃ m txt, Usable st now addr nonce m txt) →
      LoginReply st now sig addr key nonce (.err (.login .messageNotFound))
  | unrecoverable (m : SiweMessage) (txt : Bytes) (e : EthError) : IsAddress E.keccak addr → HexString 130 sig →
      Usable st now addr nonce m txt → RecoveryFails E sig txt e →
      LoginReply st now sig addr key nonce (.err (.login (.eth e)))
  | otherSigner (m : SiweMessage) (txt pub : Bytes) : IsAddress E.keccak addr → HexString 130 sig →
      Usable st now addr nonce m txt → RecoversKey E sig txt pub → ¬Signs E sig txt addr →
      LoginReply st now sig addr key nonce (.err (.login .addressMismatch))
  | badKey (m : SiweMessage) (txt : Bytes) (e : DelegationError) : IsAddress E.keccak addr → HexString 130 sig →
      Usable st now addr nonce m txt → Signs E sig txt addr → KeyError E key e →
      LoginReply st now sig addr key nonce (.err (.login (.delegation e)))
  | success (m : SiweMessage) (txt : Bytes) (s : Settings) (seed : Hash) (d : LoginDetails) :
      IsAddress E.keccak addr → HexString 130 sig →
      Usable st now addr nonce m txt → Signs E sig txt addr → key ≠ [] → E.derOk key = true →
      st.lib.settings = some s → IsSeed E s addr seed →
      d.expiration.toNat = min (m.issuedAt.toNat + s.sessionExpiresIn.toNat) (2 ^ 64 - 1) →
      d.userCanisterPubkey = createUserCanisterPubkey E.canisterId seed.bytes →
      LoginReply st now sig addr key nonce (.loggedIn d)

end Siwe.Spec
