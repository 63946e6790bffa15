import Verif.Model.Time
import Verif.Model.Settings
import Verif.Model.HashM
/-
packages/ic_siwe/src/siwe.rs
-/
namespace Siwe

/-- siwe.rs:55-66 `SiweMessage` -/
structure SiweMessage where
  scheme : Bytes
  domain : Bytes
  address : Bytes
  statement : Bytes
  uri : Bytes
  version : UInt8
  chainId : UInt32
  nonce : Bytes
  issuedAt : UInt64
  expirationTime : UInt64
  deriving DecidableEq

/-- siwe.rs:76-92 `SiweMessage::new`; both readings of the clock in one message execution agree. -/
def SiweMessage.new (s : Settings) (now : UInt64) (address : EthAddress) (nonce : Bytes) : SiweMessage where
  scheme := s.scheme
  domain := s.domain
  address := address.str
  statement := s.statement
  uri := s.uri
  version := 1
  chainId := s.chainId
  nonce := nonce
  issuedAt := now
  expirationTime := satAdd now s.signInExpiresIn

/-- siwe.rs:99-102 `SiweMessage::is_expired` -/
def SiweMessage.isExpired (m : SiweMessage) (now : UInt64) : Bool :=
  m.issuedAt < now || now > m.expirationTime

/-- siwe.rs:118-145 `From<SiweMessage> for String` -/
def SiweMessage.text {ε : Type} (m : SiweMessage) : Res ε Bytes := do
  let issuedAt ← rfc3339 m.issuedAt
  let expiration ← rfc3339 m.expirationTime
  .ok (m.domain ++ ascii " wants you to sign in with your Ethereum account:\n"
    ++ m.address ++ ascii "\n\n"
    ++ m.statement ++ ascii "\n\nURI: "
    ++ m.uri ++ ascii "\nVersion: "
    ++ decimal m.version.toNat ++ ascii "\nChain ID: "
    ++ decimal m.chainId.toNat ++ ascii "\nNonce: "
    ++ m.nonce ++ ascii "\nIssued At: "
    ++ issuedAt ++ ascii "\nExpiration Time: "
    ++ expiration)

/-- siwe.rs:150-162 the byte string hashed by `siwe_message_map_hash`, from the address bytes -/
def mapKeyInput (addressBytes nonce : Bytes) : Bytes :=
  asU8 addressBytes.length :: addressBytes ++ asU8 nonce.length :: nonce

/-- siwe.rs:150-162 `siwe_message_map_hash` -/
def siweMessageMapHash {ε : Type} (E : Env) (address : EthAddress) (nonce : Bytes) : Res ε Hash := do
  let ab ← address.asBytes.unwrap
  .ok (hashBytes E (mapKeyInput ab nonce))

/-- siwe.rs:167-169 `SiweMessageMap`: a `HashMap<[u8; 32], SiweMessage>`, as its entries (one per key).
Iteration order is never observed. -/
abbrev SiweMessageMap := List (Hash × SiweMessage)

namespace SiweMessageMap

/-- siwe.rs:179-183 `prune_expired` -/
def pruneExpired (m : SiweMessageMap) (now : UInt64) : SiweMessageMap :=
  m.filter fun e => e.2.expirationTime > now

/-- `HashMap::remove` -/
def erase (m : SiweMessageMap) (h : Hash) : SiweMessageMap := m.filter fun e => e.1 ≠ h

/-- siwe.rs:186-189 `insert` -/
def insert {ε : Type} (E : Env) (m : SiweMessageMap) (message : SiweMessage) (address : EthAddress)
    (nonce : Bytes) : Res ε SiweMessageMap := do
  let h ← siweMessageMapHash E address nonce
  .ok ((h, message) :: erase m h)

/-- siwe.rs:193-199 `get`; `none` is `MessageNotFound` -/
def get {ε : Type} (E : Env) (m : SiweMessageMap) (address : EthAddress) (nonce : Bytes) :
    Res ε (Option SiweMessage) := do
  let h ← siweMessageMapHash E address nonce
  .ok (m.lookup h)

/-- siwe.rs:202-205 `remove` -/
def remove {ε : Type} (E : Env) (m : SiweMessageMap) (address : EthAddress) (nonce : Bytes) :
    Res ε SiweMessageMap := do
  let h ← siweMessageMapHash E address nonce
  .ok (erase m h)

end SiweMessageMap
end Siwe
