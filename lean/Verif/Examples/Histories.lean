import Verif.Model.Provider
import Verif.Examples.Toy
/- Concrete histories of the toy canister, used to show that hypotheses are met. -/
namespace Siwe.Ex

/-- Default settings. -/
def input : SettingsInput where
  domain := ascii "a.com"
  uri := ascii "http://a.com"
  salt := ascii "s"
  chainId := none
  scheme := none
  statement := none
  signInExpiresIn := none
  sessionExpiresIn := none
  targets := none
  runtimeFeatures := none

/-- Two accepted addresses. -/
def alice : Bytes := ascii "0x1111111111111111111111111111111111111111"
def bob : Bytes := ascii "0x2222222222222222222222222222222222222222"

/-- Under the toy parameters these recover the two addresses. -/
def aliceSig : Bytes := ascii "0x" ++ hexEncode (List.replicate 64 0x11 ++ [27])
def bobSig : Bytes := ascii "0x" ++ hexEncode (List.replicate 64 0x22 ++ [28])
/-- A signature nothing recovers from: wrong recovery id. -/
def brokenSig : Bytes := ascii "0x" ++ hexEncode (List.replicate 64 0x11 ++ [26])

/-- The toy generator's `n`-th nonce (seeded with three bytes it starts at 3). -/
def nonce (n : UInt8) : Bytes := hexEncode (List.replicate 9 0 ++ [n])

/-- A session key. -/
def key : Bytes := [48, 1]

/-- Installation, seeding and one prepared login for each address. -/
def prepared : History :=
  [(1, .install input), (2, .rngSeeded [1, 2, 3]), (5, .prepareLogin alice), (6, .prepareLogin bob)]

/-- The first of them logs in. -/
def loggedIn : History := prepared ++ [(100, .login aliceSig alice key (nonce 3))]

end Siwe.Ex
