import Verif.Conformance.Units
/-
The scenarios of packages/ic_siwe_provider/tests/integration_tests.rs, run on the model with the real functions (Concrete/Env.lean):
fixed wallets, seed, times and session key instead of random ones.  The messages, nonces, signatures, keys and principals compared with
were computed outside Lean.  These are tests of the model against what the repository's tests expect, not proofs of properties.
-/
namespace Siwe.Conformance
set_option maxRecDepth 100000

/-- The canister's principal. -/
def canister : Bytes := [0, 0, 0, 0, 0, 0, 0, 7, 1, 1]
/-- The parameters. -/
def C : Env := Concrete.env canister

/-- tests/common.rs:54-78 `valid_settings` -/
def validSettings : SettingsInput :=
  ⟨ascii "127.0.0.1", ascii "http://127.0.0.1:5173", ascii "dummy-salt", some 10, some (ascii "http"),
    some (ascii "Login to the app"), some 3000000000, some 604800000000000, none, some [.includeUriInSeed]⟩

/-- tests/common.rs:282-310 `settings_disable_eth_and_principal_mapping` -/
def unmappedSettings : SettingsInput :=
  ⟨ascii "127.0.0.1", ascii "http://127.0.0.1:5173", ascii "dummy-salt", some 10, some (ascii "http"),
    some (ascii "Login to the app"), some 3000000000, some 604800000000000, none,
    some [.disableEthToPrincipalMapping, .disablePrincipalToEthMapping]⟩

/-- The time of the first sign-in: 2021-05-06T19:17:10Z. -/
def t0 : UInt64 := 1620328630000000000

/-- tests/common.rs:45 `VALID_ADDRESS` -/
def validAddress : Bytes := ascii "0x5aAeb6053F3E94C9b9A09f33669435E7Ef1BeAed"

/-- Two wallets' addresses. -/
def address1 : Bytes := ascii "0x2c7536E3605D9C16a7a3D7b1898e529396a65c23"
/-- See `address1`. -/
def address2 : Bytes := ascii "0xFCAd0B19bB29D4674531d6f115237E16AfCE377c"

/-- The first two nonces of a generator seeded with zeros. -/
def nonce1 : Bytes := ascii "76b8e0ada0f13d90405d"
/-- See `nonce1`. -/
def nonce2 : Bytes := ascii "5386bd28bdd219b8a08d"

/-- The message for the first wallet and its signature. -/
def message1 : Bytes := ascii
  "127.0.0.1 wants you to sign in with your Ethereum account:\n0x2c7536E3605D9C16a7a3D7b1898e529396a65c23\n\nLogin to the app\n\nURI: http://127.0.0.1:5173\nVersion: 1\nChain ID: 10\nNonce: 76b8e0ada0f13d90405d\nIssued At: 2021-05-06T19:17:10Z\nExpiration Time: 2021-05-06T19:17:13Z"
/-- See `message1`. -/
def signature1 : Bytes := ascii
  "0x93f41599473c57c8fbb83d73f8248da10700949d9fe636697693c44c91e04abf20b4190af513d6ee4c0fb23d515dc5d2e54a458032c054cbb55d350b9c04195f1b"
/-- The second wallet's signature, 100 s later. -/
def signature2 : Bytes := ascii
  "0x3166d580e2d08a3f59ffb2589c4885c049057056692e869b49df8803d319544b67eceb73eac9e682751666667799647fd9e31adeaf8759783b938369e99df5381b"

/-- The first wallet's key and principal. -/
def pubkey1 : Bytes := hexBytes 62 0x303c300c060a2b0601040183b8430102032c000a00000000000000070101f9c16ad86ad2f5ba2132c616323ec7d77af307b7aada598dbe55e689a5675e3b
/-- See `pubkey1`. -/
def principal1 : Bytes := hexBytes 29 0xe7305779d2d6c59688d0cb2449aaff490db4ac91dec04f008c4d723302

/-- `init` of tests/common.rs:90-105 -/
def installed : History := [(t0 - 1000, .install validSettings), (t0 - 999, .rngSeeded (List.replicate 32 0))]
/-- A wallet asks for a message (and signs it). -/
def prepared : History := installed ++ [(t0, .prepareLogin address1)]
/-- The login of tests/common.rs:218-242 `full_login`. -/
def loginOp : Op := .login signature1 address1 sessionKey nonce1
/-- After `full_login`. -/
def loggedIn : History := prepared ++ [(t0 + 1000000000, loginOp)]

/-- A certificate of the subnet, arbitrary bytes to the canister. -/
def certificate : Bytes := [1, 2, 3]

/-- The session's expiration. -/
def expiration : UInt64 := 1620933430000000000

/-- The reply to an operation after a history. -/
def replyTo (h : History) (now : UInt64) (op : Op) : Reply := (step (stateAfter C h) now op).2

/-- The error text of a reply. -/
def errorOf : Reply → Option Bytes
  | .err e => some (e.text [])
  | _ => none

/-- `test_init_with_valid_settings`, `test_init_with_invalid_settings` -/
example :
    replyTo [] 5 (.install validSettings) = .done ∧
    replyTo [] 5 (.install { validSettings with domain := ascii "invalid domain" }) = .trap := by
  decide +kernel

/-- `test_siwe_prepare_login_invalid_address`, `_not_eip55_address`, `_ok` -/
example :
    errorOf (replyTo installed t0 (.prepareLogin (ascii "invalid address"))) =
      some (ascii "Address format error: Must start with '0x' and be 42 characters long") ∧
    errorOf (replyTo installed t0 (.prepareLogin (ascii "0x5aaeb6053f3e94c9b9a09f33669435e7ef1beaed"))) =
      some (ascii "EIP-55 error: Not EIP-55 encoded") ∧
    replyTo installed t0 (.prepareLogin address1) = .prepared ⟨message1, nonce1⟩ := by
  decide +kernel

/-- `test_upgrade_with_changed_arguments` (its targets, principals instead of texts, are decoded as absent) -/
example : replyTo (installed ++ [(t0 - 500, .upgrade ⟨ascii "192.168.0.1", ascii "http://192.168.0.1:666", ascii "another-salt",
      some 666, some (ascii "https"), some (ascii "Some login statement"), some 300000000000, some 1209600000000000, none, none⟩),
      (t0 - 499, .rngSeeded (List.replicate 32 0))]) t0 (.prepareLogin validAddress) = .prepared ⟨ascii
    "192.168.0.1 wants you to sign in with your Ethereum account:\n0x5aAeb6053F3E94C9b9A09f33669435E7Ef1BeAed\n\nSome login statement\n\nURI: http://192.168.0.1:666\nVersion: 1\nChain ID: 666\nNonce: 76b8e0ada0f13d90405d\nIssued At: 2021-05-06T19:17:10Z\nExpiration Time: 2021-05-06T19:22:10Z",
    nonce1⟩ := by
  decide +kernel

/-- `test_login_signature_too_short`, `_too_long`, `test_incorrect_signature_format`, `test_sign_in_message_expired`,
`test_sign_in_address_mismatch` -/
example :
    errorOf (replyTo installed t0 (.login (ascii "0xTOO-SHORT") validAddress sessionKey (ascii "nonce123"))) =
      some (ascii "Signature format error: Must start with '0x' and be 132 characters long") ∧
    errorOf (replyTo installed t0 (.login (signature1 ++ ascii "0") validAddress sessionKey (ascii "nonce123"))) =
      some (ascii "Signature format error: Must start with '0x' and be 132 characters long") ∧
    errorOf (replyTo installed t0 (.login (ascii "0x" ++ [0xc3, 0x96, 0xc3, 0x96] ++ signature1.drop 6) validAddress sessionKey
      (ascii "nonce123"))) = some (ascii "Decoding error: Invalid character '" ++ [0xc3, 0x83] ++ ascii "' at position 0") ∧
    errorOf (replyTo prepared (t0 + 10000000000) loginOp) = some (ascii "Message not found") ∧
    errorOf (replyTo prepared (t0 + 1000000000) (.login signature1 address2 sessionKey nonce1)) = some (ascii "Message not found") := by
  decide +kernel

/-- `test_sign_in_signature_manipulated`: the last ten digits replaced by zeros -/
example : errorOf (replyTo prepared (t0 + 1000000000) (.login (signature1.take 122 ++ List.replicate 10 48) address1 sessionKey
    nonce1)) = some (ascii "Recovered address does not match") := by
  decide +kernel

/-- `test_sign_in_ok`, `test_sign_in_replay_attack` -/
example :
    replyTo prepared (t0 + 1000000000) loginOp = .loggedIn ⟨expiration, pubkey1⟩ ∧ pubkey1.length = 62 ∧
    errorOf (replyTo loggedIn (t0 + 1500000000) loginOp) = some (ascii "Message not found") := by
  decide +kernel

/-- The delegation in a reply. -/
def delegationOf : Reply → Option Delegation
  | .delegation d => some d.delegation
  | _ => none

/-- `test_sign_in_siwe_get_delegation`, `_invalid_expiration`, `_invalid_session_pubkey` -/
example :
    delegationOf (replyTo loggedIn (t0 + 1500000000) (.getDelegation (some certificate) address1 sessionKey expiration)) =
      some ⟨sessionKey, expiration, none⟩ ∧
    errorOf (replyTo loggedIn (t0 + 1500000000) (.getDelegation (some certificate) address1 sessionKey (expiration + 1))) =
      some (ascii "Signature not found") ∧
    errorOf (replyTo loggedIn (t0 + 1500000000) (.getDelegation (some certificate) address1 sessionKey2 expiration)) =
      some (ascii "Signature not found") := by
  decide +kernel

/-- `test_sign_in_siwe_get_delegation_timeout` -/
example : errorOf (replyTo (loggedIn ++ [(t0 + 100000000000, .prepareLogin address2),
      (t0 + 101000000000, .login signature2 address2 sessionKey2 nonce2)]) (t0 + 102000000000)
      (.getDelegation (some certificate) address1 sessionKey expiration)) = some (ascii "Signature not found") := by
  decide +kernel

/-- In the same scenario the second login succeeds. -/
example : replyTo (loggedIn ++ [(t0 + 100000000000, .prepareLogin address2)]) (t0 + 101000000000)
      (.login signature2 address2 sessionKey2 nonce2) ≠ .trap ∧
    errorOf (replyTo (loggedIn ++ [(t0 + 100000000000, .prepareLogin address2)]) (t0 + 101000000000)
      (.login signature2 address2 sessionKey2 nonce2)) = none := by
  decide +kernel

/-- `test_get_caller_address`, `_principal_not_logged_in` (anonymous), `test_get_address`, `_not_found`, `test_get_principal`,
`_not_found` -/
example :
    replyTo loggedIn (t0 + 1500000000) (.getCallerAddress principal1) = .bytes address1 ∧
    errorOf (replyTo loggedIn (t0 + 1500000000) (.getCallerAddress [4])) =
      some (ascii "No address found for the given principal") ∧
    replyTo loggedIn (t0 + 1500000000) (.getAddress principal1) = .bytes address1 ∧
    errorOf (replyTo loggedIn (t0 + 1500000000) (.getAddress [4])) = some (ascii "No address found for the given principal") ∧
    replyTo loggedIn (t0 + 1500000000) (.getPrincipal address1) = .bytes principal1 ∧
    errorOf (replyTo loggedIn (t0 + 1500000000) (.getPrincipal validAddress)) =
      some (ascii "No principal found for the given address") := by
  decide +kernel

/-- `test_eth_to_principal_mapping_disabled`, `test_principal_to_eth_mapping_disabled` -/
example :
    errorOf (replyTo [(t0 - 1000, .install unmappedSettings), (t0 - 999, .rngSeeded (List.replicate 32 0)), (t0, .prepareLogin address1),
      (t0 + 1000000000, loginOp)] (t0 + 1500000000) (.getPrincipal validAddress)) =
      some (ascii "Ethereum address to principal mapping is disabled") ∧
    errorOf (replyTo [(t0 - 1000, .install unmappedSettings), (t0 - 999, .rngSeeded (List.replicate 32 0)), (t0, .prepareLogin address1),
      (t0 + 1000000000, loginOp)] (t0 + 1500000000) (.getAddress principal1)) =
      some (ascii "Principal to Ethereum address mapping is disabled") := by
  decide +kernel

end Siwe.Conformance
