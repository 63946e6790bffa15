import Verif.Concrete.Env
import Verif.Model.ErrorText
import Verif.Model.Candid
/-
The unit tests of packages/ic_siwe/src that use fixed inputs, evaluated on the model with the real hash functions
(Concrete/Env.lean).  These are tests of the model against values the repository fixes, not proofs of properties.  The test functions'
names are given; tests with random inputs use one fixed input instead.
-/
namespace Siwe.Conformance
set_option maxRecDepth 100000

/-- The parameters; the canister id does not matter here. -/
def E : Env := Concrete.env []

/-- Bytes of a hexadecimal number with `n` bytes. -/
def hexBytes (n x : Nat) : Bytes := Concrete.beBytes n x

/-! ### hash.rs:103-262 -/

/-- `message_id_icf_key_val_reference_1` -/
example : (hashKeyValue E (ascii "request_type") (.string (ascii "call")) : Res Empty Bytes) = .ok (hexBytes 64
    0x769e6f87bdda39c859642b74ce9763cdd37cb1cd672733e8c54efaa33ab78af97edb360f06acaef2cc80dba16cf563f199d347db4443da04da0c8173e3f9e4ed) := by
  decide +kernel

/-- `message_id_u64_id_reference` -/
example : ((hashU64 E 0 : Res Empty Hash).elim (fun e => nomatch e) [] Hash.bytes) = hexBytes 32
    0x6e340b9cffb37a989ca544e6bb780a2c78901d3fb33738768511a30617afa01d := by decide +kernel
example : ((hashU64 E 1234 : Res Empty Hash).elim (fun e => nomatch e) [] Hash.bytes) = hexBytes 32
    0x8b37fd3ebbe6396a89ed8563dd0cc55927ac90138950460c77cffeb55cf63810 := by decide +kernel
example : ((hashU64 E 0xffffffffffffffff : Res Empty Hash).elim (fun e => nomatch e) [] Hash.bytes) = hexBytes 32
    0x51672ea45f3539654bf9193f4ff763d90022eee7df5f5b76353d6f11a9eaccec := by decide +kernel

/-- `message_id_string_reference_1` to `_6` -/
example : [
    hashString E (ascii "request_type"),
    hashString E (ascii "call"),
    hashString E (ascii "callee"),
    hashString E (ascii "method_name"),
    hashString E (ascii "hello"),
    hashString E (ascii "arg")].map Hash.bytes = [
    hexBytes 32 0x769e6f87bdda39c859642b74ce9763cdd37cb1cd672733e8c54efaa33ab78af9,
    hexBytes 32 0x7edb360f06acaef2cc80dba16cf563f199d347db4443da04da0c8173e3f9e4ed,
    hexBytes 32 0x92ca4c0ced628df1e7b9f336416ead190bd0348615b6f71a64b21d1b68d4e7e2,
    hexBytes 32 0x293536232cf9231c86002f4ee293176a0179c002daa9fc24be9bb51acdd642b6,
    hexBytes 32 0x2cf24dba5fb0a30e26e83b2ac5b9e29e1b161e5c1fa7425e73043362938b9824,
    hexBytes 32 0xb25f03dedd69be07f356a06fe35c1b0ddc0de77dcd9066c4be0c6bbde14b23ff] := by
  decide +kernel

/-- `message_id_array_reference_1` to `_6` -/
example : ((hashValue E (.array [.string (ascii "a")]) : Res Empty Hash).elim (fun e => nomatch e) [] Hash.bytes) =
    hexBytes 32 0xbf5d3affb73efd2ec6c36ad3112dd933efed63c4e1cbffcfa88e2759c144f2d8 := by decide +kernel
example : ((hashValue E (.array [.string (ascii "a"), .string (ascii "b")]) : Res Empty Hash).elim (fun e => nomatch e) [] Hash.bytes) =
    hexBytes 32 0xe5a01fee14e0ed5c48714f22180f25ad8365b53f9779f79dc4a3d7e93963f94a := by decide +kernel
example : ((hashValue E (.array [.bytes [97], .string (ascii "b")]) : Res Empty Hash).elim (fun e => nomatch e) [] Hash.bytes) =
    hexBytes 32 0xe5a01fee14e0ed5c48714f22180f25ad8365b53f9779f79dc4a3d7e93963f94a := by decide +kernel
example : ((hashValue E (.array [.array [.string (ascii "a")]]) : Res Empty Hash).elim (fun e => nomatch e) [] Hash.bytes) =
    hexBytes 32 0xeb48bdfa15fc43dbea3aabb1ee847b6e69232c0f0d9705935e50d60cce77877f := by decide +kernel
example : ((hashValue E (.array [.array [.string (ascii "a"), .string (ascii "b")]]) : Res Empty Hash).elim (fun e => nomatch e) [] Hash.bytes) =
    hexBytes 32 0x029fd80ca2dd66e7c527428fc148e812a9d99a5e41483f28892ef9013eee4a19 := by decide +kernel
example : ((hashValue E (.array [.array [.string (ascii "a"), .string (ascii "b")], .bytes [97]]) : Res Empty Hash).elim (fun e => nomatch e) [] Hash.bytes) =
    hexBytes 32 0xaec3805593d9ec6df50da070597f73507050ce098b5518d0456876701ada7bb7 := by decide +kernel

/-- `message_id_bytes_reference` -/
example : (hashBytes E [68, 73, 68, 76, 0, 253, 42]).bytes =
    hexBytes 32 0x6c0b2ae49718f6995c02ac5700c9c789d7b7862a0d53e6d40a73f1fcd2f70189 := by decide +kernel

/-! ### eth.rs:296-483 -/

/-- The text of an address or signature error. -/
def errText {α : Type} (r : Res EthError α) : Option Bytes :=
  match r with
  | .err e => some e.text
  | _ => none

/-- `test_eth_address_invalid_address`, `_invalid_hex_encoding`, `_too_short`, `_too_long`, `_invalid_eip55` -/
example :
    errText (EthAddress.new E (ascii "0xG" ++ List.replicate 39 49)) =
      some (ascii "Decoding error: Invalid character 'G' at position 0") ∧
    errText (EthAddress.new E (ascii "0x" ++ List.replicate 40 71)) =
      some (ascii "Decoding error: Invalid character 'G' at position 0") ∧
    errText (EthAddress.new E (ascii "0x" ++ List.replicate 39 49)) =
      some (ascii "Address format error: Must start with '0x' and be 42 characters long") ∧
    errText (EthAddress.new E (ascii "0x" ++ List.replicate 41 49)) =
      some (ascii "Address format error: Must start with '0x' and be 42 characters long") ∧
    errText (EthAddress.new E (ascii "0x5aaeb6053f3e94c9b9a09f33669435e7ef1beaed")) =
      some (ascii "EIP-55 error: Not EIP-55 encoded") ∧
    EthAddress.new E (ascii "0x5aAeb6053F3E94C9b9A09f33669435E7Ef1BeAed") =
      .ok ⟨ascii "0x5aAeb6053F3E94C9b9A09f33669435E7Ef1BeAed"⟩ := by
  decide +kernel

/-- `test_eth_signature_new_valid`, `_new_invalid_format`, `_new_invalid_length`, `_as_bytes`, `_as_byte_array` -/
example :
    EthSignature.new (ascii "0x" ++ List.replicate 130 49) = .ok ⟨ascii "0x" ++ List.replicate 130 49⟩ ∧
    EthSignature.new (ascii "0x1") = .err .signatureFormatError ∧
    EthSignature.new (ascii "0x" ++ List.replicate 131 49) = .err .signatureFormatError ∧
    EthSignature.asBytes ⟨ascii "0x" ++ List.replicate 130 49⟩ = .ok (List.replicate 65 0x11) ∧
    EthSignature.asByteArray ⟨ascii "0x" ++ List.replicate 130 49⟩ = .ok (List.replicate 65 0x11) := by
  decide +kernel

/-- A wallet's address (the private key is that of the examples in the web3.js documentation) and its signature of the tests' message. -/
def walletAddress : Bytes := ascii "0x2c7536E3605D9C16a7a3D7b1898e529396a65c23"
/-- See `walletAddress`. -/
def marlene : Bytes := ascii "It's me, Marlene, do you miss me?!"
/-- See `walletAddress`. -/
def marleneSig : Bytes := ascii
  "0x6cc02ec609d7cffa254650568883781f19938d3eac429f459c40e6d682d2f042315033f4a4ab71edc24bc50e1ea7ebd003ee3116417226d8fbb2bccfdff543e21b"

/-- `test_recover_eth_address`, `_with_invalid_signature` (last digit replaced by 0), `_with_wrong_message` -/
example :
    recoverEthAddress E marlene ⟨marleneSig⟩ = .ok walletAddress ∧
    errText (recoverEthAddress E marlene ⟨marleneSig.dropLast ++ [48]⟩) = some (ascii "Invalid recovery ID") ∧
    recoverEthAddress E (ascii "Message 2") ⟨marleneSig⟩ ≠ .ok walletAddress := by
  decide +kernel

/-- The worked example of the web3.js documentation (`eth.accounts.sign`), an independent value. -/
example : recoverEthAddress E (ascii "Some data") ⟨ascii ("0xb91467e570a6466aa9e9876cbcd013baba02900b8979d43fe208a4a4f339f5fd" ++
    "6007e74cd82e037b800186422fc2da167c747ef045e5d18a5f5d4300f8e1a0291c")⟩ = .ok walletAddress := by
  decide +kernel

/-- `test_convert_to_eip55`, `test_convert_to_eip55_already_valid` -/
example :
    convertToEip55 E (ascii "0xfb6916095ca1df60bb79ce92ce3ea74c37c5d359") =
      .ok (ascii "0xfB6916095ca1df60bB79Ce92cE3Ea74c37c5d359") ∧
    convertToEip55 E (ascii "0xfB6916095ca1df60bB79Ce92cE3Ea74c37c5d359") =
      .ok (ascii "0xfB6916095ca1df60bB79Ce92cE3Ea74c37c5d359") := by
  decide +kernel

/-! ### siwe.rs:41-53, the documented message -/

/-- The example in the documentation of `SiweMessage`. -/
example : (SiweMessage.text ⟨ascii "http", ascii "127.0.0.1", ascii "0x5aAeb6053F3E94C9b9A09f33669435E7Ef1BeAed",
    ascii "Login to the app", ascii "http://127.0.0.1:5173", 1, 10, ascii "ee1ee5ead5b55fe8c8e9", 1620328630000000000,
    1620328633000000000⟩ : Res Empty Bytes) = .ok (ascii (
      "127.0.0.1 wants you to sign in with your Ethereum account:\n" ++
      "0x5aAeb6053F3E94C9b9A09f33669435E7Ef1BeAed\n\nLogin to the app\n\nURI: http://127.0.0.1:5173\nVersion: 1\n" ++
      "Chain ID: 10\nNonce: ee1ee5ead5b55fe8c8e9\nIssued At: 2021-05-06T19:17:10Z\n" ++
      "Expiration Time: 2021-05-06T19:17:13Z")) := by
  decide +kernel

/-! ### settings.rs:266-559 -/

/-- The tests' settings with a change. -/
def built (f : Settings → Settings) : Res SettingsError Settings :=
  SettingsBuilder.build E (f (SettingsBuilder.new (ascii "example.com") (ascii "http://example.com") (ascii "some_salt")))

/-- The settings are accepted, respectively rejected. -/
def accepts (f : Settings → Settings) : Bool :=
  match built f with
  | .ok _ => true
  | _ => false
/-- See `accepts`. -/
def rejects (f : Settings → Settings) : Bool :=
  match built f with
  | .err _ => true
  | _ => false

/-- `test_successful_settings_creation_defaults` (settings.rs:4-8 has the defaults) -/
example : built id = .ok ⟨ascii "example.com", ascii "http://example.com", ascii "some_salt", 1, ascii "https",
    ascii "SIWE Fields:", 300000000000, 1800000000000, none, none⟩ := by
  decide +kernel

/-- `test_successful_settings_creation_custom` -/
example : built (fun s => ⟨s.domain, s.uri, s.salt, 3, ascii "http", ascii "Custom statement", 10000000000, 20000000000,
    some [[4]], none⟩) =
    .ok ⟨ascii "example.com", ascii "http://example.com", ascii "some_salt", 3, ascii "http", ascii "Custom statement",
      10000000000, 20000000000, some [[4]], none⟩ := by
  decide +kernel

/-- The tests that expect `is_err()`. -/
example :
    rejects ({ · with salt := [] }) = true ∧ -- test_empty_salt
    rejects ({ · with chainId := 0 }) = true ∧ -- test_invalid_chain_id, test_chain_id_zero
    rejects ({ · with scheme := ascii "ftp" }) = true ∧ -- test_invalid_scheme
    rejects ({ · with statement := ascii "Invalid\nStatement" }) = true ∧ -- test_invalid_statement(_formats)
    rejects ({ · with signInExpiresIn := 0 }) = true ∧ -- test_sign_in_expires_in_zero
    rejects ({ · with sessionExpiresIn := 0 }) = true ∧ -- test_session_expires_in_zero
    rejects ({ · with targets := some [] }) = true ∧ -- test_empty_targets
    rejects ({ · with targets := some [[4], [4]] }) = true ∧ -- test_duplicate_targets
    rejects ({ · with domain := [] }) = true ∧ -- test_invalid_domain_formats
    rejects ({ · with uri := [] }) = true ∧ rejects ({ · with uri := ascii "just_string" }) = true ∧ -- test_invalid_uris
    rejects ({ · with scheme := ascii "HTTP" }) = true ∧ -- test_scheme_case_sensitivity
    rejects ({ · with domain := [], uri := ascii "invalid_uri", salt := [], chainId := 0, scheme := ascii "ftp" }) = true ∧
      -- test_multiple_valid_and_invalid_combinations
    rejects ({ · with uri := ascii "://missing_protocol.com" }) = true ∧ -- test_malformed_uris
    rejects ({ · with salt := 0 :: ascii "invalid_salt" }) = true ∧ -- test_invalid_salt_content
    rejects ({ · with domain := [], uri := [], salt := [] }) = true := by -- test_validating_an_empty_settingsbuilder
  decide +kernel

/-- `test_too_many_targets` -/
example : rejects ({ · with targets := some (List.replicate 1001 [4]) }) = true := by decide +kernel

/-- The tests that expect `is_ok()`. -/
example :
    accepts ({ · with domain := ascii "sub.domain.com" }) = true ∧ -- test_valid_domain_formats
    accepts ({ · with domain := ascii "example.co.uk" }) = true ∧
    accepts ({ · with uri := ascii "https://example.com:8080/path" }) = true ∧ -- test_valid_uri_formats
    accepts ({ · with uri := ascii "http://example.com:8080" }) = true ∧ -- test_uri_with_port_numbers
    accepts ({ · with salt := ascii "a" }) = true ∧ -- test_valid_salt_lengths
    accepts ({ · with salt := List.replicate 100 97 }) = true ∧
    accepts ({ · with chainId := 4294967295 }) = true ∧ -- test_chain_id_boundary_values
    accepts ({ · with statement := List.replicate 1000 97 }) = true ∧ -- test_statement_length_and_content
    accepts ({ · with signInExpiresIn := 1, sessionExpiresIn := 18446744073709551615 }) = true ∧ -- test_extreme_expiration_values
    accepts ({ · with targets := some [[4], []] }) = true ∧ -- test_targets_with_various_principal_formats
    accepts ({ · with scheme := ascii "http" }) = true ∧ -- test_partially_initialized_builder
    accepts ({ · with domain := ascii "xn--exmple-cua.com" }) = true := by -- test_domain_with_international_characters
  decide +kernel

/-! ### delegation.rs:258-460 -/

/-- `SESSION_KEY` and the key of `test_witness_multiple_entries` -/
def sessionKey : Bytes := [
  48, 42, 48, 5, 6, 3, 43, 101, 112, 3, 33, 0, 220, 227, 2, 129, 72, 36, 43, 220, 96, 102, 225, 92, 98, 163, 114, 182, 117, 181,
  51, 15, 219, 197, 104, 55, 123, 245, 74, 181, 35, 181, 171, 196]
/-- See `sessionKey`. -/
def sessionKey2 : Bytes := [
  48, 42, 48, 5, 6, 3, 43, 101, 112, 3, 33, 0, 228, 25, 195, 240, 251, 10, 105, 44, 189, 126, 49, 187, 62, 205, 22, 150, 125, 41,
  1, 32, 75, 200, 227, 140, 98, 246, 179, 10, 192, 228, 168, 111]

/-- The tests' `init` -/
def delegationSettings : Settings :=
  { SettingsBuilder.new (ascii "example.com") (ascii "http://example.com") (ascii "some_salt") with targets := some [[]] }

/-- The seed of the tests' address. -/
def seed : Hash := generateSeed E delegationSettings ⟨ascii "0x1111111111111111111111111111111111111111"⟩

/-- `aaaaa-aa` is the principal without bytes; `test_create_delegation`, `_invalid_session_key`, `_invalid_expiration` -/
example :
    E.principalFromText (ascii "aaaaa-aa") = some [] ∧ PrincipalText.toText [] = ascii "aaaaa-aa" ∧
    PrincipalText.toText [0, 0, 0, 0, 0, 0, 0, 1, 1, 1] = ascii "rrkah-fqaaa-aaaaa-aaaaq-cai" ∧
    createDelegation E delegationSettings sessionKey 123456789 = .ok ⟨sessionKey, 123456789, some [[]]⟩ ∧
    createDelegation E delegationSettings [] 123456789 = .err .sessionKeyEmpty ∧
    DelegationError.sessionKeyEmpty.text [] = ascii "Invalid session key: Session key is empty" ∧
    createDelegation E delegationSettings sessionKey 0 = .err .invalidExpiration ∧
    DelegationError.invalidExpiration.text [] = ascii "Invalid expiration: Expiration is 0" := by
  decide +kernel

/-- The tests' delegation hashes. -/
def delegationHash (key : Bytes) : Hash :=
  (createDelegationHash E ⟨key, 123456789, some [[]]⟩ : Res Empty Hash).elim (fun e => nomatch e) seed id

/-- The tests' signature map with one or two entries. -/
def oneEntry : SigMap :=
  (SigMap.empty.put 5 (hashBytes E seed.bytes) (delegationHash sessionKey) : Res Empty SigMap).elim (fun e => nomatch e) .empty id
/-- See `oneEntry`. -/
def twoEntries : SigMap :=
  (oneEntry.put 6 (hashBytes E seed.bytes) (delegationHash sessionKey2) : Res Empty SigMap).elim (fun e => nomatch e) .empty id

/-- The witness's root hash is the map's. -/
def witnessFits (m : SigMap) (h : Hash) : Bool :=
  match witness E m 7 seed h with
  | .ok t => t.reconstruct E == m.rootHash E
  | _ => false

/-- `test_witness_single_entry`, `_multiple_entries`, `_empty_signature_map`, `_hash_not_found` -/
example :
    witnessFits oneEntry (delegationHash sessionKey) = true ∧
    witnessFits twoEntries (delegationHash sessionKey2) = true ∧
    witness E .empty 7 seed (delegationHash sessionKey) = .err .signatureNotFound ∧
    ((SigMap.empty.put 5 (hashBytes E [1, 2, 3]) (delegationHash sessionKey) : Res DelegationError SigMap).bind fun m =>
      witness E m 7 seed (delegationHash sessionKey)) = .err .signatureNotFound ∧
    DelegationError.signatureNotFound.text [] = ascii "Signature not found" := by
  decide +kernel

/-- `test_create_user_canister_pubkey` -/
example : E.derOk (createUserCanisterPubkey [] seed.bytes) = true := by decide +kernel

/-! ### signature_map.rs:127-234 -/

/-- `test_prune_no_expired`, `test_prune_some_expired` -/
example :
    ((oneEntry.pruneExpired 5 10 : Res Empty (Nat × SigMap)).elim (fun e => nomatch e) 99 Prod.fst) = 0 ∧
    ((oneEntry.pruneExpired (5 + delegationSignatureExpiresAt + 1) 10 : Res Empty (Nat × SigMap)).elim (fun e => nomatch e) 99
      Prod.fst) = 1 ∧
    ((twoEntries.pruneExpired (6 + delegationSignatureExpiresAt + 1) 100 : Res Empty (Nat × SigMap)).elim (fun e => nomatch e) 99
      Prod.fst) = 2 := by
  decide +kernel

/-! ### Labels of the Candid specification -/

/-- The hashes that Candid's tools print for the two cases of a result. -/
example : Candid.label "Ok" = 17724 ∧ Candid.label "Err" = 3456837 := by decide +kernel

end Siwe.Conformance
