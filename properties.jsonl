{"id": "C01", "title": "Ethereum address validation is exact", "statement": "EthAddress::new(s) succeeds exactly when s is '0x' followed by 40 hex digits whose letter case is the EIP-55 checksum case; every other string gets the matching Err and no string makes it panic.", "quantifier": "every string s (any length, any bytes) and every Keccak implementation", "why_tests_cant": "infinitely many strings; tests cover five", "anchors": ["packages/ic_siwe/src/eth.rs:EthAddress::new", "packages/ic_siwe/src/eth.rs:convert_to_eip55"]}
{"id": "C02", "title": "One accepted spelling per 20-byte address", "statement": "Two accepted EthAddress values with the same 20 bytes are the same string, and every 20-byte value has an accepted spelling, so string identity and byte identity of users never diverge.", "quantifier": "all pairs of accepted addresses; all 20-byte values", "why_tests_cant": "2^160 values times 2^40 casings", "anchors": ["packages/ic_siwe/src/eth.rs:EthAddress::new", "packages/ic_siwe/src/eth.rs:EthAddress::as_byte_array"]}
{"id": "C03", "title": "EIP-55 conversion only normalises letter case", "statement": "convert_to_eip55 on a hex string of at most 64 digits (with or without 0x) returns 0x plus the same digits with only letter case changed, does not depend on the input's letter case, and is idempotent.", "quantifier": "all hex strings up to 64 digits", "why_tests_cant": "unbounded inputs; depends on every hash nibble", "anchors": ["packages/ic_siwe/src/eth.rs:convert_to_eip55"]}
{"id": "C04", "title": "EIP-55 conversion never panics", "statement": "convert_to_eip55 returns Ok or Err, never panics, for every string. (False of the code for strings longer than 64 bytes after the prefix: an index past the 32-byte hash panics. Proved for every string of at most 64 bytes; the failing case is exhibited.)", "quantifier": "every string", "why_tests_cant": "needs the absence of a panic on all inputs", "anchors": ["packages/ic_siwe/src/eth.rs:convert_to_eip55"]}
{"id": "C05", "title": "Signature parsing is exact and panic free", "statement": "EthSignature::new(s) succeeds exactly when s is '0x' followed by 130 hex digits; the accepted value converts to exactly 65 bytes, and as_bytes, as_byte_array and recover_eth_address on it never panic for any message.", "quantifier": "every string s, every message", "why_tests_cant": "infinitely many strings and messages", "anchors": ["packages/ic_siwe/src/eth.rs:EthSignature::new", "packages/ic_siwe/src/eth.rs:EthSignature::as_byte_array", "packages/ic_siwe/src/eth.rs:recover_eth_address"]}
{"id": "C06", "title": "Accepted recovery bytes", "statement": "recover_eth_address returns InvalidRecoveryId exactly when the last signature byte modulo 27 exceeds 3, before looking at r and s; otherwise the recovered address is the EIP-55 form of the last 20 bytes of the Keccak hash of the recovered public key, hence itself a valid EthAddress.", "quantifier": "all 256 recovery bytes, all r/s, all messages", "why_tests_cant": "the address format claim ranges over all keys", "anchors": ["packages/ic_siwe/src/eth.rs:recover_eth_address", "packages/ic_siwe/src/eth.rs:derive_eth_address_from_public_key"]}
{"id": "C07", "title": "EIP-191 envelope is injective", "statement": "Two different message texts never produce the same EIP-191 byte string, so a wallet signature over one text is over exactly that text.", "quantifier": "all pairs of messages", "why_tests_cant": "pairs of unbounded strings; the decimal length prefix makes it non-obvious", "anchors": ["packages/ic_siwe/src/eth.rs:eip191_bytes"]}
{"id": "C08", "title": "Hex encode/decode round trip", "statement": "Decoding the hex encoding of any byte string returns it; decoding accepts exactly even-length strings of hex digits; bytes_to_eth_address followed by convert_to_eip55 is the one accepted spelling of these bytes.", "quantifier": "all byte strings", "why_tests_cant": "unbounded", "anchors": ["packages/ic_siwe/src/eth.rs:bytes_to_eth_address", "packages/ic_siwe_provider/src/service/get_address.rs:get_address"]}
{"id": "C09", "title": "Rendering a sign-in message never fails and timestamps are exact", "statement": "For every u64 issue and expiry time the conversion of a SIWE message to text succeeds, and its Issued At and Expiration Time are well-formed RFC 3339 UTC timestamps denoting exactly that nanosecond.", "quantifier": "all u64 timestamps", "why_tests_cant": "2^64 timestamps; leap years, trailing-zero trimming", "anchors": ["packages/ic_siwe/src/siwe.rs:From<SiweMessage> for String"]}
{"id": "C10", "title": "Message text identifies the sign-in request", "statement": "Under one configuration, two sign-in messages with the same text have the same address, nonce, issue time and expiry time; and for fields without line breaks the text determines all displayed fields across configurations. (Without the no-line-break condition it is false: domain and uri are not checked for line breaks and a colliding pair is exhibited.)", "quantifier": "all pairs of messages", "why_tests_cant": "pairs of unbounded strings", "anchors": ["packages/ic_siwe/src/siwe.rs:From<SiweMessage> for String", "packages/ic_siwe/src/settings.rs:SettingsBuilder::build"]}
{"id": "C11", "title": "Message contents come from the settings and the request", "statement": "prepare_login returns a message whose domain, statement, uri, chain id and scheme are those configured, version 1, with the requested address, a 20-character lowercase hex nonce equal to the returned nonce, issue time = now and expiry = now + sign_in_expires_in (saturating).", "quantifier": "all settings, addresses, times, generator states", "why_tests_cant": "all configurations", "anchors": ["packages/ic_siwe/src/siwe.rs:SiweMessage::new", "packages/ic_siwe/src/login.rs:prepare_login", "packages/ic_siwe/src/rand.rs:generate_nonce"]}
{"id": "C12", "title": "SiweMessage::is_expired reports expiry", "statement": "is_expired is true exactly when the current time is outside [issued_at, expiration_time]. (False of the code: it is true at every time after issuance. The exact behaviour is proved and the disagreement exhibited.)", "quantifier": "all messages and times", "why_tests_cant": "all times", "anchors": ["packages/ic_siwe/src/siwe.rs:SiweMessage::is_expired"]}
{"id": "C13", "title": "Pending sign-ins are keyed by address and nonce without confusion", "statement": "Different (address, nonce) pairs, for nonces of any length, hash different byte strings, so barring a SHA-256 collision on those two strings a pending message is only ever found, overwritten or removed by its own address and nonce.", "quantifier": "all pairs of addresses and arbitrary nonce strings", "why_tests_cant": "unbounded nonces; length byte truncates", "anchors": ["packages/ic_siwe/src/siwe.rs:siwe_message_map_hash"]}
{"id": "C14", "title": "Login succeeds exactly when it should", "statement": "siwe_login returns Ok exactly when address and signature parse, an unexpired pending message for (address, nonce) exists, the signature over that message's text recovers the address, and the session key is a non-empty DER value with non-zero resulting expiration; otherwise the specified Err.", "quantifier": "all states, arguments and times", "why_tests_cant": "all states and inputs", "anchors": ["packages/ic_siwe/src/login.rs:login", "packages/ic_siwe_provider/src/service/siwe_login.rs:siwe_login"]}
{"id": "C15", "title": "Login requires a signature over a message this canister issued", "statement": "In every history, a successful siwe_login is preceded, since the last install or upgrade, by a siwe_prepare_login for the same address returning that nonce and a text M, the signature recovers the address over M, and strictly less than the configured sign-in TTL has passed.", "quantifier": "all call histories, all arguments, all times", "why_tests_cant": "unbounded histories", "anchors": ["packages/ic_siwe/src/login.rs:login", "packages/ic_siwe/src/login.rs:prepare_login"]}
{"id": "C16", "title": "No replay", "statement": "In every history, for each (address, nonce), the number of successful logins never exceeds the number of successful prepare_login calls that issued that nonce to that address; after any non-trapping login attempt that presents well-formed address and signature, the same nonce cannot be used again without a new prepare.", "quantifier": "all call histories", "why_tests_cant": "unbounded histories", "anchors": ["packages/ic_siwe/src/login.rs:login", "packages/ic_siwe/src/siwe.rs:SiweMessageMap::remove"]}
{"id": "C17", "title": "Expired messages never log in", "statement": "A login at or after the message's expiry time is answered with 'Message not found' and the message is gone.", "quantifier": "all states and times", "why_tests_cant": "all times incl. the boundary", "anchors": ["packages/ic_siwe/src/siwe.rs:SiweMessageMap::prune_expired", "packages/ic_siwe/src/login.rs:login"]}
{"id": "C18", "title": "Failed logins grant nothing", "statement": "A siwe_login that returns Err or traps adds no delegation signature and changes no address/principal mapping and no certified data; other users' unexpired pending messages survive any login attempt.", "quantifier": "all states and arguments", "why_tests_cant": "all states", "anchors": ["packages/ic_siwe/src/login.rs:login", "packages/ic_siwe_provider/src/service/siwe_login.rs:siwe_login"]}
{"id": "C19", "title": "Session expiry is bounded by configuration", "statement": "A successful login returns expiration = min(issue time of the message + session_expires_in, 2^64-1), never later than login time + session_expires_in when time is monotone.", "quantifier": "all histories", "why_tests_cant": "all times, saturation", "anchors": ["packages/ic_siwe/src/login.rs:login"]}
{"id": "C20", "title": "A delegation is never already expired when login returns it", "statement": "(False of the code) expiration is counted from message issue, so with session_expires_in below the elapsed time a successful login returns an already expired delegation. Proved: it is unexpired whenever session_expires_in >= sign_in_expires_in.", "quantifier": "all settings and times", "why_tests_cant": "all settings", "anchors": ["packages/ic_siwe/src/login.rs:login"]}
{"id": "C21", "title": "Same address, same identity", "statement": "Any two successful logins for one address under the same salt/uri/feature configuration return the same user public key, whatever the session key, nonce, time, other settings or history.", "quantifier": "all pairs of logins in all histories", "why_tests_cant": "unbounded histories", "anchors": ["packages/ic_siwe/src/delegation.rs:generate_seed", "packages/ic_siwe/src/delegation.rs:create_user_canister_pubkey"]}
{"id": "C22", "title": "Different addresses, different identities", "statement": "Under one configuration two different addresses never have the same user public key or principal, unless an explicit pair of hashed strings is a SHA-256 (or SHA-224) collision.", "quantifier": "all pairs of addresses", "why_tests_cant": "pairs; needs injectivity of the encodings", "anchors": ["packages/ic_siwe/src/delegation.rs:generate_seed", "packages/ic_siwe/src/delegation.rs:create_user_canister_pubkey", "packages/ic_siwe_provider/src/service/siwe_login.rs:siwe_login"]}
{"id": "C23", "title": "Seed encoding separates configurations", "statement": "With salt and uri of at most 255 bytes, different (salt, address, uri-if-enabled) triples give different seed inputs, also between uri-enabled and uri-disabled configurations. (Without the length bound it is false: the length byte wraps; a colliding pair is exhibited.)", "quantifier": "all pairs of configurations and addresses", "why_tests_cant": "unbounded strings", "anchors": ["packages/ic_siwe/src/delegation.rs:generate_seed"]}
{"id": "C24", "title": "URI affects identity only when enabled", "statement": "Without IncludeUriInSeed the identity of an address does not depend on uri or on any setting but the salt; with it, uris of at most 255 bytes that differ give different seeds inputs.", "quantifier": "all settings", "why_tests_cant": "all settings", "anchors": ["packages/ic_siwe/src/delegation.rs:generate_seed"]}
{"id": "C25", "title": "User public key is a well-formed canister-signature key", "statement": "For every canister id (at most 29 bytes) and seed the returned key is the DER SubjectPublicKeyInfo with OID 1.3.6.1.4.1.56387.1.2 whose bit string is length-prefixed canister id followed by the seed; a verifier parses back exactly that id and seed; distinct (id, seed) give distinct keys.", "quantifier": "all canister ids and seeds", "why_tests_cant": "all ids/seeds", "anchors": ["packages/ic_siwe/src/delegation.rs:create_user_canister_pubkey"]}
{"id": "C26", "title": "Delegation contents are as requested", "statement": "create_delegation and siwe_get_delegation Ok results carry exactly the requested session key and expiration and exactly the configured targets; empty or non-DER session keys and zero expiration are rejected with the specified error.", "quantifier": "all inputs and settings", "why_tests_cant": "all inputs", "anchors": ["packages/ic_siwe/src/delegation.rs:create_delegation", "packages/ic_siwe_provider/src/service/siwe_get_delegation.rs:siwe_get_delegation"]}
{"id": "C27", "title": "Delegations are only obtainable after login, for a minute", "statement": "In every history, if siwe_get_delegation(address, session key, expiration) returns Ok at time now, then since the last install/upgrade a siwe_login for that address and session key returned Ok with that expiration at some t with now <= t + 60 s (barring an explicit SHA-256 collision).", "quantifier": "all histories and query arguments", "why_tests_cant": "unbounded histories", "anchors": ["packages/ic_siwe/src/signature_map.rs:SignatureMap", "packages/ic_siwe/src/delegation.rs:witness", "packages/ic_siwe_provider/src/service/siwe_get_delegation.rs:siwe_get_delegation"]}
{"id": "C28", "title": "After login the delegation is available for a minute", "statement": "After a successful login at t returning expiration e, siwe_get_delegation with same address, session key and e returns Ok at every time up to t + 60 s whatever other calls happen in between. (False of the code: a second login producing the identical delegation lets the older queue entry expire or prune it; exhibited. Also at exactly t + 60 s another login may prune it. Proved for times strictly before t + 60 s when no other login put the same delegation.)", "quantifier": "all histories following the login", "why_tests_cant": "interleavings of unbounded length", "anchors": ["packages/ic_siwe/src/signature_map.rs:SignatureMap::prune_expired", "packages/ic_siwe/src/signature_map.rs:SignatureMap::is_expired"]}
{"id": "C29", "title": "Issued signatures verify", "statement": "Whenever siwe_get_delegation returns Ok, the signature bytes decode to the certificate and a hash tree whose root digest equals the canister's certified data and in which path sig / sha256(seed) / sha256(delegation message) leads to the empty leaf, i.e. the IC's canister signature check accepts it under the public key returned by login. (False of the code: a login that fails on its session key after pruning leaves certified data stale; exhibited. Proved whenever the last login attempt that changed the map succeeded.)", "quantifier": "all histories", "why_tests_cant": "unbounded histories", "anchors": ["packages/ic_siwe_provider/src/lib.rs:update_root_hash", "packages/ic_siwe_provider/src/service/siwe_login.rs:siwe_login", "packages/ic_siwe_provider/src/service/siwe_get_delegation.rs:siwe_get_delegation"]}
{"id": "C30", "title": "Certified data tracks the signature tree", "statement": "After every successful login certified data is the root hash of the tree {http_assets, sig} over the current signatures, and no other call changes the certified data.", "quantifier": "all histories", "why_tests_cant": "unbounded histories", "anchors": ["packages/ic_siwe_provider/src/lib.rs:update_root_hash"]}
{"id": "C31", "title": "No delegation can be forged from certified data", "statement": "Any hash tree, from anyone, whose root digest equals the certified root and in which sig/seed-hash/delegation-hash is present proves that this pair is in the canister's signature map, unless it exhibits a SHA-256 collision with the canister's own tree.", "quantifier": "all hash trees of any shape, all signature maps", "why_tests_cant": "all adversarial trees", "anchors": ["packages/ic_siwe/src/signature_map.rs:SignatureMap::witness", "packages/ic_siwe_provider/src/lib.rs:update_root_hash"]}
{"id": "C32", "title": "The witness is always consistent", "statement": "The WitnessHashMismatch error is unreachable: for every reachable signature map and stored pair the witness reconstructs to the root hash and reveals the pair.", "quantifier": "all put/delete/prune sequences", "why_tests_cant": "unbounded sequences, tree rotations", "anchors": ["packages/ic_siwe/src/delegation.rs:witness", "packages/ic_siwe/src/signature_map.rs:SignatureMap::witness"]}
{"id": "C33", "title": "Delegation hash follows the IC representation-independent hash", "statement": "create_delegation_hash equals the domain-separated representation-independent hash of the map {pubkey, expiration[, targets]} and does not depend on map iteration order.", "quantifier": "all delegations, all iteration orders", "why_tests_cant": "all permutations", "anchors": ["packages/ic_siwe/src/delegation.rs:create_delegation_hash", "packages/ic_siwe/src/hash.rs:hash_of_map"]}
{"id": "C34", "title": "Different delegations hash differently", "statement": "Two different delegations (key, expiration or target list) have different delegation hashes unless an explicit pair of hashed strings collides.", "quantifier": "all pairs of delegations", "why_tests_cant": "pairs of unbounded values", "anchors": ["packages/ic_siwe/src/delegation.rs:create_delegation_hash", "packages/ic_siwe/src/hash.rs:hash_u64"]}
{"id": "C35", "title": "Integer encoding is canonical LEB128", "statement": "For every u64 the integer hashing writes the minimal LEB128 encoding, uses at most 10 bytes so never indexes out of its buffer, terminates, and different integers encode differently.", "quantifier": "all u64 values", "why_tests_cant": "2^64 values", "anchors": ["packages/ic_siwe/src/hash.rs:hash_u64"]}
{"id": "C36", "title": "Signature map is a set with expiry", "statement": "After any sequence of put, delete and prune_expired the presence of each (seed, delegation) pair as seen by witness is that of an abstract set to which these operations apply.", "quantifier": "all operation sequences", "why_tests_cant": "unbounded sequences; balanced-tree internals", "anchors": ["packages/ic_siwe/src/signature_map.rs:SignatureMap"]}
{"id": "C37", "title": "Pruning removes only what is due, oldest first, bounded", "statement": "prune_expired(now, k) returns min(k, number of queue entries due at now), removes exactly that many due entries in expiry order, removes no pair all of whose entries are not due, and with k at least the queue length leaves no due entry.", "quantifier": "all maps, times, limits", "why_tests_cant": "all states", "anchors": ["packages/ic_siwe/src/signature_map.rs:SignatureMap::prune_expired"]}
{"id": "C38", "title": "Every stored signature will expire", "statement": "In every reachable state each pair in the tree has an expiry entry, no later than 60 s after the last put, so nothing stays retrievable for ever.", "quantifier": "all operation sequences", "why_tests_cant": "unbounded sequences", "anchors": ["packages/ic_siwe/src/signature_map.rs:SignatureMap"]}
{"id": "C39", "title": "Empty submaps are not kept", "statement": "In every reachable state no seed has an empty subtree, and two maps with the same history of pairs show no residual seeds: a seed is present iff it has a live pair.", "quantifier": "all operation sequences", "why_tests_cant": "unbounded sequences", "anchors": ["packages/ic_siwe/src/signature_map.rs:SignatureMap::delete"]}
{"id": "C40", "title": "Settings validation is exact", "statement": "SettingsBuilder::build returns Ok(settings unchanged) exactly when domain and uri parse as URLs with host, salt is non-empty graphic ASCII, chain id non-zero, scheme is http or https, statement has no newline, both TTLs non-zero, targets absent or 1..1000 distinct principals; else the first failing check's error.", "quantifier": "all builders", "why_tests_cant": "all field combinations", "anchors": ["packages/ic_siwe/src/settings.rs:SettingsBuilder::build"]}
{"id": "C41", "title": "build never panics", "statement": "build returns Ok or Err for every input. (False of the code: a non-special scheme with an empty authority unwraps a missing host before the scheme check; exhibited relative to URL parser behaviour, and for a model of the URL parser in C95. Proved for schemes http and https under the URL standard's guarantee that special URLs have hosts, which C95 proves of that model. In that model exactly these settings panic: scheme://domain, as a URL parser reads it, has a scheme other than http, https, ws, wss, ftp, and either it is file without a host, or :// is followed by an empty authority.)", "quantifier": "all builders", "why_tests_cant": "all inputs", "anchors": ["packages/ic_siwe/src/settings.rs:validate_domain"]}
{"id": "C42", "title": "Provider initialisation applies input and defaults", "statement": "init/upgrade with any SettingsInput either traps leaving the canister unchanged, or installs settings in which each absent option has its documented default, each present one its value, the own canister id is among any targets, and feature flags are set exactly as listed.", "quantifier": "all inputs", "why_tests_cant": "all input combinations", "anchors": ["packages/ic_siwe_provider/src/service/init_upgrade.rs:siwe_init"]}
{"id": "C43", "title": "Mappings are authentic", "statement": "In every history get_address(p) = Ok(a) implies some earlier successful login for a whose returned key has principal p; get_principal(a) = Ok(p) likewise; upgrades keep them.", "quantifier": "all histories incl. upgrades", "why_tests_cant": "unbounded histories", "anchors": ["packages/ic_siwe_provider/src/service/siwe_login.rs:manage_principal_address_mappings", "packages/ic_siwe_provider/src/service/get_address.rs:get_address"]}
{"id": "C44", "title": "Address/principal mapping is one-to-one", "statement": "While salt, uri and feature flags are unchanged, get_principal(a) = Ok(p) iff get_address(p) = Ok(a) (both enabled; barring an explicit hash collision), and after a successful login both return the login's pair.", "quantifier": "all histories", "why_tests_cant": "unbounded histories", "anchors": ["packages/ic_siwe_provider/src/service/siwe_login.rs:manage_principal_address_mappings"]}
{"id": "C45", "title": "Disabled mappings are neither served nor recorded", "statement": "With DisablePrincipalToEthMapping get_address and get_caller_address always return the disabled error and logins never change that mapping; with DisableEthToPrincipalMapping the same for get_principal.", "quantifier": "all histories and arguments", "why_tests_cant": "unbounded", "anchors": ["packages/ic_siwe_provider/src/service/get_address.rs:get_address", "packages/ic_siwe_provider/src/service/get_principal.rs:get_principal", "packages/ic_siwe_provider/src/service/get_caller_address.rs:get_caller_address"]}
{"id": "C46", "title": "Upgrade keeps mappings and drops sessions in progress", "statement": "After a successful upgrade both mappings are unchanged, no pending message and no signature survive, login and get_delegation for earlier requests answer not found, and prepare_login traps until randomness is reseeded.", "quantifier": "all states", "why_tests_cant": "all states", "anchors": ["packages/ic_siwe_provider/src/service/init_upgrade.rs:upgrade", "packages/ic_siwe/src/init.rs:init_rng"]}
{"id": "C47", "title": "Queries do not change state; traps roll back", "statement": "get_address, get_caller_address, get_principal, siwe_get_delegation leave the state unchanged, and any call that traps leaves it unchanged. A call traps exactly if it is an installation or upgrade with settings that are refused, a siwe_prepare_login of a valid address before settings and randomness are there, or a siwe_get_delegation without a certificate or, for a valid address, before installation.", "quantifier": "all states and arguments", "why_tests_cant": "all states", "anchors": ["packages/ic_siwe_provider/src/service/siwe_get_delegation.rs"]}
{"id": "C48", "title": "Pending messages are bounded", "statement": "(False of the code) prepare_login never prunes, so the number of stored pending messages grows without bound until a login; proved: it grows by at most one per prepare and a login removes every expired one.", "quantifier": "all histories", "why_tests_cant": "unbounded histories", "anchors": ["packages/ic_siwe/src/login.rs:prepare_login", "packages/ic_siwe/src/siwe.rs:SiweMessageMap::prune_expired"]}
{"id": "C49", "title": "Users do not interfere", "statement": "Any history of calls concerning other addresses leaves an address's unexpired pending messages in place and usable (barring explicit collisions), and cannot create a pending message for it.", "quantifier": "all interleavings", "why_tests_cant": "unbounded interleavings", "anchors": ["packages/ic_siwe/src/siwe.rs:SiweMessageMap"]}
{"id": "C50", "title": "Signature bytes encode certificate and tree faithfully", "statement": "The CBOR produced by create_certified_signature decodes to exactly the given certificate and tree; different inputs give different bytes.", "quantifier": "all certificates and trees", "why_tests_cant": "unbounded trees", "anchors": ["packages/ic_siwe/src/delegation.rs:create_certified_signature"]}
{"id": "C51", "title": "Only logins produce verifying delegations", "statement": "Whatever signed delegation passes the IC's canister-signature check against the canister's certified data, whoever produced it, names a session key, expiration and targets that some successful siwe_login since installation granted to the same identity; otherwise an explicit SHA-256 collision is exhibited.", "quantifier": "all histories, all byte strings presented as keys and signatures", "why_tests_cant": "quantifies over all adversarial signatures", "anchors": ["packages/ic_siwe/src/delegation.rs:create_certified_signature", "packages/ic_siwe_provider/src/lib.rs:update_root_hash", "packages/ic_siwe_provider/src/service/siwe_login.rs:siwe_login"]}
{"id": "C52", "title": "siwe_get_delegation's answer is determined", "statement": "In every reachable state siwe_get_delegation answers with exactly one of: trap without certificate or before installation, bad address, bad session key, zero expiration, signature expired, signature not found, or the delegation with the configured targets and the signature that carries the certificate and a witness for exactly this grant; which one is given by a declarative decision table.", "quantifier": "all histories and arguments", "why_tests_cant": "unbounded histories; interplay of checks", "anchors": ["packages/ic_siwe_provider/src/service/siwe_get_delegation.rs:siwe_get_delegation", "packages/ic_siwe/src/delegation.rs:witness"]}
{"id": "C53", "title": "Signing in works from start to finish", "statement": "In every reachable state: if siwe_prepare_login answers an address with a text at t0, the wallet of that address signs exactly that text, and siwe_login is called with that signature and a valid session key nobody used before, before the message expires and after any other calls that neither prepare nor attempt a login for this address and nonce (and no upgrade), then the login succeeds with expiration t0 + session length (capped at 2^64-1); and for a minute, after any further calls, siwe_get_delegation for this address, session key and expiration returns the delegation with the configured targets, and its signature passes the canister signature check under the public key the login returned, provided no login refused because of its session key pruned signatures since (see C29). The only exception is two different inputs with one SHA-256 hash, which the theorem exhibits.", "quantifier": "all histories before, between and after the calls; all addresses, keys and settings", "why_tests_cant": "needs every history and interleaving, and every layer composed", "anchors": ["packages/ic_siwe_provider/src/service/siwe_prepare_login.rs:siwe_prepare_login", "packages/ic_siwe_provider/src/service/siwe_login.rs:siwe_login", "packages/ic_siwe_provider/src/service/siwe_get_delegation.rs:siwe_get_delegation"]}
{"id": "C54", "title": "Issued messages conform to EIP-4361 and read back unambiguously", "statement": "Every text returned by siwe_prepare_login is derivable in the EIP-4361 grammar, and every reading of it as an EIP-4361 message shows exactly the configured domain, statement, URI and chain id, the requested address, the returned nonce, the issue and expiry instants and version 1, and no scheme, not-before, request id or resources. (False of the code: the settings check lets through statements that are empty or have other characters, and domains with more than an authority. What holds exactly, with the authorities and URIs of RFC 3986: if domain and URI are one line each, the texts conform if and only if the domain is an authority, possibly behind a scheme and ://, the URI is a URI, and the statement is not empty and has only the characters the EIP allows.)", "quantifier": "all histories, settings, times, addresses, and all readings of the text", "why_tests_cant": "quantifies over all parses of the text and all settings", "anchors": ["packages/ic_siwe/src/siwe.rs:impl From<SiweMessage> for String", "packages/ic_siwe_provider/src/service/siwe_prepare_login.rs:siwe_prepare_login"]}
{"id": "C55", "title": "The browser client only has wallets sign issued messages of their own account", "statement": "Whatever SiweManager asks a wallet to sign is a text that the canister issued in answer to siwe_prepare_login for an address the page had asked about, and that address is the account asked to sign. (The second half is false of the code: the message is cached and the account may have been switched in between; negation proved, proved when the wallet offers one account.)", "quantifier": "all interleavings of page calls, wallet answers, network failures, reloads and canister calls", "why_tests_cant": "all schedules of asynchronous calls", "anchors": ["packages/ic_siwe_js/src/index.ts:SiweManager.login", "packages/ic_siwe_js/src/index.ts:SiweManager.prepareLogin", "packages/ic_siwe_js/src/siwe-provider.ts:callPrepareLogin"]}
{"id": "C56", "title": "Every login uses a fresh session key", "statement": "No two siwe_login calls sent by a page, across reloads and overlapping login() calls, carry the public key of the same session identity.", "quantifier": "all interleavings, any number of logins", "why_tests_cant": "all schedules of asynchronous calls", "anchors": ["packages/ic_siwe_js/src/index.ts:SiweManager.login"]}
{"id": "C57", "title": "A displayed identity was earned", "statement": "Whenever the state shows an identity, it shows an account with it; the page sent a login for that account with that session's own public key, the canister accepted it, the account's wallet had signed a text the canister issued, and the delegation chain is the canister's answer: to that key, with the login's expiration, under the login's public key.", "quantifier": "all interleavings of page, wallet, network, reloads and canister", "why_tests_cant": "all schedules and histories", "anchors": ["packages/ic_siwe_js/src/index.ts:SiweManager.login", "packages/ic_siwe_js/src/delegation.ts:createDelegationChain", "packages/ic_siwe_js/src/siwe-provider.ts:callLogin", "packages/ic_siwe_js/src/siwe-provider.ts:callGetDelegation", "packages/ic_siwe_js/src/local-storage.ts:loadIdentity"]}
{"id": "C58", "title": "A displayed identity's delegation chain verifies", "statement": "The delegation chain of a displayed identity passed the IC's canister signature check when the canister delivered it (the replica that delivered it having executed the login), unless the module was replaced between login and delivery. (False of the code for the reason C29 is: negation proved. Proved if no login refused for its session key pruned signatures.)", "quantifier": "all interleavings and histories", "why_tests_cant": "all schedules and histories", "anchors": ["packages/ic_siwe_js/src/index.ts:SiweManager.login", "packages/ic_siwe_js/src/delegation.ts:createDelegationChain"]}
{"id": "C59", "title": "Signed-in state survives a reload", "statement": "Reloading the page at any moment shows the same identity, account and delegation chain as before, including none.", "quantifier": "all reachable states of the page, including with calls in flight", "why_tests_cant": "all schedules; reload at every point", "anchors": ["packages/ic_siwe_js/src/index.ts:SiweManager.constructor", "packages/ic_siwe_js/src/local-storage.ts:saveIdentity", "packages/ic_siwe_js/src/local-storage.ts:loadIdentity", "packages/ic_siwe_js/src/local-storage.ts:clearIdentity"]}
{"id": "C60", "title": "Signed out stays signed out", "statement": "After clear(), no identity is shown or stored, whatever happens and across reloads, until login() is called again. (False of the code if a login is still running when clear() is called: negation proved; proved when none is running.)", "quantifier": "all continuations without a login() call", "why_tests_cant": "all schedules", "anchors": ["packages/ic_siwe_js/src/index.ts:SiweManager.clear", "packages/ic_siwe_js/src/local-storage.ts:clearIdentity"]}
{"id": "C61", "title": "One login at a time", "statement": "A login() called while another login() or prepareLogin() is in progress is rejected, asks nothing of wallet and canister, and leaves the running calls, the stored and the displayed identity alone. (False of the code before the wallet has answered getAddresses, and after a rejected login() has reset the status: negations proved; proved once the status says so.)", "quantifier": "all states and interleavings", "why_tests_cant": "all schedules", "anchors": ["packages/ic_siwe_js/src/index.ts:SiweManager.login"]}
{"id": "C62", "title": "A login signs a message that was not used before", "statement": "Every login() uses a message no earlier login used, so that the canister does not refuse it as consumed. (False of the code after a successful login without clear(): negation proved. Proved: every failed login forgets its message and reports the error, and a login() that finds no message fetches a new one before asking for a signature.)", "quantifier": "all states and interleavings", "why_tests_cant": "all schedules", "anchors": ["packages/ic_siwe_js/src/index.ts:SiweManager.login"]}
{"id": "C63", "title": "login() signs the user in", "statement": "In a page with a wallet, no call in progress and no message at hand, login() with a cooperating wallet, network and canister, and any calls of other users in between, resolves; the state then says success and shows the account and an identity for a fresh session key with the configured targets and lifetime, whose delegation chain verifies (with C29's proviso), unless a SHA-256 collision with another call is exhibited. The same if prepareLogin() was called before, whatever message the page had at hand before that; and no history leaves a page that has just been loaded, or has just signed out, or whose calls have settled, unable to.", "quantifier": "all page and canister states, settings, accounts, keys, and calls of other users in between", "why_tests_cant": "composition of client and canister over all histories", "anchors": ["packages/ic_siwe_js/src/index.ts:SiweManager.login", "packages/ic_siwe_js/src/index.ts:SiweManager.prepareLogin", "packages/ic_siwe_provider/src/service/siwe_login.rs:siwe_login"]}
{"id": "C64", "title": "The reported status is truthful", "statement": "Status success comes with a displayed identity, an error of preparing or logging in with the error (for signing see C115); when login() returns an identity, that identity is displayed and the status is success.", "quantifier": "all reachable states and steps", "why_tests_cant": "all schedules", "anchors": ["packages/ic_siwe_js/src/index.ts:SiweManager.login", "packages/ic_siwe_js/src/index.ts:SiweManager.prepareLogin"]}
{"id": "C65", "title": "The right wallet is asked to sign", "statement": "A request for a signature goes to the wallet client the app set last with setWalletClient since the page was loaded; if it set none, to a wallet that was injected into the page since then. Without any wallet, prepareLogin() and login() are rejected and nothing is asked of anybody.", "quantifier": "all interleavings of app, wallet, network and reloads", "why_tests_cant": "all schedules", "anchors": ["packages/ic_siwe_js/src/index.ts:SiweManager.setWalletClient", "packages/ic_siwe_js/src/index.ts:SiweManager.setupWalletClient", "packages/ic_siwe_js/src/index.ts:SiweManager.login"]}
{"id": "C66", "title": "The canister's errors are reported, and only those", "statement": "If the canister answers a request of prepareLogin() or login() with an error, the promise is rejected with that error and the state shows it, whatever else happens in between short of a reload. Conversely, whenever a promise has been rejected with an error of the canister or the state shows one, the canister gave it in answer to a request of this page (to the query, possibly on a replica that lags behind).", "quantifier": "all interleavings, errors and reachable states", "why_tests_cant": "all schedules and histories", "anchors": ["packages/ic_siwe_js/src/index.ts:SiweManager.login", "packages/ic_siwe_js/src/index.ts:SiweManager.prepareLogin", "packages/ic_siwe_js/src/siwe-provider.ts:callPrepareLogin", "packages/ic_siwe_js/src/siwe-provider.ts:callLogin", "packages/ic_siwe_js/src/siwe-provider.ts:callGetDelegation"]}
{"id": "C67", "title": "The error text tells the reason", "statement": "Two refused calls with the same error text were refused for the same reason, including the offending character and its position; and each method refuses only for the reasons listed for it. The text is UTF-8 without control characters whatever bytes the caller sent (given that the DER parser's own texts are).", "quantifier": "all histories, calls and error values; whatever text the DER parser contributes", "why_tests_cant": "all inputs; the texts contain user-chosen characters and numbers", "anchors": ["packages/ic_siwe/src/eth.rs:EthError", "packages/ic_siwe/src/login.rs:LoginError", "packages/ic_siwe/src/delegation.rs:DelegationError", "packages/ic_siwe_provider/src/service/siwe_login.rs:siwe_login", "packages/ic_siwe_provider/src/service/get_address.rs:get_address"]}
{"id": "C68", "title": "The salt affects nothing but principals and keys", "statement": "Two canisters with settings that differ only in the salt, receiving the same calls, issue the same messages and accept the same logins (with the same expiration); of two install arguments that differ only in the salt (both non-blank), both are accepted or both refused.", "quantifier": "all pairs of histories that differ in the salt", "why_tests_cant": "relates two executions of unbounded length", "anchors": ["packages/ic_siwe/src/delegation.rs:generate_seed", "packages/ic_siwe/src/settings.rs:SettingsBuilder.build", "packages/ic_siwe/src/login.rs:login"]}
{"id": "C69", "title": "React and Vue components see the client's state", "statement": "Every value and status flag that useSiwe() gives to a component agrees with the client's state. (False of the code for Vue: changes before the provider is mounted are missed, and a provider created again shows idle flags; negations proved. Proved for React; for Vue if nothing changed until the mounting, and in any case from the first update after it; and exactly when it holds before that.)", "quantifier": "all interleavings of client events and mounting", "why_tests_cant": "all schedules", "anchors": ["packages/ic_siwe_js/src/react/index.tsx:SiweIdentityProvider", "packages/ic_siwe_js/src/vue/index.ts:createSiweIdentityProvider"]}
{"id": "C70", "title": "A React app signs with the connected wallet", "statement": "In a React app that leaves the wallet to the provider, signatures are requested only from the wallet of the account connected at the last render. (False of the code after disconnecting: the old wallet is still asked; negation proved. Proved while an account is connected; and that in general it is the wallet connected last.)", "quantifier": "all interleavings of renders and client events", "why_tests_cant": "all schedules", "anchors": ["packages/ic_siwe_js/src/react/index.tsx:SiweIdentityProvider", "packages/ic_siwe_js/src/index.ts:SiweManager.setWalletClient"]}
{"id": "C71", "title": "An app canister learns its caller's address", "statement": "When whoami of the app canister answers with a principal and an address, the principal is the caller and the address is the one that signed in for it at the provider; right after signing in the user gets that answer if the call reaches the provider; whoami never traps once the canister is installed, and reports a failed call.", "quantifier": "all provider histories, callers and outcomes of the inter-canister call", "why_tests_cant": "composition of two canisters over all histories", "anchors": ["packages/test_canister/src/lib.rs:whoami", "packages/test_canister/src/lib.rs:init", "packages/ic_siwe_provider/src/service/get_address.rs:get_address"]}
{"id": "C72", "title": "The mapping queries answer from the last recorded login", "statement": "get_address (and get_caller_address) answers exactly the address of the last login, since the installation, whose session key's user key has that principal and that was made while the mapping was on; and that there is none if there is none; get_principal likewise for an address. If the mapping is turned off now, or the argument is malformed, it says so.", "quantifier": "all histories with upgrades that turn the mappings on and off or change the salt, all principals and addresses", "why_tests_cant": "histories of any length; settings change in between", "anchors": ["packages/ic_siwe_provider/src/service/get_address.rs:get_address", "packages/ic_siwe_provider/src/service/get_caller_address.rs:get_caller_address", "packages/ic_siwe_provider/src/service/get_principal.rs:get_principal", "packages/ic_siwe_provider/src/service/siwe_login.rs:manage_principal_address_mappings"]}
{"id": "C73", "title": "Every call of the client settles", "statement": "If wallet and network answer in the end (with whatever, errors included), every promise returned by prepareLogin() and login() settles, and it settles only once, whatever other calls and events are interleaved.", "quantifier": "all infinite schedules without reload that are fair to the call", "why_tests_cant": "liveness over infinite schedules", "anchors": ["packages/ic_siwe_js/src/index.ts:SiweManager.login", "packages/ic_siwe_js/src/index.ts:SiweManager.prepareLogin", "packages/ic_siwe_js/src/siwe-provider.ts:callPrepareLogin", "packages/ic_siwe_js/src/siwe-provider.ts:callLogin", "packages/ic_siwe_js/src/siwe-provider.ts:callGetDelegation"]}
{"id": "C74", "title": "A busy status is true and does not get stuck", "statement": "When the state says that a message is being prepared, that a login is in progress, or that a signature is awaited, some call is indeed doing so; so once all promises have settled no status is left busy.", "quantifier": "all reachable states and interleavings", "why_tests_cant": "all schedules", "anchors": ["packages/ic_siwe_js/src/index.ts:SiweManager.login", "packages/ic_siwe_js/src/index.ts:SiweManager.prepareLogin"]}
{"id": "C75", "title": "Tabs of one browser", "statement": "With any number of tabs sharing local storage: a tab that is opened or reloaded displays exactly the identity of the last login completed in any tab, or nobody if some tab signed out since, and a tab that makes another manager displays that identity if there is one; every identity displayed in a tab was earned by a login in some tab (as in C57); no two logins from whatever tabs use the same session key; after clear() in one tab no open tab displays an identity. (The last part is false of the code: open tabs do not notice; negation proved. Proved: if no login is running, nobody is signed in until the next login(), for the tab itself and tabs opened or loaded later.)", "quantifier": "all interleavings of any number of tabs being opened, closed, reloaded and used", "why_tests_cant": "unbounded number of tabs and schedules", "anchors": ["packages/ic_siwe_js/src/index.ts:SiweManager.constructor", "packages/ic_siwe_js/src/local-storage.ts:saveIdentity", "packages/ic_siwe_js/src/local-storage.ts:loadIdentity", "packages/ic_siwe_js/src/local-storage.ts:clearIdentity", "packages/ic_siwe_js/src/index.ts:SiweManager.clear"]}
{"id": "C76", "title": "No expired identity is displayed", "statement": "The identity displayed by a freshly loaded page is not expired. (False of the code: the expiration of a stored identity is not looked at; negation proved. Proved: it was not expired when the canister accepted the login, with C20's proviso.)", "quantifier": "all histories of page and canister", "why_tests_cant": "all histories and clocks", "anchors": ["packages/ic_siwe_js/src/index.ts:SiweManager.constructor", "packages/ic_siwe_js/src/local-storage.ts:loadIdentity"]}
{"id": "C77", "title": "The canister gets the configuration that was written", "statement": "A configuration written as the published interface allows is accepted as such, and the canister then works with exactly the settings in it (defaults for what was left out). (False of the code: chain_id is published as opt nat but read as an optional nat32, so Candid drops it and every sign-in message says chain id 1; negation proved. Proved for all other settings, and that a configuration is honoured exactly when its chain_id is left out or 1.)", "quantifier": "all configurations of the published type, all states", "why_tests_cant": "all configurations; relates two interfaces that are written down separately", "anchors": ["packages/ic_siwe_provider/ic_siwe_provider.did:SettingsInput", "packages/ic_siwe_provider/src/service/init_upgrade.rs:SettingsInput", "packages/ic_siwe_provider/src/service/init_upgrade.rs:init", "packages/ic_siwe_provider/src/service/init_upgrade.rs:upgrade"]}
{"id": "C78", "title": "The published methods are the ones that run", "statement": "The published interface, the client's copy of it and the exported functions have the same methods, types and kinds (query or update). Every call of a published method with arguments of the published types reaches the function of that name with these arguments in their places; every answer, read at the published type, says what the function answered, and different answers read differently.", "quantifier": "all methods, argument values, states and answers", "why_tests_cant": "all values; the interface is written down three times and nothing compares them", "anchors": ["packages/ic_siwe_provider/ic_siwe_provider.did:service", "packages/ic_siwe_js/src/ic_siwe_provider.did.js:idlFactory", "packages/ic_siwe_provider/src/service/siwe_prepare_login.rs:siwe_prepare_login", "packages/ic_siwe_provider/src/service/siwe_login.rs:siwe_login", "packages/ic_siwe_provider/src/service/siwe_get_delegation.rs:siwe_get_delegation", "packages/ic_siwe_provider/src/service/get_address.rs:get_address", "packages/ic_siwe_provider/src/service/get_caller_address.rs:get_caller_address", "packages/ic_siwe_provider/src/service/get_principal.rs:get_principal"]}
{"id": "C79", "title": "What a sender with another interface gets", "statement": "Whatever types a sender uses: a call is taken up exactly when a function of that name is exported and the arguments begin with one of each published type; a setting has a value exactly when it was sent under its name at its type (bare or as an option); a configuration is refused exactly when it is not a record with domain, uri and salt as texts.", "quantifier": "all messages of all senders, with arguments of any types", "why_tests_cant": "unbounded types and values", "anchors": ["packages/ic_siwe_provider/src/service/init_upgrade.rs:SettingsInput", "packages/ic_siwe_provider/src/service/siwe_login.rs:siwe_login", "packages/ic_siwe_provider/ic_siwe_provider.did:service"]}
{"id": "C80", "title": "Messages that cannot be decoded change nothing", "statement": "Whatever messages arrive, the canister's state and its answers are those of the calls among them that could be decoded; all others are refused.", "quantifier": "all sequences of messages", "why_tests_cant": "sequences of any length with malformed messages anywhere", "anchors": ["packages/ic_siwe_provider/src/service/siwe_login.rs:siwe_login", "packages/ic_siwe_provider/src/service/init_upgrade.rs:init"]}
{"id": "C81", "title": "The IC accepts exactly the sessions that were signed for", "statement": "Every request the IC accepts in the name of a user of the provider stems from a login: the user's wallet signed a text the canister had issued, for the session key that signs the request (or that delegates further), at most the configured session length before the request, and the called canister is among the configured targets; the canister's signatures vouch for nothing but such delegations. Conversely, with a delegation the canister delivered, requests signed with the session key are accepted until the login's expiration, at the allowed canisters (with the proviso of C29). Forgeries need a SHA-256 collision.", "quantifier": "all histories, all requests with delegation chains of any length, all times and targets", "why_tests_cant": "all histories and all requests an attacker can make up", "anchors": ["packages/ic_siwe/src/delegation.rs:create_delegation", "packages/ic_siwe/src/delegation.rs:create_delegation_hash", "packages/ic_siwe/src/delegation.rs:create_user_canister_pubkey", "packages/ic_siwe_provider/src/service/siwe_login.rs:siwe_login", "packages/ic_siwe_provider/src/service/siwe_get_delegation.rs:siwe_get_delegation"]}
{"id": "C82", "title": "An app canister learns who signed", "statement": "If the IC accepts a call of the app canister under a key of the provider and the app canister's whoami names an address, that is the address whose wallet signed for the session that made the call, or hashes collide (as long as installations and upgrades keep the salt and the URI setting, or have any salts of at most 255 bytes).", "quantifier": "all histories of the provider, all requests, all behaviours of other canisters", "why_tests_cant": "composition of two canisters and the IC over all histories", "anchors": ["packages/test_canister/src/lib.rs:whoami", "packages/ic_siwe_provider/src/service/get_address.rs:get_address", "packages/ic_siwe_provider/src/service/siwe_login.rs:manage_principal_address_mappings"]}
{"id": "C83", "title": "Several managers in a page", "statement": "When a page makes several SiweManager objects (as the React provider does when its options change), making another one changes nothing that is displayed, stored or running; a request for a signature goes to the wallet set on the manager whose login asks for it (or, if none was set there, to the injected one); identities are displayed only after a login the canister accepted, session keys are never reused, and clear() on any manager signs the page out.", "quantifier": "all interleavings of calls on any number of managers, reloads included", "why_tests_cant": "unbounded number of managers and schedules", "anchors": ["packages/ic_siwe_js/src/index.ts:SiweManager.constructor", "packages/ic_siwe_js/src/index.ts:siweStateStore", "packages/ic_siwe_js/src/index.ts:SiweManager.setWalletClient", "packages/ic_siwe_js/src/react/index.tsx:SiweIdentityProvider"]}
{"id": "C84", "title": "Messages print as JSON", "statement": "Printing a SiweMessage with to_string() always succeeds and gives a JSON text (RFC 8259) that stands for an object with exactly the message's ten fields and their values, whatever quotes, line breaks or control characters they contain; so messages that differ in any field print differently.", "quantifier": "all messages", "why_tests_cant": "all strings and integers", "anchors": ["packages/ic_siwe/src/siwe.rs:impl fmt::Display for SiweMessage"]}
{"id": "C85", "title": "Local storage is read back as written, and anything else is no identity", "statement": "The text saved at sign-in is read back at the next page load as the same account, session and delegation chain, at any point of any history of tabs: it is the last sign-in's unless somebody signed out since. Any other text under the key is taken for an identity exactly if it is a JSON object whose last address, sessionIdentity and delegationChain are not falsy and the latter two are accepted by the identity library; otherwise the page starts signed out.", "quantifier": "all stored texts; all histories of all tabs", "why_tests_cant": "all texts, including tampered ones; unbounded histories", "anchors": ["packages/ic_siwe_js/src/local-storage.ts:loadIdentity", "packages/ic_siwe_js/src/local-storage.ts:saveIdentity", "packages/ic_siwe_js/src/index.ts:SiweManager.constructor"]}
{"id": "C86", "title": "Any canister that embeds the library signs users in safely", "statement": "Whatever a canister does with the library's API (init at any time and with any settings, validated or not, prepare_login, login with any signature map and canister id): prepare_login answers as specified and traps exactly if the library was not configured or not seeded since the last installation or upgrade; login gives exactly the specified answer and never traps; it succeeds only with a message that prepare_login returned for this address and nonce since the last installation or upgrade, unexpired, whose text the address signed, and that no other attempt has used; there are never more logins with a nonce than messages issued with it (or SHA-256 collides).", "quantifier": "all sequences of uses of the library, all settings, all times", "why_tests_cant": "all sequences of API calls a host canister can make", "anchors": ["packages/ic_siwe/src/login.rs:prepare_login", "packages/ic_siwe/src/login.rs:login", "packages/ic_siwe/src/init.rs:init", "packages/ic_siwe/src/rand.rs:generate_nonce"]}
{"id": "C87", "title": "Signature maps of an embedding canister", "statement": "Whatever a canister does with its signature maps: a map holds a pair only if the canister or a login put it there since the map was created and it was not deleted since; the answer to a request for a witness is exactly the specified one; a witness is given only within a minute of a put of that pair and has the map's root hash; it is given for the whole minute if the pair was put once and the map was not replaced; calls leave the maps they do not work on unchanged.", "quantifier": "all sequences of uses of the library on any number of maps", "why_tests_cant": "all sequences; boundary at one minute; any interleaving of maps", "anchors": ["packages/ic_siwe/src/signature_map.rs:SignatureMap", "packages/ic_siwe/src/delegation.rs:witness", "packages/ic_siwe/src/signature_map.rs:put", "packages/ic_siwe/src/login.rs:login"]}
{"id": "C88", "title": "The provider is such a canister", "statement": "Every history of the provider canister is matched by uses of the library with the same times, arguments and answers, after which the library and the signature map are in the same state; refused installations and mapping queries do not touch the library.", "quantifier": "all histories of the provider", "why_tests_cant": "all histories", "anchors": ["packages/ic_siwe_provider/src/service/siwe_login.rs:siwe_login", "packages/ic_siwe_provider/src/service/siwe_prepare_login.rs:siwe_prepare_login", "packages/ic_siwe_provider/src/service/siwe_get_delegation.rs:siwe_get_delegation", "packages/ic_siwe_provider/src/service/init_upgrade.rs:siwe_init", "packages/ic_siwe/src/init.rs:init"]}
{"id": "C89", "title": "siwe_prepare_login's answer is determined", "statement": "siwe_prepare_login refuses exactly the malformed addresses, with the error that describes the defect; it traps for a valid address exactly if no settings or no randomness arrived since the last installation or upgrade; otherwise it answers with the sign-in text of the settings in force, the address, the time, and the nonce that is next from the random generator.", "quantifier": "all histories, addresses and times", "why_tests_cant": "all histories", "anchors": ["packages/ic_siwe_provider/src/service/siwe_prepare_login.rs:siwe_prepare_login", "packages/ic_siwe/src/login.rs:prepare_login", "packages/ic_siwe/src/rand.rs:generate_nonce"]}
{"id": "C90", "title": "Nonces come from the random source alone", "statement": "The n-th message issued since randomness arrived carries the n-th ten bytes of the generator started from that randomness, whatever callers do: refused, trapped and other calls use none up, addresses, times and settings do not matter. So of two messages issued since, the later one has a later draw, and they carry the same nonce exactly if these two draws of the generator gave the same ten bytes.", "quantifier": "all histories and pairs of issued messages", "why_tests_cant": "all histories", "anchors": ["packages/ic_siwe/src/rand.rs:generate_nonce", "packages/ic_siwe/src/init.rs:init", "packages/ic_siwe/src/login.rs:prepare_login"]}
{"id": "C91", "title": "siwe_login's answer follows from the calls seen so far", "statement": "What siwe_login answers is determined by the calls the canister has answered before, with their times: it succeeds exactly if the address and signature have the right form, a message for this address and nonce was issued by the module in force, its sign-in time is not over, no login with this address and nonce was tried since and no message issued with them, no login at all was tried at or after the end of its sign-in time, the address signed exactly the issued text, and the session key is a DER key; every other answer is given exactly in the stated case. Two canisters that have answered the same calls alike answer every login alike. (Two address-nonce pairs with one SHA-256 storage key count as one.)", "quantifier": "all histories, all logins, all times", "why_tests_cant": "all histories and all next calls", "anchors": ["packages/ic_siwe_provider/src/service/siwe_login.rs:siwe_login", "packages/ic_siwe/src/login.rs:login", "packages/ic_siwe/src/login.rs:prepare_login", "packages/ic_siwe/src/siwe.rs:SiweMessageMap"]}
{"id": "C92", "title": "Apps share neither identities nor sign-ins", "statement": "Two provider canisters with different ids never give any users the same public key, not even the same account with the same salt and URI, nor the same principal unless SHA-224 collides; no canister but the one that returned a key can sign for it. A successful login proves a signature on a text this canister issued that asks for its configured domain; an app for another domain issued no such text, and what was signed for it is another byte string (domains without line breaks). The same of canisters configured for another chain id, and, if both domains or both URIs have no line breaks, for another URI or statement.", "quantifier": "all pairs of canisters, their histories, settings and users", "why_tests_cant": "all pairs of histories and configurations", "anchors": ["packages/ic_siwe/src/delegation.rs:create_user_canister_pubkey", "packages/ic_siwe/src/delegation.rs:generate_seed", "packages/ic_siwe/src/siwe.rs:SiweMessage", "packages/ic_siwe/src/login.rs:login"]}
{"id": "C93", "title": "The signatures a canister holds, and how many, follow from the calls seen so far", "statement": "A successful login removes the expired signatures, oldest first and up to ten, and adds its own for one minute; a login refused only for its session key removes them too; installation and upgrade start with none; no other call changes them. So the calls answered so far determine which delegations can be fetched, and siwe_get_delegation's answer follows from them. While the clock does not run backwards the canister never holds more signatures than there were successful logins in the busiest minute, however long it runs.", "quantifier": "all histories, all requests, all times", "why_tests_cant": "all histories, unbounded number of logins", "anchors": ["packages/ic_siwe/src/login.rs:login", "packages/ic_siwe/src/signature_map.rs:SignatureMap", "packages/ic_siwe/src/signature_map.rs:SignatureMap.prune_expired", "packages/ic_siwe/src/signature_map.rs:put", "packages/ic_siwe_provider/src/service/siwe_get_delegation.rs:siwe_get_delegation"]}
{"id": "C94", "title": "The provider behaves as a short specification says, and the specification leaves no choice", "statement": "A specification machine remembers only: the settings, the random generator, the prepared sign-ins, the signatures with their expiry, a digest committing to them, the certified data, and who belongs to which address. For every call it says what is answered and what is remembered afterwards, in terms of addresses, signatures, times and sessions. Every history of answers a canister gives is a run of this machine; and whatever the machine could answer next after such a history is what the canister answers (up to how a fraction of a second is written in a message, and retrieval of a delegation, where the machine may be undecided between two entries for it).", "quantifier": "all histories of all calls with all arguments at all times", "why_tests_cant": "all histories; a refinement has to hold step by step for every state reached", "anchors": ["packages/ic_siwe_provider/src/lib.rs", "packages/ic_siwe_provider/src/service/siwe_login.rs:siwe_login", "packages/ic_siwe_provider/src/service/siwe_prepare_login.rs:siwe_prepare_login", "packages/ic_siwe_provider/src/service/siwe_get_delegation.rs:siwe_get_delegation", "packages/ic_siwe_provider/src/service/init_upgrade.rs:init", "packages/ic_siwe/src/login.rs:login", "packages/ic_siwe/src/login.rs:prepare_login"]}
{"id": "C95", "title": "Which domains and URIs the settings accept", "statement": "With the scheme http or https, build never panics, and it accepts a domain exactly if the URL standard finds a host in scheme://domain: after any slashes and an optional user name a nonempty host, an optional port up to 65535, then anything that begins with a delimiter. The same holds for URIs that are web addresses. URIs of other schemes are accepted exactly if :// and an authority with a host follow the scheme; and exactly these settings are accepted: a web scheme, such a domain, such a URI, a visible salt, a nonzero chain id, a statement on one line, nonzero times for signing in and for sessions, and no targets or between one and 1000 different ones. Tabs and line breaks anywhere in domain or URI change nothing about acceptance, and behind a host and a slash anything is accepted; so the ambiguous configurations of C10 are accepted. Every authority of RFC 3986 with a host that the host parser knows and a port up to 65535 is accepted as a domain, and every http or https URI of RFC 3986 with such an authority as a URI. With any other URL scheme and an empty domain, build panics (C41).", "quantifier": "all settings, all host parsers", "why_tests_cant": "all strings as domain, URI and scheme", "anchors": ["packages/ic_siwe/src/settings.rs:validate_domain", "packages/ic_siwe/src/settings.rs:validate_uri", "packages/ic_siwe/src/settings.rs:SettingsBuilder.build"]}
{"id": "C96", "title": "No conflicting access to shared state", "statement": "All state is kept in cells that may be read by several at once or written by one, and a conflicting access panics. Whatever has been called before, no call and no event ends with such a panic, and after each one, answered or trapped, no cell is in use. A canister that embeds the library may hold its own state in any way while it calls init, prepare_login or login: they do not conflict with it, and they give back what they took. So the canister with its cells answers every history as the model without cells, which the other properties are about.", "quantifier": "all histories of all calls with all arguments at all times; all states of the embedding canister's own cells", "why_tests_cant": "borrow conflicts show only on the path and in the state where two accesses overlap; tests see the paths they take", "anchors": ["packages/ic_siwe/src/lib.rs", "packages/ic_siwe/src/macros.rs:with_settings", "packages/ic_siwe/src/login.rs:login", "packages/ic_siwe/src/login.rs:prepare_login", "packages/ic_siwe/src/init.rs:init", "packages/ic_siwe_provider/src/lib.rs:STATE", "packages/ic_siwe_provider/src/service/siwe_login.rs:siwe_login", "packages/ic_siwe_provider/src/service/siwe_get_delegation.rs:siwe_get_delegation", "packages/ic_siwe_provider/src/service/init_upgrade.rs:siwe_init"]}
{"id": "C97", "title": "A full canister accepts sign-ins again", "statement": "When the memory for pending sign-ins is full, siwe_prepare_login succeeds again once they have expired. (False of the code: expired sign-ins are removed by siwe_login only; when the memory is full of expired ones, every siwe_prepare_login traps for ever as long as users prepare a sign-in before they log in with it. What holds: with room left a sign-in is prepared as without limits, and one login attempt with a well-formed address and signature, whatever its answer, makes room.)", "quantifier": "all sizes of the memory; all histories, calls, arguments and times", "why_tests_cant": "filling the memory and waiting for ever are not things a test does", "anchors": ["packages/ic_siwe/src/siwe.rs:SiweMessageMap::prune_expired", "packages/ic_siwe/src/login.rs:prepare_login", "packages/ic_siwe/src/login.rs:login", "packages/ic_siwe_provider/src/service/siwe_prepare_login.rs:siwe_prepare_login"]}
{"id": "C98", "title": "Logging in does not depend on the load", "statement": "The number of stored entries a call looks at is bounded, so no amount of pending sign-ins makes logging in fail. (False of the code: siwe_login looks at every pending sign-in, whoever prepared it. If there is memory for more sign-ins than a call may look at, they can be prepared so that every login traps, for everybody and for ever, until an upgrade. What holds: at most ten signatures are looked at besides; a machine on which a call may look at ten entries more than there is memory for never refuses a login for this; within the limits the canister behaves as without them.)", "quantifier": "all limits of memory and work; all states, histories, calls, arguments and times", "why_tests_cant": "tests run with a handful of entries, far from any limit", "anchors": ["packages/ic_siwe/src/siwe.rs:SiweMessageMap::prune_expired", "packages/ic_siwe/src/signature_map.rs:SignatureMap::prune_expired", "packages/ic_siwe/src/signature_map.rs:SignatureMap::is_expired", "packages/ic_siwe/src/login.rs:login", "packages/ic_siwe_provider/src/service/siwe_login.rs:siwe_login", "packages/ic_siwe_provider/src/service/siwe_get_delegation.rs:siwe_get_delegation"]}
{"id": "C99", "title": "Exactly the wallet of an address can sign in with it", "statement": "The signature check accepts a signature for an address and a text exactly if it is one that a wallet makes for that text (EIP-191, Keccak, ECDSA on secp256k1 with the smaller s, recovery id with or without 27) with a private key whose address that is. So siwe_login succeeds exactly if a message issued to the address awaits it, some wallet with a private key of that address signed its text, and the session key is a DER key; a user whose wallet signs the returned text in time is signed in whatever others do; and every private key has an address and can sign every text. Proved for the curve secp256k1 itself (its size, order and number of points included) and the recovery algorithm of the k256 crate, for any hash functions.", "quantifier": "all private keys, nonces of wallets, texts, signatures, histories", "why_tests_cant": "all 65-byte signatures and all private keys", "anchors": ["packages/ic_siwe/src/eth.rs:recover_eth_address", "packages/ic_siwe/src/eth.rs:derive_eth_address_from_public_key", "packages/ic_siwe/src/login.rs:login", "packages/ic_siwe_provider/src/service/siwe_login.rs:siwe_login"]}
{"id": "C100", "title": "A signature has one signer and one text, and is not malleable", "statement": "The signature of a text determines the private key that made it, so a wallet's signature is accepted for its own address only. If it is accepted for the wallet's address and another text, then the Keccak hashes of the two texts' envelopes agree modulo the group order, or another private key both makes this very signature for the other text and has the same address. Of a signature and its mirror image (n - s in place of s), one at most is accepted, for whatever text, address and recovery byte.", "quantifier": "all signatures, texts, addresses and private keys", "why_tests_cant": "all pairs of signatures and texts", "anchors": ["packages/ic_siwe/src/eth.rs:recover_eth_address", "packages/ic_siwe/src/eth.rs:eip191_bytes", "packages/ic_siwe/src/login.rs:login"]}
{"id": "C101", "title": "Delegations are for exactly the canisters whose ids were written as targets", "statement": "A target text is read as a principal exactly when it is that principal's text as the IC interface specification defines it (base 32 of the CRC-32 checksum and the bytes, in groups of five separated by dashes), with letters of either case. Every principal has exactly one text and every text belongs to one principal at most. An installation or upgrade with a target that is no principal's text, or without the canister's own id among the targets, traps and changes nothing. Every delegation handed out is restricted to exactly the canisters named, in that order, by the targets of the last successful installation or upgrade, and is unrestricted if none were given.", "quantifier": "all texts, all principals of at most 29 bytes, all histories of calls, all installation arguments", "why_tests_cant": "all byte strings as texts and all principals; all histories", "anchors": ["packages/ic_siwe_provider/src/service/init_upgrade.rs:siwe_init", "packages/ic_siwe/src/delegation.rs:create_delegation", "packages/ic_siwe_provider/src/service/siwe_get_delegation.rs:siwe_get_delegation"]}
{"id": "C102", "title": "A mistyped canister id is never taken for another canister", "statement": "The texts of two principals of the same length differ in at least three places. So a canister id in which one or two characters were mistyped, or two characters swapped, is not accepted as a target: the installation or upgrade traps and changes nothing, and no delegation is ever restricted to a wrong canister because of such a mistake.", "quantifier": "all canister ids, all positions and characters of the mistakes, all other settings, all states", "why_tests_cant": "all principals of up to 29 bytes and all pairs of positions: checksums cannot be sampled exhaustively", "anchors": ["packages/ic_siwe_provider/src/service/init_upgrade.rs:siwe_init"]}
{"id": "C103", "title": "Which session keys are accepted", "statement": "A login succeeds exactly if a message issued to the address awaits it, the owner of the address signed that text, and the session key is a nonempty sequence of ASN.1 values in the encoding of X.690 (lengths below 2^32); with any other key it is answered with the error for session keys. Every public key in the form of RFC 5280 is such a sequence, in particular every Ed25519 key and every P-256 key the identity library makes; a public key that is cut off anywhere is refused; a public key with bytes after it is accepted exactly if these are further ASN.1 values.", "quantifier": "all byte strings as session keys, all histories, logins and times", "why_tests_cant": "all byte strings, unbounded length and depth of nesting", "anchors": ["packages/ic_siwe/src/delegation.rs:create_delegation", "packages/ic_siwe/src/login.rs:login", "packages/ic_siwe_provider/src/service/siwe_login.rs:siwe_login"]}
{"id": "C104", "title": "The library signs in whoever holds the private key", "statement": "In a page whose wallet holds the private key of the account, where nothing is in progress and no message is at hand, login() signs the user in with the Ed25519 key the library makes, whatever other users' calls come in between, as long as nothing expires: the promise resolves, the state says success and shows the account, and the displayed identity verifies (or SHA-256 collides). No assumption is left about whose signatures and which session keys the canister accepts.", "quantifier": "all private keys, accounts, texts, pages in which nothing is in progress, interleaved calls of others and times", "why_tests_cant": "all private keys and all interleavings", "anchors": ["packages/ic_siwe_js/src/index.ts:SiweManager.login", "packages/ic_siwe/src/delegation.rs:create_delegation", "packages/ic_siwe/src/eth.rs:recover_eth_address", "packages/ic_siwe_provider/src/service/siwe_login.rs:siwe_login", "packages/ic_siwe_provider/src/service/siwe_get_delegation.rs:siwe_get_delegation"]}
{"id": "C105", "title": "Which hosts a domain or URI may have", "statement": "With the scheme http or https, a domain is accepted exactly if the host in it is one as the URL standard defines it: an IPv6 address in square brackets (the grammar of RFC 3986), or a text that, percent-decoded and in small letters, is a nonempty name without forbidden characters, and an IPv4 address if its last label is a number. The same holds for URIs that are web addresses; the host in a URI of another scheme may be any text without forbidden characters. So every host name of letters, digits and hyphens whose last label begins with a letter, every dotted IPv4 address and every bracketed IPv6 address is accepted, with any port up to 65535 or none; and four decimal numbers with dots between them are accepted exactly if none is above 255. (What IDNA makes of names that are not ASCII or have a label beginning with xn-- is left open.) With this, the conditions on the host parser in C41 and C95 are met: build panics exactly for the settings named in C41, and the ambiguous configurations of C10 are accepted.", "quantifier": "all texts as domain and URI, all IDNA functions", "why_tests_cant": "all strings; host and address syntax has unboundedly many forms", "anchors": ["packages/ic_siwe/src/settings.rs:validate_domain", "packages/ic_siwe/src/settings.rs:validate_uri", "packages/ic_siwe/src/settings.rs:SettingsBuilder.build"]}
{"id": "C106", "title": "Reloading the page keeps the session, with the identity library's own JSON forms", "statement": "What the client saves after a login is read back when the page is loaded again, through the JSON texts that @dfinity/identity writes for session keys and delegation chains: the same account, the same session key and the same chain. At any moment a page that is reloaded displays what it displayed before, and a new tab finds the identity of the last login in any tab, none if somebody signed out since. (The library refuses chains in which a key or the signature has fewer than 32 bytes; nothing the canister hands out to a page with Ed25519 session keys is that short.) A text in local storage is taken for a delegation chain exactly if it is JSON of the library's form; text that is not is no identity.", "quantifier": "all histories of pages, tabs and canister, all environments, all Ed25519 key pairs, all chains", "why_tests_cant": "all byte strings and all histories", "anchors": ["packages/ic_siwe_js/src/local-storage.ts:loadIdentity", "packages/ic_siwe_js/src/local-storage.ts:saveIdentity", "packages/ic_siwe_js/src/delegation.ts:createDelegationChain"]}
{"id": "C107", "title": "Calls, configurations and replies as bytes", "statement": "Candid messages are read by their bytes as the Candid specification prescribes: bytes represent at most one list of arguments, and everything that fits (lengths of 64 bits, principals of 29 bytes, texts in UTF-8) can be written. Every call of a published method, however its sender writes it, makes the canister call the function of that name with exactly these arguments; a configuration is received as it was written (except for the chain id, C77); every answer, however it is written, is read by the published interface and by the client as what the canister answered. Exactly the messages whose arguments begin with those of a function of that name make the canister do anything; all other bytes are refused and change nothing.", "quantifier": "all byte strings, all method names, all configurations, all states and all sequences of messages", "why_tests_cant": "all byte strings: the format has many encodings of one value and the type table may be arranged in any way", "anchors": ["packages/ic_siwe_provider/ic_siwe_provider.did", "packages/ic_siwe_provider/src/service/init_upgrade.rs:init", "packages/ic_siwe_provider/src/service/siwe_login.rs:siwe_login", "packages/ic_siwe_js/src/ic_siwe_provider.did.js"]}
{"id": "C108", "title": "Only texts come in, only texts go out", "statement": "Whatever bytes are sent to the canister, every text it takes from them (addresses, signatures, nonces, every setting) is well-formed UTF-8: a message with other bytes in a text is refused. In return every text of its answers is UTF-8: the message to be signed, the nonce, the addresses and the text of every refusal. So from a fresh canister on, after any messages, an answer that fits can always be written, and published readers and the client read it as what the canister answered.", "quantifier": "all byte strings, all sequences of messages from a fresh canister, all calls and readers", "why_tests_cant": "all byte strings and histories: the text of an answer is put together from settings received long ago, the address of the call and fragments of what was wrong with it", "anchors": ["packages/ic_siwe_provider/src/service/siwe_prepare_login.rs:siwe_prepare_login", "packages/ic_siwe/src/siwe.rs:SiweMessage", "packages/ic_siwe/src/eth.rs:EthError", "packages/ic_siwe_provider/src/service/get_address.rs:get_address", "packages/ic_siwe_provider/ic_siwe_provider.did"]}
{"id": "C109", "title": "The maps in stable memory keep every entry, through upgrades", "statement": "A map in stable memory, whatever is inserted into it in whatever order and however often the canister is upgraded in between: no operation panics; looking up a key gives the value inserted for it last, or none if there was none; the map counts its keys; an insertion tells the value it replaces. Loading the map from its memory after an upgrade gives back exactly the map that was there. With n keys a look-up reads at most 1 + log6((n + 1) / 2) nodes, and at most (n + 4) / 5 nodes were ever allocated.", "quantifier": "all sequences of insertions and upgrades, all keys and values", "why_tests_cant": "unbounded numbers of entries: nodes split when they are full, at every level of the tree, in every order of insertion", "anchors": ["packages/ic_siwe_provider/src/lib.rs:PRINCIPAL_ADDRESS", "packages/ic_siwe_provider/src/lib.rs:ADDRESS_PRINCIPAL", "packages/ic_siwe_provider/src/service/siwe_login.rs:manage_principal_address_mappings"]}
{"id": "C110", "title": "Keeping the mappings in stable memory makes no difference to any reply", "statement": "The canister that keeps its mappings as B-trees in stable memory, loads them when they are first used after an installation or upgrade and forgets what a query or a trapping call did to them gives, for every sequence of calls, installations and upgrades, exactly the replies of a canister that keeps them as finite maps. So everything said of the mappings elsewhere in this list holds with them in stable memory.", "quantifier": "all histories of calls, installations and upgrades, all environments", "why_tests_cant": "all histories and any number of users in the mappings", "anchors": ["packages/ic_siwe_provider/src/lib.rs:PRINCIPAL_ADDRESS", "packages/ic_siwe_provider/src/lib.rs:ADDRESS_PRINCIPAL", "packages/ic_siwe_provider/src/service/siwe_login.rs:siwe_login", "packages/ic_siwe_provider/src/service/get_address.rs:get_address", "packages/ic_siwe_provider/src/service/get_principal.rs:get_principal"]}
{"id": "C111", "title": "The deployed canister only ever serves the owners of wallets", "statement": "Whatever bytes are sent to the deployed canister, in any order: if the Internet Computer accepts a request under a key of this canister, then the canister issued a text to some address, the wallet holding the address's private key signed exactly this text, and that signature came back in a successful login naming the session key at which the request's delegations start; the request is made before the session's end, to a canister among the configured targets, and signed by the session key or a key it delegated to. The only alternative is an explicit collision between strings that were hashed for these calls and this request. The bytes are understood as one history of calls, uniquely.", "quantifier": "all sequences of byte messages sent to the canister, all requests and chains of delegations, all environments with secp256k1 recovery", "why_tests_cant": "all byte sequences and all histories: it joins the wire format, the stable memory, the sign-in, the hash tree of signatures and the replica's check of requests", "anchors": ["packages/ic_siwe_provider/src/service/siwe_login.rs:siwe_login", "packages/ic_siwe_provider/src/service/siwe_get_delegation.rs:siwe_get_delegation", "packages/ic_siwe/src/login.rs:login", "packages/ic_siwe/src/eth.rs:recover_eth_address"]}
{"id": "C112", "title": "The owner of a wallet can always sign in to the deployed canister", "statement": "Whatever bytes were sent to the deployed canister before and in between (except for a reinstallation, and calls for the same address and nonce): the owner of a private key who asks for the message, has the wallet sign it and logs in before the message expires, with a fresh Ed25519 or P-256 session key, succeeds; asking for the delegation within a minute succeeds; and the Internet Computer accepts every request signed with the session key to the configured targets until the session ends. All the answers reach the client as the canister gave them. The alternatives are explicit collisions with strings hashed for other calls, and logins refused for their session keys that pruned signatures (C29).", "quantifier": "all private keys, all sequences of byte messages before, between and after, all session keys of the two kinds, all times", "why_tests_cant": "all schedules of other users' messages, all keys and all byte sequences", "anchors": ["packages/ic_siwe_provider/src/service/siwe_prepare_login.rs:siwe_prepare_login", "packages/ic_siwe_provider/src/service/siwe_login.rs:siwe_login", "packages/ic_siwe_provider/src/service/siwe_get_delegation.rs:siwe_get_delegation", "packages/ic_siwe_js/src/siwe-provider.ts:callLogin"]}
{"id": "C113", "title": "Subscribers are told only of whole states", "statement": "The client updates its state in several small steps, and subscribers are told at once of each. Every state they are told of, also in the midst of an update, shows nobody as signed in, or an account together with an identity and chain that the canister gave this browser for that account; success comes with an identity, and an error of preparing or logging in with its reason. A page begins with a state that says initializing; once it does not, the state shows the identity in local storage, so an app that waits for this never takes a signed-in user for signed out.", "quantifier": "all histories of the page, its calls and the canister, all next steps, all moments within a step", "why_tests_cant": "all schedules and all intermediate states", "anchors": ["packages/ic_siwe_js/src/index.ts:siweStateStore", "packages/ic_siwe_js/src/index.ts:SiweManager.constructor", "packages/ic_siwe_js/src/index.ts:SiweManager.updateState", "packages/ic_siwe_js/src/index.ts:SiweManager.login", "packages/ic_siwe_js/src/index.ts:SiweManager.clear"]}
{"id": "C114", "title": "What the app is told outlives the page", "statement": "If the browser ends the page at the moment subscribers are told who is signed in, the page that is opened next shows the same. (False of the code for clear(): it tells the subscribers before it empties local storage, so the next page shows the user as signed in; negation proved. Proved: for everything else, and that at whatever moment the page ends the next one shows who was shown before the step or after it.)", "quantifier": "all histories, all next steps, all crash points within a step", "why_tests_cant": "all crash points in all histories", "anchors": ["packages/ic_siwe_js/src/index.ts:SiweManager.login", "packages/ic_siwe_js/src/index.ts:SiweManager.clear", "packages/ic_siwe_js/src/local-storage.ts:saveIdentity", "packages/ic_siwe_js/src/local-storage.ts:clearIdentity"]}
{"id": "C115", "title": "The status of signing is truthful and is reset", "statement": "If the state says that signing failed, it says why; and clear() puts the whole state back. (False of the code: clear() and a new login() drop the error but keep the status; negations proved. Proved: clear() puts everything else back, and apart from these two the error is there as long as the status says so.)", "quantifier": "all reachable states and steps", "why_tests_cant": "all schedules", "anchors": ["packages/ic_siwe_js/src/index.ts:SiweManager.login", "packages/ic_siwe_js/src/index.ts:SiweManager.clear"]}
{"id": "C116", "title": "Delegations fetched from replicas that lag behind", "statement": "The query for the delegation may be answered by a replica that has executed only a first part of the canister's calls. If that part includes the login, login() signs the user in as if the replica were up to date, whatever calls the replica has missed, and the chain verifies against what that replica has certified. If it does not include it, login() fails, forgets its message and leaves the displayed and stored identity alone (or the hashes of two logins collide). All other properties of the page hold whatever replicas answer its queries.", "quantifier": "all worlds, lags, interleavings and calls of others", "why_tests_cant": "all schedules and all lags of replicas", "anchors": ["packages/ic_siwe_js/src/index.ts:SiweManager.login", "packages/ic_siwe_js/src/siwe-provider.ts:callGetDelegation", "packages/ic_siwe_provider/src/service/siwe_get_delegation.rs:siwe_get_delegation"]}
{"id": "C117", "title": "The app in the browser and the app's canister know the same user", "statement": "Whatever happened in the page and to the canister: while the page shows an account with an identity, the Internet Computer accepts every request signed with this identity, to the targets of its delegation, until the session ends (given the certificate that came with the delegation, and see C29); and a canister of the app that asks the provider who the sender is is told exactly the account the page shows, then and at any later time, however many others sign in meanwhile, as long as the way identities are derived is not changed or all salts have at most 255 bytes. It is always told if the mapping is kept and the canister is not installed anew. The alternative is an explicit collision between the identities of two addresses that logged in.", "quantifier": "all histories of the page and the canister, all later calls, all requests", "why_tests_cant": "all histories and schedules: it joins the browser's state, local storage, the canister's mapping and the replica's check", "anchors": ["packages/ic_siwe_js/src/index.ts:SiweManager.login", "packages/ic_siwe_js/src/delegation.ts:createDelegationChain", "packages/ic_siwe_provider/src/service/get_address.rs:get_address", "packages/ic_siwe_provider/src/service/siwe_login.rs:manage_principal_address_mappings"]}
{"id": "C118", "title": "Stable memory grows with the users, not with the calls", "statement": "Whatever is called, however often, and across upgrades: each of the two maps the canister keeps in stable memory has at most one entry for each address (or principal) that signed in since the installation, and has allocated at most one node for every five of these, rounded up. Prepared logins, failed logins, queries and upgrades leave both maps exactly as they are.", "quantifier": "all histories of the canister", "why_tests_cant": "histories of any length: a test sees a few insertions", "anchors": ["packages/ic_siwe_provider/src/service/siwe_login.rs:manage_principal_address_mappings", "packages/ic_siwe_provider/src/lib.rs:PRINCIPAL_ADDRESS", "packages/ic_siwe_provider/src/lib.rs:ADDRESS_PRINCIPAL"]}
{"id": "C119", "title": "The two mappings share stable memory without disturbing each other", "statement": "The canister's stable memory is divided between the mapping from principals to addresses and the one from addresses to principals. After any sequence of growing, writing and upgrading, with any outcomes, each of the memories has exactly the pages granted to it, each of its bytes is the one last written there or 0, a read or write outside its pages traps, and what is done with one memory changes nothing that is read from the other. An upgrade finds everything as it was. A memory can be made larger exactly as long as the table has room for its buckets and the system grants the pages.", "quantifier": "all sequences of uses of all 255 memories, all limits of the system", "why_tests_cant": "any sequence of interleaved growth and writes, across bucket boundaries that tests with little data never reach", "anchors": ["packages/ic_siwe_provider/src/lib.rs:MEMORY_MANAGER", "packages/ic_siwe_provider/src/lib.rs:PRINCIPAL_ADDRESS", "packages/ic_siwe_provider/src/lib.rs:ADDRESS_PRINCIPAL"]}
{"id": "C120", "title": "The settings builder means the last value of every setting", "statement": "Whatever methods of SettingsBuilder are called, how often and in which order, build() judges and returns one record: for each setting the value of the last call about it, or the documented default; values that were overwritten have no effect, not even on the error. If no method is called twice, the order of the calls does not matter at all. The canister's init and post_upgrade accept an argument exactly if the builder accepts the calls for its options and the canister is among the targets, and then work with the builder's settings.", "quantifier": "all sequences of builder calls with all values; all arguments of init and post_upgrade", "why_tests_cant": "all call sequences of any length and all orders", "anchors": ["packages/ic_siwe/src/settings.rs:SettingsBuilder", "packages/ic_siwe_provider/src/service/init_upgrade.rs:siwe_init"]}
{"id": "C121", "title": "An installed canister becomes able to issue messages", "statement": "After an installation or upgrade the canister starts its random generator by a timer and a call of raw_rand. Whatever happens, in whatever order: it is seeded at most once between two installations or upgrades, and only by an answer of raw_rand to a call of this module; the nonce of the n-th message since is the n-th draw from this seed; siwe_prepare_login answers every address exactly from the moment the seed has arrived and traps before. And it does become able to, without intervention. (The last is false of the code: if the timer is lost or raw_rand is rejected, it is not tried again, and the canister issues no message until it is upgraded; proved. Proved instead: as long as neither has happened, running the timer and an answer of 32 bytes suffice.)", "quantifier": "all sequences of calls, timers, answers and rejections", "why_tests_cant": "all schedules of the system's callbacks and the users' calls", "anchors": ["packages/ic_siwe/src/init.rs:init_rng", "packages/ic_siwe/src/rand.rs:generate_nonce", "packages/ic_siwe/src/login.rs:prepare_login"]}
{"id": "C122", "title": "A provider under a steady load keeps serving", "statement": "If the clock does not run backwards, messages are to be signed within x, somebody tries to log in (successfully or not, with a well-formed address and signature) at least once in every period p, no more than n messages are requested in any period of length x + p, and siwe_login is called no more than k times in a minute, then the provider never stores more than n pending sign-ins and k signatures, and a machine with memory for n sign-ins on which a call may look at n + 10 entries, and at k, answers every call of every such history, however long, as a machine without limits does. A machine with memory for fewer sign-ins, or on which a call may look at fewer than n entries, does not.", "quantifier": "all histories under the load, all limits, all x, p, n, k", "why_tests_cant": "histories of any length", "anchors": ["packages/ic_siwe/src/siwe.rs:SiweMessageMap::prune_expired", "packages/ic_siwe/src/signature_map.rs:prune_expired", "packages/ic_siwe/src/login.rs:login"]}
{"id": "C123", "title": "Nobody acts for an account whose owner has not signed in", "statement": "As long as all installations and upgrades give the same identities, or have any salts of at most 255 bytes: whenever the IC accepts a request, by anyone, as coming from the principal of an Ethereum address (under whatever configuration), the canister had issued a message to that address, no longer ago than sessions are configured to last, the address's wallet signed that message, and somebody logged in with the signature for the session key that the request's delegation names, at a time when the canister it calls was allowed; otherwise explicit hash collisions are exhibited. So sessions end: if no message was issued to the address for as long as sessions last, nothing is accepted in its name; nor ever, for an address whose wallet never signed.", "quantifier": "all histories of the canister, all requests with all chains of delegations, all times", "why_tests_cant": "the adversary composes requests and delegations of any bytes", "anchors": ["packages/ic_siwe/src/login.rs:login", "packages/ic_siwe/src/delegation.rs:create_delegation", "packages/ic_siwe_provider/src/service/siwe_get_delegation.rs:siwe_get_delegation"]}
{"id": "C124", "title": "A sign-in can be spoiled only by guessing its nonce", "statement": "Somebody asks for a message, signs it, and logs in before it expires. In between everybody else makes n calls of their choice, each chosen from the replies to the earlier ones. With a random source whose draws are independent of everything else, what the others see is the same whatever the draw for the message's nonce was, except for draws whose nonce they name in a call. So the login fails for at most n of the 2^80 draws; otherwise two storage keys that collide under SHA-256 are exhibited.", "quantifier": "all histories before, all addresses, all adaptive strategies of the others and all numbers of calls, all draws", "why_tests_cant": "the others choose every call from what they saw before, and the claim counts over 2^80 draws", "anchors": ["packages/ic_siwe/src/rand.rs:generate_nonce", "packages/ic_siwe/src/login.rs:prepare_login", "packages/ic_siwe/src/login.rs:login", "packages/ic_siwe/src/siwe.rs:SiweMessageMap"]}
{"id": "C125", "title": "What a user is answered depends on nobody else's calls", "statement": "Take any two histories of the canister that contain the same events about an address - messages asked for and logins tried with it, with their times and replies - and the same installations, upgrades and arrivals of randomness; everything else may differ. Then the next call about that address is answered alike: a login gets the same reply, a request for a message gets the same reply but for the nonce, get_principal gets the same reply, and a delegation that one canister serves the other serves too, if the session key and expiration were granted to the address once and the call is not made at the very end of the minute. Otherwise explicit SHA-256 collisions are exhibited.", "quantifier": "all pairs of histories, all calls, all times no earlier than the events", "why_tests_cant": "compares pairs of histories of any length with arbitrary calls of others interleaved", "anchors": ["packages/ic_siwe/src/login.rs:login", "packages/ic_siwe/src/login.rs:prepare_login", "packages/ic_siwe/src/siwe.rs:SiweMessageMap", "packages/ic_siwe/src/signature_map.rs:SignatureMap", "packages/ic_siwe_provider/src/service/get_principal.rs:get_principal"]}
{"id": "C126", "title": "A signature opens a session only for the key its owner chose", "statement": "A wallet's signature is meant for the session key of the application that asked for it: a login with it succeeds for that key only. And it opens one session at most: once a login was tried with the message's nonce, by anyone and for any key, every other login with it is told that there is no such message, unless the canister issued that nonce to the address again; a page whose login comes second shows this error. (The first sentence is false of the code: negation proved.)", "quantifier": "all histories of the canister, all signatures, session keys and times", "why_tests_cant": "somebody else may present the signature, with any key, at any point of the history", "anchors": ["packages/ic_siwe/src/login.rs:login", "packages/ic_siwe/src/siwe.rs:SiweMessage"]}
{"id": "C127", "title": "Signing out ends the session", "statement": "After clear() no request made with the identity that was displayed is accepted any more. (False of the code: signing out is a matter of the page; what was accepted once is accepted until its delegations expire, whatever happens meanwhile in the page and at the canister. Proved: the session ends by itself when its message was issued longer ago than sessions are configured to last; and with no login running, clear() leaves no identity in the page or in local storage.)", "quantifier": "all histories of page and canister before and after, all requests made with a displayed identity, all times", "why_tests_cant": "whoever copied the identity may use it at any later point", "anchors": ["packages/ic_siwe_js/src/index.ts:clear", "packages/ic_siwe_js/src/local-storage.ts:clearIdentity", "packages/ic_siwe/src/delegation.rs:create_delegation"]}
{"id": "C128", "title": "One canister can serve several sites", "statement": "A canister that embeds the library and configures it (init) for the site a user is at before handling each call, with one salt and the URI included in the seed as the README recommends: a login gives the address its identity at a site for which it signed a message, and identities at sites with different URIs differ (or SHA-256 collides). (The first part is false of the code: the identity is that of the site configured when the login comes in, whatever message was signed, so a message signed for one site signs in to every other. Proved: it holds if the canister compares the message's URI with the configured one before it calls login.)", "quantifier": "all sequences of uses of the library, all sites, addresses and signatures", "why_tests_cant": "how calls for different sites interleave is not bounded; a test with one site, or one that logs in right after preparing, cannot see it", "anchors": ["packages/ic_siwe/src/login.rs:login", "packages/ic_siwe/src/login.rs:prepare_login", "packages/ic_siwe/src/init.rs:init", "packages/ic_siwe/src/delegation.rs:generate_seed", "packages/ic_siwe_provider/README.md:IncludeUriInSeed"]}
{"id": "C129", "title": "An embedding canister's delegations verify if it certifies its maps", "statement": "A canister that embeds the library, sets its certified data from one of its signature maps as the provider does, and serves delegations from it: a served delegation is accepted by the IC's check under the key of the address's identity exactly if the certified data is the digest of the map as it is; so all are accepted if the canister certifies the map after every call that works on it, failed logins included. Whatever the check accepts for the canister, from anyone, stems from a pair that the canister itself or a login put into the map that was certified, for the same session key, expiration, targets and identity (or SHA-256 collides on named strings).", "quantifier": "all sequences of uses of the library and certifications, on any number of maps; all byte strings presented as keys and signatures", "why_tests_cant": "the certified data depends on the whole history, and forgeries are arbitrary byte strings", "anchors": ["packages/ic_siwe/src/delegation.rs:witness", "packages/ic_siwe/src/delegation.rs:create_certified_signature", "packages/ic_siwe/src/signature_map.rs:root_hash", "packages/ic_siwe/src/login.rs:login", "packages/ic_siwe_provider/src/lib.rs:update_root_hash", "packages/ic_siwe_provider/src/service/siwe_get_delegation.rs:siwe_get_delegation"]}
{"id": "C130", "title": "A page displays only identities of its own canister", "statement": "The identity that a SiweManager displays was granted by the canister the manager was made for: that canister accepted a login of the displayed account, with the session's key and the account's signature of a text that it had issued itself, and handed out the displayed delegation chain. (False of the code: store and local storage do not tell canisters apart, so a manager for another canister, in the same page or in a later one, displays the identity. Proved: it was granted by the canister of the manager on which the login that brought it was called; it is the manager's own if the app only ever used one canister, or if the user signed out, with no login running, before it changed to it.)", "quantifier": "all histories of page loads and managers for any number of canisters, of their calls, and of each canister", "why_tests_cant": "managers, logins and page loads interleave arbitrarily; a test with one canister cannot see it", "anchors": ["packages/ic_siwe_js/src/index.ts:SiweManager", "packages/ic_siwe_js/src/index.ts:clear", "packages/ic_siwe_js/src/local-storage.ts:STORAGE_KEY", "packages/ic_siwe_js/src/local-storage.ts:loadIdentity"]}
{"id": "C131", "title": "Nonces do not repeat", "statement": "After the canister's randomness arrived, everybody makes n calls, each chosen from all the replies so far. With a random source that draws independently, two of the messages issued have the same nonce exactly if two of the draws made for them are the same ten bytes; nothing callers do makes this more likely. So at most n(n-1)/2 * N^(n-1) of the N^n sequences of draws, N = 2^80, give two messages the same nonce: a probability of at most n(n-1)/2^81.", "quantifier": "all histories before, all adaptive strategies of all callers, all numbers of calls, all sequences of draws", "why_tests_cant": "counts over (2^80)^n sequences of draws, for every n and every strategy", "anchors": ["packages/ic_siwe/src/rand.rs:generate_nonce", "packages/ic_siwe/src/login.rs:prepare_login", "packages/ic_siwe/src/init.rs:init_rng"]}
{"id": "C132", "title": "A wallet is asked to sign only messages that have not expired", "statement": "Whenever login() asks the wallet to sign a message, the canister issued that message and its validity time (sign_in_expires_in) has not run out since; in particular a signature the user gives at once can still be used. (As the code stands a message that was prepared early is put before the user however late; what holds is that the message was issued since the page last had none at hand.)", "quantifier": "every history of page loads, calls to prepareLogin(), login() and clear(), wallet and network events in any order, every history of the canister and every passing of time", "why_tests_cant": "tests call login() right after prepareLogin(); the question is about every delay and every interleaving between them", "anchors": ["packages/ic_siwe_js/src/index.ts:login", "packages/ic_siwe_js/src/index.ts:prepareLogin", "packages/ic_siwe/src/siwe.rs:is_expired"]}
{"id": "C133", "title": "A principal belongs to one address, through all reconfigurations", "statement": "Whatever installations, upgrades and logins happen at a canister (with salts of at most 255 bytes, see C23), all logins that return keys of one principal are logins of one Ethereum address, so get_address(p) never answers two different addresses at different times, unless two of the logged-in identities exhibit a hash collision. As long as the mappings are kept, the principal p that get_principal(a) answers has get_address(p) = a, whatever salts, URIs and other settings were changed in between. (The other direction, which would make the mapping one-to-one, holds only while salt and URI stay, see C44: after a change of the salt and a second login an address has two principals.)", "quantifier": "every history of installations, upgrades, logins and other calls, every pair of moments in it, every address and principal", "why_tests_cant": "tests log in one address under one configuration; the claim compares logins under different configurations at any two moments of any history", "anchors": ["packages/ic_siwe_provider/src/service/siwe_login.rs:siwe_login", "packages/ic_siwe_provider/src/service/get_address.rs:get_address", "packages/ic_siwe_provider/src/service/get_principal.rs:get_principal", "packages/ic_siwe_provider/src/service/init_upgrade.rs:upgrade", "packages/ic_siwe/src/delegation.rs:generate_seed"]}
{"id": "C134", "title": "Sessions keep the limits of the Internet Computer", "statement": "Every delegation that siwe_get_delegation ever hands out keeps the IC's limits on delegations: at most 1000 targets, never an empty list of them and none twice. A request authenticated with it, and with further delegations made by the session key, is within the IC's limits (at most 20 delegations, at most 1000 targets in each, no key twice) exactly if the further ones are at most 19 and keep theirs. So the requests of a session are accepted with the limits in force, and so are those made with the identity a page shows, unless the session key is the user's own public key.", "quantifier": "every history of the canister and of the page, every session key, every further chain of delegations, every request", "why_tests_cant": "the limits are the IC's and apply to every configuration and login; a test would need configurations with thousands of targets and a replica", "anchors": ["packages/ic_siwe/src/settings.rs:validate_targets", "packages/ic_siwe/src/delegation.rs:create_delegation", "packages/ic_siwe_provider/src/service/siwe_get_delegation.rs:siwe_get_delegation", "packages/ic_siwe_js/src/delegation.ts:createDelegationChain"]}
{"id": "C135", "title": "A delegation's signature shows nothing of other users and stays short", "statement": "The signature that comes with a delegation carries the certificate and a hash tree that shows in clear only the names on the way to this very delegation (sig, the hash of the user's seed, the hash of the delegation) and an empty leaf; of the signatures of all other users and sessions it carries only digests. If the clock does not run backwards and there were never 2^k or more successful logins within a minute, it is at most 304 k + 149 bytes longer than the certificate. The same holds of the witnesses of any signature map a canister keeps, with the pairs put into it instead of logins.", "quantifier": "every history of calls, every successful siwe_get_delegation after it, every certificate, every k", "why_tests_cant": "Tests look at one small map; what other entries leak into a witness and how its length grows depend on every shape of the tree that a history of logins and expiries can produce.", "anchors": ["packages/ic_siwe/src/signature_map.rs:witness", "packages/ic_siwe/src/delegation.rs:create_certified_signature", "packages/ic_siwe/src/delegation.rs:witness", "packages/ic_siwe_provider/src/service/siwe_get_delegation.rs:siwe_get_delegation"]}
{"id": "C136", "title": "Only holders of keys have addresses", "statement": "A principal for which get_address or get_caller_address names an address, and one that get_principal names, is a self-authenticating principal of 29 bytes. So a caller that does not sign (the anonymous principal) or is a canister never has an address: it is told that there is none or that the mapping is disabled, and an app canister that asks the provider for its caller's address never gets one for such a caller.", "quantifier": "every history of calls, every caller and every principal, every kind of principal the IC knows", "why_tests_cant": "That no sequence of logins, upgrades and reconfigurations records the anonymous principal or a canister's id is a statement about all histories and all keys.", "anchors": ["packages/ic_siwe_provider/src/service/get_address.rs:get_address", "packages/ic_siwe_provider/src/service/get_caller_address.rs:get_caller_address", "packages/ic_siwe_provider/src/service/get_principal.rs:get_principal", "packages/ic_siwe_provider/src/service/siwe_login.rs:siwe_login"]}
{"id": "C137", "title": "Replicas agree whatever order their hash maps have", "statement": "The pending sign-ins are kept in a hash map, and so are the fields of a delegation when it is hashed. In whatever order such a map keeps its entries, and however that order changes between calls, the replies to all calls are the same; replicas that were sent the same calls have given the same replies, certify the same data and hold the same signatures and mappings.", "quantifier": "every sequence of calls, every rearrangement of the pending sign-ins before every call, every order of the fields of a delegation", "why_tests_cant": "A test runs one build with one hasher; agreement of replicas is about all iteration orders at all moments.", "anchors": ["packages/ic_siwe/src/siwe.rs:SiweMessageMap", "packages/ic_siwe/src/hash.rs:hash_of_map", "packages/ic_siwe/src/delegation.rs:create_delegation_hash", "packages/ic_siwe/src/login.rs:login"]}
{"id": "C138", "title": "Answers stay small", "statement": "Whatever was called before, a text returned by siwe_prepare_login is between 222 and 251 bytes longer than the configured domain, statement and uri together, and its nonce has 20 characters; the public key returned by siwe_login is 52 bytes longer than the canister's id (at most 81 bytes) however long the session key and the salt are; addresses named by the canister have 42 characters and principals 29 bytes. (Delegations: their signature by C135, their targets by C134.)", "quantifier": "every history of calls, every configuration, every caller's arguments and every time", "why_tests_cant": "Tests measure single answers; the bound has to hold for every configuration and every input a caller may send.", "anchors": ["packages/ic_siwe/src/siwe.rs:SiweMessage", "packages/ic_siwe/src/delegation.rs:create_user_canister_pubkey", "packages/ic_siwe_provider/src/service/siwe_prepare_login.rs:siwe_prepare_login", "packages/ic_siwe_provider/src/service/siwe_login.rs:siwe_login", "packages/ic_siwe_provider/src/service/get_address.rs:get_address", "packages/ic_siwe_provider/src/service/get_principal.rs:get_principal"]}
{"id": "C139", "title": "The mapping features influence nothing but the mapping queries", "statement": "Two canisters whose configurations, at the installation and at every upgrade, differ only in whether the mappings are disabled, and that otherwise receive the same calls, give the same answers to all calls except get_address, get_caller_address and get_principal, and certify the same data. What get_address and get_caller_address answer does not depend on whether the mapping from addresses to principals is disabled, nor get_principal's answer on the other one. The order of the listed features, repetitions, and the difference between an empty list and none influence no answer at all.", "quantifier": "every pair of histories whose installations and upgrades differ in the mapping features only, every further call", "why_tests_cant": "A test compares two canisters on one sequence of calls; independence is about all sequences, including upgrades that change the features.", "anchors": ["packages/ic_siwe_provider/src/service/init_upgrade.rs:siwe_init", "packages/ic_siwe_provider/src/service/siwe_login.rs:manage_principal_address_mappings", "packages/ic_siwe_provider/src/service/get_address.rs:get_address", "packages/ic_siwe_provider/src/service/get_caller_address.rs:get_caller_address", "packages/ic_siwe_provider/src/service/get_principal.rs:get_principal"]}
{"id": "C140", "title": "The targets influence nothing but the delegations, the session length nothing but when sessions end", "statement": "Two canisters whose configurations, at the installation and at every upgrade, differ only in the targets (each acceptable), and that otherwise receive the same calls, give the same answers to all calls except siwe_get_delegation. If the session lengths differ too, then still all calls but siwe_login and siwe_get_delegation are answered alike, and each login succeeds on both canisters with the same user key or fails on both with the same error.", "quantifier": "every pair of histories whose installations and upgrades differ in acceptable targets and session lengths only, every further call", "why_tests_cant": "A test compares two canisters on one sequence of calls; independence is about all sequences, including upgrades that change these settings.", "anchors": ["packages/ic_siwe_provider/src/service/init_upgrade.rs:siwe_init", "packages/ic_siwe/src/login.rs:login", "packages/ic_siwe/src/delegation.rs:create_delegation", "packages/ic_siwe/src/settings.rs:Settings"]}
{"id": "C141", "title": "The client's delegation chain has the bytes the canister replied with", "statement": "Whatever public keys and signature the canister's replies contain, and in whatever kind of byte array the interface's types allow they arrive, the delegation chain the client makes of them has exactly these bytes. (This fails for arrays that are windows on a larger buffer, whose whole buffer is taken, and for arrays of numbers, for which making the chain throws or leaves the key undefined; it holds exactly for arrays that have their buffer to themselves.)", "quantifier": "all replies, all byte arrays that hold their bytes", "why_tests_cant": "A test sees the arrays of one version of the decoder; the peer dependency admits all later versions, and the types admit other arrays.", "anchors": ["packages/ic_siwe_js/src/delegation.ts:createDelegationChain", "packages/ic_siwe_js/src/delegation.ts:asSignature", "packages/ic_siwe_js/src/delegation.ts:asDerEncodedPublicKey", "packages/ic_siwe_js/src/service.interface.ts:SignedDelegation"]}
{"id": "C142", "title": "The message of an error tells the app why the call failed", "statement": "For every failure of prepareLogin() or login() the message of the error that the app is given (in the state and in the rejected promise) tells the reason: two failures with the same message that the client found or the canister reported have the same cause, with all details of a refusal; none of them has the message that says nothing; and of what the wallet, the agent or local storage threw, the app sees the message. (The last fails for thrown values that are not Error objects, as many wallets throw: all of them get the same message.)", "quantifier": "all failures, all values that libraries may throw, all texts of the DER parser", "why_tests_cant": "A test sees single messages; that no two causes share one is about all pairs.", "anchors": ["packages/ic_siwe_js/src/error.ts:normalizeError", "packages/ic_siwe_js/src/index.ts:login", "packages/ic_siwe_js/src/index.ts:prepareLogin", "packages/ic_siwe_js/src/siwe-provider.ts:callLogin"]}
{"id": "C143", "title": "The client calls the configured canister and believes only the Internet Computer", "statement": "The client library calls the canister the manager was made for and accepts only answers certified under the Internet Computer's key. (This fails: an app in whose build the variable DFX_NETWORK is not `ic` checks the answers under the key the host it is connected to states, even if the app's own options say not to fetch it; and a canister id or an agent in the options for actors takes the place of the configured one. In a build for the Internet Computer the key is the built-in one whatever the options.)", "quantifier": "every value of the environment variable, also where there is no `process`; every canister id, all options objects, every host key, every answer and every certification relation", "why_tests_cant": "the tests mock the actor, and no test runs against a host that lies; which options win depends on the order of the spreads for every options object", "anchors": ["packages/ic_siwe_js/src/siwe-provider.ts: createAnonymousActor"]}
{"id": "C144", "title": "Domain, scheme, chain id, statement and URI influence nothing but the text that is signed", "statement": "Two canisters that are configured alike except for domain, scheme, chain id, statement and (unless the feature that includes it in the seed is on) URI, at the installation and at any upgrades, and receive corresponding calls (the same calls, with signatures each of the canister's own message or of neither) answer every call alike: the same nonces, the same users, session ends, delegations and mappings. Only the text of the messages they issue differs, and the reason for which a signature is refused. The scheme is not even part of the text: configurations that differ in it alone give the same answers throughout.", "quantifier": "all pairs of histories of corresponding calls, with any interleaving of users, upgrades and times; every further call", "why_tests_cant": "a test compares two configurations on one history; that no setting leaks into principals or delegations is a statement on all pairs of configurations and histories", "anchors": ["packages/ic_siwe/src/siwe.rs: SiweMessage::new", "packages/ic_siwe/src/login.rs: prepare_login, login", "packages/ic_siwe/src/delegation.rs: generate_seed, create_delegation", "packages/ic_siwe_provider/src/service/siwe_get_delegation.rs: siwe_get_delegation"]}
{"id": "C145", "title": "A longer sign-in time gives users more time and changes nothing else", "statement": "Two canisters that are configured alike except that the second's sign-in time is at least as long, at the installation and at any upgrades, and receive corresponding calls (the same calls, with signatures each of a message that may still be used on its canister, or neither) answer every call alike: the same nonces, users, session ends, delegations and mappings. Only the text of the messages differs, and the reason for which a login is refused. Every message that may be used on the first may be used on the second, at least as long.", "quantifier": "all pairs of histories of corresponding calls, with any interleaving of users, upgrades and times; every further call", "why_tests_cant": "a test compares two configurations on one history; that the setting leaks into nothing else is a statement on all pairs of configurations and histories", "anchors": ["packages/ic_siwe/src/siwe.rs: SiweMessage::new, SiweMessageMap::prune_expired", "packages/ic_siwe/src/login.rs: prepare_login, login", "packages/ic_siwe_provider/src/service/siwe_login.rs: siwe_login"]}
