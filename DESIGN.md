# Formal model of kristoferlund/ic-siwe in Lean 4

## Approach

`/verif/lean/Verif` holds an executable model of the Rust crates `ic_siwe` and `ic_siwe_provider`
and of the browser client `ic_siwe_js` (function by function, every definition cites file and lines), small independent specifications
(`Verif/Spec`), helper lemmas, and property theorems (`Verif/Props`).

* Rust `String`/`&str` are modelled by their UTF-8 byte sequence `List UInt8`. Every string operation in
  the code is a byte operation or a `char` operation that only distinguishes ASCII characters.
* `u64`/`u8` are `UInt64`/`UInt8`; `saturating_add` is modelled exactly.
* `Result`/`Option` stay data; a panic is the explicit value `Res.panic`, a trapped call is answered `Reply.trap`, and a
  trapping canister call leaves the state as it was (IC message atomicity).
* SHA-256, SHA-224, Keccak-256, secp256k1 recovery, DER parsing of the session key, URL parsing, principal text
  parsing, the ChaCha20 generator are *parameters* (structure `Env`). Theorems hold for every instantiation.
  Nothing is assumed injective: "no collision" statements end in an explicit pair of distinct byte
  strings, both hashed by the two computations compared, with the same hash.
* Dependencies whose behaviour the properties hinge on are modelled concretely: `hex` encode/decode,
  `std::collections::BinaryHeap` (array heap, exact sift order, since `is_expired` searches in array
  order), `ic_certified_map::RbTree` (left-leaning red-black tree with hashes) and `HashTree`,
  `time`'s RFC 3339 formatting, the DER encoder for the public key, `serde_cbor` encoding of the signature.
  Their source is not in /repo; these models follow their published source as known to the author and are
  part of the trusted base.
* The canister is a state machine `step : State E → UInt64 → Op → State E × Reply` (the `UInt64` is the time of the
  call); histories are lists of timed operations with no length bound.

## Plan per property

| id | modelled | proof |
|----|----------|-------|
| C01-C03 | `EthAddress::new`, `convert_to_eip55` over bytes, arbitrary keccak | direct, against a declarative EIP-55 spec |
| C04 | same, explicit trap on index >= 32 | negation witness, `_partial` for <= 64 bytes |
| C05,C06 | `EthSignature`, `recover_eth_address` | direct |
| C07 | `eip191_bytes` | monotonicity of n + digits(n) |
| C08 | hex | induction |
| C09 | civil-date conversion, RFC 3339 formatter, independent parser spec | arithmetic + round trip |
| C10 | `From<SiweMessage> for String` | cancellation / line splitting; negation witness |
| C11 | `SiweMessage::new`, `prepare_login`, nonce | direct |
| C12 | `is_expired` | exact characterisation, negation witness |
| C13 | `siwe_message_map_hash` | injectivity of the preimage |
| C14 | `login` + `siwe_login` | case analysis against a declarative decision spec |
| C15-C17,C49 | histories | ghost-free induction over the history from the end |
| C18-C20 | login | case analysis; negation witness for C20 |
| C21-C24 | seed / key | injectivity of encodings; negation witness for C23 |
| C25 | DER encoder | independent parser round trip |
| C26 | create_delegation | direct |
| C27,C28 | signature map + histories | invariants over histories; negation witness for C28 |
| C29,C30 | certified data | invariant; negation witness for C29; exactness from the uniqueness of revealed paths (C31) |
| C31 | hash trees | structural induction with explicit collision |
| C32,C36,C38,C39 | RbTree, SignatureMap | refinement to a set of pairs |
| C33,C34 | hash_of_map | sorting of permutations; collision extraction |
| C35 | LEB128 | decoder round trip |
| C37 | BinaryHeap + prune | heap invariant, induction on steps |
| C40-C42 | settings, siwe_init | case analysis; negation relative to URL parser for C41 |
| C43-C46 | mappings, upgrade | invariants over histories |
| C47 | step | case analysis |
| C48 | histories | negation: unbounded family; one-step bounds |
| C50 | CBOR encoder | decoder round trip |
| C51 | certified data + histories | C31 composed with the invariant that certified pairs come from logins |
| C52 | `siwe_get_delegation` | case analysis on reachable states |
| C53 | composition of C14, C49, C28, C29, C52 | chain the history theorems over prepare, between, login, afterwards, query |
| C54 | EIP-4361 grammar as a specification (`Spec/Eip4361.lean`), issued texts | line-by-line cancellation, for any RFC 3986 categories and then for those of the RFC (`Spec/Rfc3986.lean`) |
| C55,C57,C58 | browser client (`Model/Client.lean`): tasks between awaits, interleaved by the environment | invariant over happenings; composition with C15, C52, C29; negation witness for C55 |
| C56 | session numbers of the client | invariant: generated once, sent once |
| C59,C64 | store and local storage | invariants over happenings |
| C60-C62 | store, running calls | invariants and step lemmas; negation witnesses |
| C63 | client run composed with the canister, with the message fetched by `login()` or prepared before | symbolic run of the client; C53; that nothing stays in the way, by C74 |
| C65 | the client's wallet | invariant relating it to the happenings since the last load |
| C66 | errors in promises and state | symbolic runs around the answer; invariant over happenings |
| C67 | error texts (`Model/ErrorText.lean`) | the fixed beginnings are pairwise no prefixes of each other (finite table); the variable parts are injective; reasons per method from C14, C52 |
| C68 | two canisters with the same calls and different salts | relational invariant over pairs of histories |
| C69 | React and Vue wrappers (`Model/Wrappers.lean`) | invariant over events; negation witnesses for Vue |
| C70 | the React wrapper's wallet effect | composition with C65; negation witness after disconnecting |
| C71 | `whoami` of the test canister (`Model/TestCanister.lean`) | composition with C43 |
| C72 | the mapping queries in every state (`Spec/MappingAnswers.lean`: the last login that counts) | induction over histories, the stored maps as the last counted login |
| C73 | infinite schedules of the page (`Spec/Settles.lean`) | a rank of the call's program counter that every end of a wait lowers |
| C74 | the busy statuses (`Spec/Busy.lean`) | invariant over the page's steps |
| C75 | any number of tabs on one local storage (`Model/Tabs.lean`, `Spec/Tabs.lean`) | each tab simulated by a page alone over the storage it believes in; invariants over the browser's steps; negation by a witness |
| C76 | the identity a loaded page shows, against the canister's clock | composition of C57 and C20; negation by a witness |
| C77 | configurations as published against what the code reads (`Model/Candid.lean`, `Model/Interface.lean`, `Spec/Interface.lean`) | coercion of the published record type to the code's, field by field; negation by a witness |
| C78 | the three interface descriptions, decoding of calls, encoding of answers | comparison of the tables; coercion of a value to its own type (induction over types); injectivity of the readings |
| C79 | messages of arbitrary senders (`Spec/Candid.lean`: Candid's subtyping as a relation) | types read without options admit only themselves; soundness of coercion and agreement with the subtyping relation by mutual induction over types |
| C80 | sequences of messages, some of which cannot be decoded | induction over the sequence |
| C81 | requests and the IC's acceptance of them (`Spec/Request.lean`: chains of delegations, targets, expiration; a signature check that relies on certificates of the provider's certified data) | composition of C51, C15, C29, C52; the messages of requests and of delegations differ |
| C82 | `whoami` of the test canister called by an accepted request | composition of C81, C71 and C22; through changes of the configuration with C133 (`Props/Reconfigured.lean`) |
| C83 | a page with any number of managers (`Model/Managers.lean`, `Spec/Managers.lean`) | simulation: every such page is reached by one manager that changes its wallet client (`page_like`), so the theorems about `worldAfter` carry over; invariant for whose wallet signs |
| C84 | JSON text of a message, a JSON writer and a JSON reader (`Model/Json.lean`, `Spec/Json.lean`); RFC 8259's grammar as a relation (`Spec/JsonGrammar.lean`) | the reader accepts exactly the grammar's texts, for what they stand for, and reads what the writer writes: inductions on the reader's fuel, case analysis of escapes over all bytes |
| C85 | the text in local storage (`Model/Storage.lean`), @dfinity/identity's JSON forms as parameters | from the reader and writer, the library's forms being lossless (hypothesis `Lossless`); which texts are accepted, exactly; invariants of C75 |
| C86-C87 | any canister that uses the library: `init` with unvalidated settings, `prepare_login`, `login`, several signature maps, `put`/`delete`/`prune_expired`, `witness` in any order (`Model/Embedding.lean`, `Spec/Embedding.lean`) | invariant over the uses; effect of a use on the library and on each map; induction from the end |
| C88 | the provider's histories as uses of the library | simulation, step by step |
| C89-C90 | siwe_prepare_login, generate_nonce over histories (`Spec/Nonce.lean`) | state of the generator after a history by induction from the end |
| C91 | siwe_login over histories, told from the observed calls (`Spec/Awaiting.lean`) | which message is stored under a key, by induction from the end; agreement with C14's table |
| C92 | two canisters with ids, histories and settings of their own (`Spec/Apps.lean`) | keys read back to their canister id (C25); the first line of the text determines a one-line domain; login_success; for the other settings C10 |
| C93 | the calls of the signature map's interface that the observed calls stand for (`Spec/Signatures.lean`), run on the abstract map of `Spec/SigMap.lean` | one step at a time (`step_case`), then C52's decision; the bound by counting: fewer than ten removed means that all that is left was put within the minute |
| C94 | a specification machine (`Spec/Machine.lean`): a sheet without the canister's data structures and one inductive rule per outcome of a call | forward simulation: `sheetOf` maps states to sheets, `sheet_step` simulates each call (`step_case`); the converse by showing that rules with the same call exclude each other, using C14's and C72's uniqueness |
| C95 | `url::Url::parse` down to authority and host (`Model/Url.lean`; what a host is stays a parameter) | the parser's loops against a declarative decomposition of the address (`Spec/Url.lean`) by induction; trimming and dropping commute |
| C96 | the same functions with the `RefCell`s, their borrow flags and the panics of conflicting borrows (`Model/Cells.lean`) | each function, run with its cells free, computes what the function without cells does and gives its borrows back; the history by induction |
| C97 | the canister on a machine with memory for a given number of pending sign-ins and a bound on the entries a call may look at; the entries looked at are counted along the code's loops (`Model/Limits.lean`) | negation: a memory full of expired sign-ins stays full, by induction over the further history; recovery by one login attempt |
| C98 | the same | bounds on the entries looked at; negation: more pending sign-ins than may be looked at block every login, by induction; equality with the model without limits inside them |
| C99 | ECDSA on secp256k1 (`Model/Secp256k1.lean`, the algorithm of the k256 crate) against the textbook in Mathlib's group of the curve (`Spec/Ecdsa.lean`, `Spec/Wallet.lean`) | Pratt certificates for the field size and the group order, the Jacobian formulas computed in Mathlib's group, the number of points by Lagrange and a bound, then algebra modulo the order |
| C100 | the same | uniqueness of the nonce point, cancellation modulo the order |
| C101 | `Principal::from_text` and the printing of principals (`Model/PrincipalText.lean`) against the interface specification, with CRC-32 as a remainder of polynomials over the field of two elements and base 32 on bits (`Spec/PrincipalText.lean`) | the bitwise checksum computed in the quotient ring, uniqueness by degree; induction over groups of five bits; then C42 and C26 |
| C102 | the same, with a count of mistyped characters | the checksum is linear, so the difference of two texts has syndrome zero; for each of the thirty lengths of a principal the kernel computes that no digit's syndrome is zero or another digit's |
| C103 | `simple_asn1::from_der` as a predicate (`Model/Der.lean`) against a grammar of X.690 values and the public keys of RFC 5280, 8410 and 5480 (`Spec/Der.lean`); the contents of texts and dates are a parameter | the fuelled parser computes the grammar, by induction on the length; identifier and length octets are determined by what follows; then C91 |
| C104 | the page of C63 with the wallets of C99 and the parser of C103 | corollary of C63, C99 and C103 |
| C105 | `url::Host::parse` and `parse_opaque` (`Model/Host.lean`; IDNA beyond plain ASCII and hosts of `file:` are parameters) against the URL standard's and RFC 3986's definitions (`Spec/Host.lean`, `Spec/Rfc3986.lean`) | the address parsers compute the grammars, by induction on the groups of an IPv6 address and on the rounds of the loops; labels and percent decoding are functions; then C95 and C41 |
| C106 | @dfinity/identity's JSON forms of Ed25519 key pairs and delegation chains (`Model/IdentityJson.lean`) | hexadecimal texts are read back, by induction; every chain the canister hands out has keys and a signature of 32 bytes or more, from C06's and C28's answers; then C85's invariants without its hypothesis `Lossless`; conversely, exactly which texts are taken for a chain and for a key (`Spec/StoredJson.lean`) |
| C107 | Candid's binary format as `candid` 0.10.9 reads it (`Model/CandidWire.lean`); the format as relations between bytes and values (`Spec/CandidWire.lean`) | reader and relations agree: each reader takes exactly the representations off the front, by mutual induction over types; references into the type table by a pigeonhole argument on the table's entries; an encoder as witness that everything that fits has bytes; then C77 to C80 on bytes |
| C108 | the UTF-8 check of `std::str::from_utf8` (`Model/Utf8.lean`) in the Candid reader; UTF-8 as Unicode scalar values and their encodings (`Spec/Utf8.lean`) | the check decides the specification, by strong induction on the length; the texts a message carries are UTF-8 (C107's `Fits`), those in force come from such messages (C42), and the message (C11), nonces, addresses (C72) and refusals (C67) are made of them and of ASCII; then C107's replies without a condition on the texts |
| C109 | `StableBTreeMap::init`, `get` and `insert` of ic-stable-structures 0.6.5 (`Model/StableBTree.lean`: nodes at addresses of a memory, a saved header); uses of a map and what its entries should be (`Spec/StableBTree.lean`) | a tree of some height lies at the root's address: nodes at most full, all but the root at least half full, keys ascending, no address twice (`Holds`); insertion preserves this and puts the entry in its place, by induction on the height; the bounds on height and number of nodes likewise |
| C110 | the canister with its mappings in such trees, loaded at the first use after an installation or upgrade (`Model/StableCanister.lean`) | simulation of the canister with finite maps, step by step |
| C111 | the canister fed with bytes over B-trees (`Model/FullCanister.lean`); exchanges of bytes and replies, and which calls they are (`Spec/Conversation.lean`) | the deployed canister simulates the canister of the other theorems on the calls among the messages (C107, C110), by induction on the messages; then C81, C91 and C99 |
| C112 | the same | the same simulation; then C53, C99, C103 and C108 |
| C113 | every update of the store and of local storage within a step of the client (`Model/Moments.lean`) | cases over steps; the last one is the state of `Model/Client.lean`, the others show what was shown before |
| C114 | the same, with pages that end at any of these moments (`Spec/Moments.lean`) | the same cases; negation: `clear()` |
| C115 | the status of signing (`Model/Client.lean`) | cases over steps; negations by evaluation |
| C116 | queries answered by lagging replicas (`Happening.lagging` in `Model/Client.lean`) | the client's invariants hold for every lag; symbolic runs composed with C53 and C27 |
| C117 | the page (`Model/Client.lean`) and an app canister that asks the provider (`Model/TestCanister.lean`), both with the same canister | the provenance of the displayed identity (C58) composed with C72, C81 and injectivity of identities up to collisions; through changes of the configuration with C133 |
| C118 | the canister with its mappings as B-trees (`Model/StableCanister.lean`), the users who signed in (`Spec/Mapping.lean`) | every entry stems from a login (C43), keys are distinct, so they inject into the users; the number of nodes from the size bound of C109 |
| C119 | `MemoryManager` of ic-stable-structures 0.6.5 on bytes: header, table of buckets, growing, reading and writing across buckets, loading (`Model/StableMemory.lean`); what each memory should be (`Spec/StableMemory.lean`) | an invariant relating the header, the table and the buckets' bytes to the manager and the wanted contents (`Inv`); addresses of bytes of different memories differ because a bucket has one owner in the table; loading by reading the header back |
| C120 | the builder's methods as calls on the settings, and chains of them (`Model/Settings.lean`); the last value given to a setting (`Spec/Builder.lean`) | induction over the calls for each setting; uniqueness of the settings asked for; permutations without repeated methods; the provider's initialisation by C42 |
| C121 | the canister with its pending timers and calls of `raw_rand`; timers, answers and rejections as events (`Model/Startup.lean`) | the number of timers, calls, seeds and failures in the life of a module is 1 (`tokens`); the calls and seeds form a history as elsewhere, so C89 gives the answers; a failure is final, so the last part is false (see below) |
| C122 | the provider on a machine with limits (`Model/Limits.lean`), the load stated on the calls alone (`Spec/Capacity.lean`) | pending sign-ins and signatures are bounded by C48 and C93 at every point; then no call exceeds a limit (C98), by induction the runs agree; that less is not enough by the history of n requests |
| C123 | the IC's check of requests as for C81; what the owner is promised in `Spec/Account.lean` | C81 gives the login behind the request; steady identities make its address the account's (C22, C25), its message is the account's and recent (C19), or a collision is named; with changing configurations the identity string is injective in the address for salts of at most 255 bytes (C23, C133) |
| C124 | the provider with a random source whose state is the sequence of draws to come (`ideal`), others as a function from the replies so far to the next call (`Spec/Guess.lean`); that ChaCha20 seeded by `raw_rand` is as good as such a source is not modelled | two canisters that differ in one pending message answer alike until a call uses or reissues it (`step_alike`, then induction on the calls); so the calls are those made to a canister that never stored it, and each names one nonce; the bound is attained by the example |
| C125 | pairs of histories and the events about an address (`Spec/Own.lean`) | the answers follow from the events seen so far (C72, C89, C91, C27, C28), and those specifications are insensitive to events about others (`awaits_about`, `principalFor_about`, ...); without the two conditions on delegations it is false (`C28_removed_early`, `C28_boundary`) |
| C126 | as C14; the claim is `BoundToKey` in `Spec/Binding.lean` | false: the conditions of a successful login mention the session key only by its form (C14), so any other acceptable key would do; proved: after any attempt the message is gone (`attempt_spent`, as for C16), so every later login is told so |
| C127 | the page and the canister as for C57, the IC's check of requests as for C81, after the calls made so far (`checkAfter`, `Spec/SignOut.lean`) | false: the check only looks at the delegations and the canister's past, so what is accepted once is accepted until it expires; proved: the expiration is that of C19, and `clear()` removes the identity from the page (C60) |
| C128 | the embedding canister of C86, all of whose configurations include the URI in the seed and have one salt (`Spec/Sites.lean`) | false: `login` takes the configuration in force when it is called, whatever message was signed; proved for every accepted login and every other site, from the decision table of C86; partial: separate if the canister compares URIs itself |
| C129 | the embedding canister of C86 with certified data that it sets itself, following the provider's recipe (`Model/Certifying.lean`) | induction over histories: certifications do not touch the library, quiet calls touch neither data nor map; the witness of C87 gives a tree with the certified digest that reads back (C50); forgeries by C31 and C87 |
| C130 | a browser whose managers are made for any number of canisters (`Model/Canisters.lean`, built on C55's page) | false: storage and store are shared between canisters; proved by an invariant that remembers each call's canister: what is stored was handed out by a canister a manager was made for; partial: by the manager's own, with one canister, or after a sign-out |
| C131 | the provider with C124's random source, everybody as one adaptive strategy (`Spec/Birthday.lean`) | C90 says which draw each nonce is; counting sequences in which two draws agree, by a union over pairs |
| C132 | the browser world of C52-C62 with the canister's clock (`Spec/Stale.lean`) | false: the page keeps a prepared message for any length of time; proved by an invariant that every text at hand or under way in the page was issued after the last moment at which the page had none, hence within the validity time if little time has passed since |
| C133 | canister histories as in C44 and C72, with the argument in force at every login (`Spec/OneAddress.lean`) | the key of a login determines salt, address and URI of its identity (C21, C25) whatever the configuration was, or two identities of the history collide; the answers of the mapping are those of C72; the converse is refuted by Alice's logins under two salts (`C133_several_principals`) |
| C134 | the IC's limits on the authentication of requests (`Spec/IcLimits.lean`) beside the check of C81 | the settings in force are valid (C40, an invariant of all histories), and the delegation handed out has exactly their targets (C52) |
| C135 | labels and leaves shown by the tree read back from the signature (`Spec/Disclosure.lean`); length of its CBOR | induction on `lookup_and_build`; depth of a left-leaning red-black tree against its size, and its size against the logins of the busiest minute by C93 |
| C136 | the classes of principals (`Spec/PrincipalKinds.lean`) beside the answers of C43, C71 and C72 | every recorded principal is that of a key handed out by a login (C43), which ends in the class byte of self-authenticating ids |
| C137 | replicas whose pending sign-ins are rearranged at will between calls (`Spec/HashOrder.lean`); also of C86's embedding canister | simulation: one call on rearranged entries gives the same reply and rearranged entries (`step_same`), since there is one entry per key; the pairs hashed for a delegation are sorted (`mapHash_perm`) |
| C138 | the replies of the canister's functions after any history | lengths of the parts of the text from its specification (`siweText_length`), of the DER encoding of the user's key (`userKey_length`); addresses and principals from the logins they come from |
| C139 | pairs of histories whose configurations differ in the features (`Spec/MappingFeatures.lean`) | simulation: states that agree on everything but the flags and mappings not compared (`FeatureTwin`, `step_twin`) |
| C140 | pairs of histories whose configurations differ in acceptable targets and session lengths (`Spec/SessionSettings.lean`) | simulation: states that agree on everything but the signature map, targets and session length (`SessionTwin`, `step_session`) |
| C141 | JavaScript byte arrays as windows on buffers or arrays of numbers (`Model/ByteArrays.lean`); the rest of the client model uses `createDelegationChain` on plain bytes, which C141 shows to be the same for arrays that own their buffer | case distinction on the arrays; concrete arrays for the negation |
| C142 | thrown values and `normalizeError` (`Model/Thrown.lean`), causes (`Spec/Thrown.lean`) | no text of the canister begins one of the client's messages (a finite table), and C67; false for thrown values that are no `Error` |
| C143 | `createAnonymousActor`, options objects as functions from property names (`Model/Actor.lean`) | which property wins in each spread, for all options; false for builds without `DFX_NETWORK=ic` and for options that name another canister: negations beside the partial theorems |
| C144 | pairs of histories of the provider with configurations that differ in domain, scheme, chain id, statement and, unless it is in the seed, URI (`Spec/Wording.lean`) | simulation: the states agree except for these settings and the pending messages' wording, entry by entry |
| C145 | pairs of histories of the provider with configurations of which the second has the longer sign-in time (`Spec/SignInTime.lean`) | simulation: every message waiting in the first state waits in the second, with a later expiration; everything else agrees |

No property is set aside as inexpressible. Runtime facts that the model takes as given: IC message atomicity, the
subnet's certificate really attesting the certified data, quality of randomness, cryptographic hardness.

## Trusted base

1. **Lean 4.33.0's kernel.** The build contains no `sorry`, no `admit`, no declared axiom, no `native_decide`
   and no `bv_decide`; `decide +kernel` is kernel evaluation of a decidable proposition and adds no axiom.
2. **Axioms.** `#print axioms` on every theorem named in MANIFEST.json gives a subset of `propext`,
   `Classical.choice`, `Quot.sound`. The theorems that need less are listed in the section "Axioms" below.
3. **The model.** That the definitions in `Verif/Model` say what the Rust code at the pinned commit does. Every
   definition cites the lines it models and states its simplifications.
4. **The specifications.** `Verif/Spec` is what the theorems are about; those files do not use the model except
   where they talk about calls and replies (`Spec/Trace.lean`, `Spec/Login.lean`, `Spec/Grant.lean`, `Spec/Mapping.lean`).
   C99 and C100 speak of Mathlib's Weierstrass curves with their group law, `ZMod` and prime numbers; C101 of its polynomials. That `Model/Secp256k1.lean` is what
   the crates `k256` 0.13 and `ecdsa` 0.16 compute is part of item 3 (their source is not in the sandbox).

### Modelled

| Rust | Lean |
|------|------|
| `ic_siwe/src/eth.rs` all functions | `Model/Eth.lean`, hex in `Model/Hex.lean` |
| `ic_siwe/src/siwe.rs` all functions | `Model/Message.lean`, dates in `Model/Time.lean` |
| `Display` of `SiweMessage` (`serde_json::to_string`) | `Model/Json.lean` |
| the text in local storage: `JSON.stringify`, `JSON.parse`, local-storage.ts | `Model/Storage.lean`, `Model/Json.lean` |
| `Ed25519KeyIdentity` and `DelegationChain` of @dfinity/identity 2.2.0: `toJSON`, `fromJSON` (dependency; a session identity stays a number, a chain has one delegation) | `Model/IdentityJson.lean` |
| `ic_siwe/src/settings.rs` builder and all validations | `Model/Settings.lean` |
| `ic_siwe/src/hash.rs` all functions (value kinds bytes, string, u64, array) | `Model/HashM.lean` |
| `ic_siwe/src/signature_map.rs` all functions | `Model/SigMap.lean` |
| `ic_siwe/src/delegation.rs` all functions | `Model/Delegation.lean` |
| `ic_siwe/src/login.rs`, `rand.rs`, `init.rs`, thread-locals of `lib.rs` | `Model/Login.lean` |
| `ic_siwe/src/init.rs` the timer and the call of `raw_rand` | `Model/Startup.lean` |
| `ic_siwe_provider` init, upgrade, all five endpoints and `get_caller_address`, certified data | `Model/Provider.lean` |
| `ic_siwe_js/src` index.ts, siwe-provider.ts, delegation.ts, local-storage.ts, context.type.ts (TypeScript) | `Model/Client.lean`; the updates within a step in `Model/Moments.lean` |
| `BinaryHeap`, `ic_certified_map::{RbTree, HashTree}`, `hex`, `time`'s RFC 3339, `simple_asn1` encoding, `serde_cbor` encoding | `Model/BinHeap.lean`, `RbTree.lean`, `HashTree.lean`, `Hex.lean`, `Time.lean`, `Delegation.lean` |
| `Display` of the errors and the literals of the provider's methods | `Model/ErrorText.lean` |
| `ic_siwe_js/src/react/index.tsx`, `vue/index.ts` (TypeScript): what components see, the wallet effect | `Model/Wrappers.lean` |
| `test_canister/src/lib.rs` | `Model/TestCanister.lean` |
| several tabs (pages) of one browser on one local storage | `Model/Tabs.lean` |
| the library's API as used by other canisters | `Model/Embedding.lean`, `Model/Certifying.lean` |
| `k256::ecdsa::Signature::from_slice` and `VerifyingKey::recover_from_prehash` as eth.rs uses them | `Model/Secp256k1.lean` |
| `Principal::from_text` and `Display` of the crate `ic_principal`, as init_upgrade.rs and test_canister use them | `Model/PrincipalText.lean` |
| `simple_asn1::from_der` (success only; texts and dates are a parameter), as delegation.rs uses it on the session key | `Model/Der.lean` |
| `url::Url::parse` and `url::Host::parse` (authority and host only; IDNA beyond plain ASCII and hosts of `file:` URLs are parameters), as settings.rs uses them | `Model/Url.lean`, `Model/Host.lean` |
| the maps of `ic-stable-structures` in which the provider keeps its mappings, and when they are loaded (lib.rs:92-102); the memory manager (lib.rs:83-84) | `Model/StableBTree.lean`, `Model/StableCanister.lean`; `Model/StableMemory.lean` |
| the `RefCell`s that hold the state: borrow, borrow_mut, conflicts | `Model/Cells.lean` |
| several `SiweManager` objects in one page | `Model/Managers.lean` |
| managers for different canisters | `Model/Canisters.lean` |
| siwe-provider.ts `createAnonymousActor`: options of the agent and the actor | `Model/Actor.lean` |
| delegation.ts `createDelegationChain` on typed arrays and others | `Model/ByteArrays.lean` |
| error.ts `normalizeError`: what is thrown and the message the app gets | `Model/Thrown.lean` |
| `ic_siwe_provider.did`, `ic_siwe_js/src/ic_siwe_provider.did.js`, the Rust argument and result types with their derived (de)serialisation | `Model/Interface.lean`; Candid's subtyping and coercion in `Model/Candid.lean`, its binary format in `Model/CandidWire.lean`, the check that texts are UTF-8 in `Model/Utf8.lean` |

### Taken as a parameter (`Model/Env.lean`; every theorem is for every choice)

SHA-256, SHA-224, Keccak-256 (any functions with 32-, 28-, 32-byte results), secp256k1 signature parsing and key recovery (modelled for C99 and C100: `Model/Secp256k1.lean`), whether a byte string
is DER (modelled for C103 and C104: `Model/Der.lean`), the URL parser (modelled down to hosts for C95: `Model/Url.lean`; the hosts for C105: `Model/Host.lean`), principal text parsing (modelled for C101 and C102: `Model/PrincipalText.lean`), the random generator, the canister's id (at most 29 bytes).

### Conformance tests

`Concrete/` implements those parameters in Lean (SHA-2, Keccak, ChaCha20, and, with the DER parser of `Model/Der.lean`, the signatures of `Model/Secp256k1.lean` and
the URL parser of `Model/Url.lean` and `Model/Host.lean` with IDNA simplified), and `Conformance/` evaluates the model on the inputs of the repository's own unit and integration tests and
compares with the results they expect. No theorem uses these modules: they are tests of the model's fidelity, with no weight as proofs.

### Not modelled

* parts of Candid: recursive, function, service and future types (a message whose arguments use them is unreadable here), and the
  decoder's limits on time, memory and skipped data. The Candid library itself is a dependency; what it makes of typed values is modelled by Candid's rules for
  subtyping and coercion (`Model/Candid.lean`, which says what is simplified), the binary format by the specification's grammar (`Model/CandidWire.lean`);
* instruction limits, memory limits and cycles (a call that exceeds them traps, which the model's `trap` covers as
  an outcome but does not predict), except for the memory for pending sign-ins and the loops over stored data (`Model/Limits.lean`, which
  says what is counted). The parsers taken as parameters are assumed not to trap; a call that a parser or the runtime
  does trap leaves no effect, so the other calls form a history the theorems quantify over;
* the bytes of the two mappings in stable memory: how a node is laid out and the allocator's free list
  (nodes at addresses are modelled, for C109, C110 and C118, and the memory manager that keeps two memories in one, on bytes, for C119, but not how the first uses the second; elsewhere the mappings are finite maps, which C110 justifies);
* the documentation and the build scripts;
* viem and @dfinity libraries (their calls settle with any answer the environment chooses; `toJSON` and `fromJSON` of @dfinity/identity
  are parameters of C85, modelled for C106), console output; the client has no notion of time (it never checks whether a stored identity has expired);
* the network around the canister: certificates, HTTP. That the subnet's certificate attests the certified data
  is not modelled; the theorems about verification (C29, C31, C51) compare against the certified data.

Schedules: no endpoint awaits, so a canister executes each call atomically, and every interleaving of users is one of the
histories the theorems quantify over. The only asynchronous part is the reply of `raw_rand`, which is an
operation of its own (`rngSeeded`) that can occur at any point of a history; C121 has the timer and the call before it (`Model/Startup.lean`) and shows that
what happens then is such a history. Crash points: a trap in any call, including
`init` and `post_upgrade`, is rolled back. Queries of the browser client may be answered by a replica that has executed only a first part
of the calls (`Happening.lagging`). Time stamps in a history are arbitrary; monotone time is a hypothesis only where stated.

Which setting influences what is settled for all settings of the provider, each by a simulation between two canisters on all pairs of
histories: the salt by C68, the URI by C24 and C144, domain, scheme, chain id and statement by C144, the sign-in time by C145, the session
length and the targets by C140, the mapping features by C139.

## Disagreements between the code and the property one would want

Each has a theorem proving that the wanted statement is false (a concrete history or value, evaluated by the kernel) and a `_partial`
theorem with what does hold.

* **C04** `convert_to_eip55` panics on strings of more than 64 characters after the prefix (`C04_convert_can_panic`).
* **C10** settings can contain line breaks in domain or uri, so two different sets of fields can give the same text
  (`C10_line_breaks_are_ambiguous`). The settings checks accept such values: a domain or URI with a line break passes whenever it passes without
  (`C95_line_breaks_ignored`, `C95_ambiguous_settings_accepted`).
  Only such pairs are ambiguous: with line breaks in the domains alone, or in the uris alone, the text still determines the fields
  (`C10_text_injective_partial`).
* **C12** `is_expired` is true as soon as a nanosecond has passed (`C12_expired_inside_validity`). The function is public; `login` does
  not use it.
* **C20** a session shorter than the time taken to sign is granted already expired (`C20_expired_delegation_granted`). This happens to some login exactly
  if sessions are configured shorter than sign-ins (`C20_exact`).
* **C23** lengths are hashed as one byte, so salts longer than 255 bytes are not separated (`C23_long_salt_same_identity`).
* **C28** a second login for the same delegation followed by pruning removes it early, and `is_expired` may look at the older entry
  (`C28_not_available`, `C28_removed_early`). It holds for accounts whose messages were issued at different times (`C28_different_times_partial`).
* **C29** a login that fails after pruning (bad session key) changes the signature tree without updating the certified data, so the
  answers of `siwe_get_delegation` do not verify until the next successful login (`C29_not_always`); they verify exactly as long as
  no signature has been removed since the last successful login (`C29_verifies_iff_nothing_removed`).
* **C41** `validate_domain` unwraps a missing host (`C41_panic_exists`, relative to what the URL parser returns; with the URL parser modelled, for every
  scheme but the web ones with an empty domain, `C95_other_schemes_panic`). Exactly which settings panic: `C41_panics_exactly`, an
  address with an authority but no host.
* **C48** prepared sign-ins are only pruned by logins (`C48_no_bound`). Where somebody tries to log in at regular intervals their number is
  bounded by the number issued in such an interval and the time for signing in (`C48_regular_logins_partial`).
* **C97**, **C98** consequences of C48 on a machine with limits: a memory full of expired sign-ins stays full for users who prepare before they
  log in (`C97_stays_full`), and if a call may look at fewer entries than there is memory for, every login can be made to trap
  (`C98_can_be_blocked`). With limits that allow for the whole memory only the first can happen (`C98_enough_partial`), and one login
  attempt ends it (`C97_freed_partial`).
* **C114** `clear()` updates the store, and so tells its subscribers, before it empties local storage: if the page ends in between (or a subscriber
  throws), the user who was shown as signed out is signed in again on the next page (`C114_not_at_sign_out`). `login()` has the right order.
* **C115** `clear()` does not reset the status of signing but drops its error, and a new `login()` drops the error too (`C115_not_reset`,
  `C115_error_missing`).
* **C121** the task that seeds the random generator unwraps the answer of `raw_rand` and is run once: if the timer is lost or the call is
  rejected, `siwe_prepare_login` traps until the next upgrade (`C121_stuck`).
* **C126** the signed text does not contain the session key: whoever presents a signature first, with whatever key, gets the session
  (`C126_not_bound`, `C126_any_key`). The signature is good for one session only, and its owner is then told `Message not found`.
* **C127** signing out only makes the page forget the session: nothing at the canister ends it, so requests signed with a copy of the identity
  are accepted until it expires, also after upgrades and new installations (`C127_not_ended`, `C127_nothing_ends_it`).
* **C128** one canister for several sites (README, `IncludeUriInSeed`): the seed is computed from the configuration when the login comes in,
  not from the message, so what a user signed at one site signs in to every other site of the canister as them (`C128_not_separate`,
  `C128_accepted_at_every_site`).
* **C130** the entry in local storage (`siweIdentity`) and the store in memory carry no canister id, so a manager for another canister displays
  the identity (`C130_not_its_own`, `C130_not_its_own_in_one_page`), whose delegations that canister did not issue.
* **C132** the page does not know when its message expires: one that was prepared when the page was loaded is put before the wallet however
  late the user presses the button (`C132_signs_expired`), and the login then fails with "Message not found" (`C132_in_vain`).
* **C141** the client takes `.buffer` of the arrays in the canister's replies: of a window on a larger buffer it takes the whole buffer, of an
  array of numbers nothing (`C141_other_arrays`); the types of the interface admit both.
* **C142** a wallet that rejects with a plain object, not an `Error`, is reported as "An unknown error occurred." (`C142_reason_lost`).
* **C143** an app built without `DFX_NETWORK=ic` checks answers under the key its host states, even if the app's options say not to (`C143_believes_the_host`); a canister id in the options for actors replaces the configured one (`C143_another_canister`).
* **C54** statements are only checked for line feeds, so a configured statement can be empty or contain characters the EIP-4361 grammar
  does not allow, and the issued texts then do not conform (`C54_not_always`, `C54_conforms_iff`, `C54_rfc3986`). A domain such as
  `http://a.com` is accepted, and the texts read as those of `a.com` with the scheme `http`.
* **C55** a prepared message is used by whatever account the wallet offers at `login()` (`C55_not_own_message`); the canister refuses
  the login. Both accounts were offered by the wallet (`C55_accounts_offered`).
* **C58** follows C29: a sign-in whose delegation is fetched after another user's refused login pruned signatures ends with a displayed
  identity whose chain does not verify (`C58_not_always`).
* **C60** a `login()` in flight signs the user in after `clear()` (`C60_not_always`), and nothing else does (`C60_exact`).
* **C61** the check for a login in progress comes before the first await and the status is set after the second, so two calls can pass;
  a rejected call sets the status to "error", which lets the next one pass (`C61_not_always`, `C61_rejected_login_unlocks`).
* **C62** a successful login keeps the consumed message, so the next `login()` without `clear()` has the wallet sign it again and is refused
  (`C62_not_after_success`). Apps that wait for each `login()` and call `clear()` before the next one are safe (`C61_app_waits_partial`,
  `C62_app_waits_partial`).
* **C69** the Vue provider copies the client's state when it is created, subscribes when it is mounted and misses what changed in between
  (`C69_vue_not_always`); its flags start as idle whatever the client's state, so a provider created again after a login says
  "success" and "idle" at once (`C69_vue_recreated`).
* **C70** the React wrapper sets the wallet when an account is connected and never unsets it (`C70_not_always`).
* **C75** an open tab goes on showing the identity after another tab signed out (`C75_not_everywhere`).
* **C76** a page shows the stored identity after its expiration (`C76_not_checked`).
* **C77** `chain_id` is published as `opt nat` (ic_siwe_provider.did:21, and so in the client) and read as `Option<u32>` (init_upgrade.rs:37).
  Candid reads an option of another type as absent, so a chain id that is sent as published is dropped and the default 1 is used
  (`C77_not_honoured`, `C77_chain_id_ignored`). The integration tests send the Rust type and do not see this.

Schedules of the client: JavaScript runs to the next await without interruption; every order in which awaits settle, any number of
overlapping calls, page reloads at any point and calls of other users are among the happenings the theorems quantify over.

## Axioms

All theorems in MANIFEST.json depend on `propext`, `Classical.choice` and `Quot.sound`, except:

* these need only `propext` and `Quot.sound`: C03_only_case_changes, C03_case_insensitive, C03_idempotent, C11_prepared_message,
  C13_insert_get, C13_remove_get, C24_without_feature, C24_with_feature, C24_uri_matters, C25_key_reads_back, C25_key_injective, C25_oid_reads_back,
  C79_subtyping, C128_identities_differ, C141_fails;
* these need only `propext`: C12_exact, C13_preimage_injective, C26_create, C26_errors;
* this needs none: C141_other_arrays.
