{
 "claims": [
  {
   "property": "C01",
   "status": "proved",
   "theorems": [
    "Siwe.C01_accepted_iff",
    "Siwe.C01_value",
    "Siwe.C01_no_panic",
    "Siwe.C01_errors"
   ],
   "note": ""
  },
  {
   "property": "C02",
   "status": "proved",
   "theorems": [
    "Siwe.C02_bytes_determine_string",
    "Siwe.C02_every_value_spelled",
    "Siwe.C02_bytes_exact"
   ],
   "note": ""
  },
  {
   "property": "C03",
   "status": "proved",
   "theorems": [
    "Siwe.C03_only_case_changes",
    "Siwe.C03_case_insensitive",
    "Siwe.C03_idempotent"
   ],
   "note": ""
  },
  {
   "property": "C04",
   "status": "partial",
   "theorems": [
    "Siwe.C04_convert_can_panic",
    "Siwe.C04_panic_iff",
    "Siwe.C04_no_panic_partial"
   ],
   "note": "False of the code for inputs longer than 64 bytes after 0x (index panic): negation proved, partial theorem covers the rest."
  },
  {
   "property": "C05",
   "status": "proved",
   "theorems": [
    "Siwe.C05_accepted_iff",
    "Siwe.C05_new_no_panic",
    "Siwe.C05_use_no_panic",
    "Siwe.C05_errors"
   ],
   "note": ""
  },
  {
   "property": "C06",
   "status": "proved",
   "theorems": [
    "Siwe.C06_recovery_id",
    "Siwe.C06_recovered_address"
   ],
   "note": ""
  },
  {
   "property": "C07",
   "status": "proved",
   "theorems": [
    "Siwe.C07_is_personal_message",
    "Siwe.C07_injective",
    "Siwe.C07_spec_injective"
   ],
   "note": ""
  },
  {
   "property": "C08",
   "status": "proved",
   "theorems": [
    "Siwe.C08_roundtrip",
    "Siwe.C08_decode_iff",
    "Siwe.C08_decode_accepts",
    "Siwe.C08_render"
   ],
   "note": ""
  },
  {
   "property": "C09",
   "status": "proved",
   "theorems": [
    "Siwe.C09_text_total",
    "Siwe.C09_timestamp_exact"
   ],
   "note": ""
  },
  {
   "property": "C10",
   "status": "partial",
   "theorems": [
    "Siwe.C10_text_injective_one_config",
    "Siwe.C10_text_injective_one_line_partial",
    "Siwe.C10_address_one_line",
    "Siwe.C10_line_breaks_are_ambiguous",
    "Siwe.C10_ambiguous_settings_accepted",
    "Siwe.C10_text_injective_partial",
    "Siwe.C10_issued_texts_partial"
   ],
   "note": "Proved in full for one configuration. Across configurations it is false of the code when one has line breaks in its domain and one in its uri: negation proved; proved for all other pairs, that is if both domains or both uris are one line (C10_text_injective_partial, and for any two canisters after any calls C10_issued_texts_partial). Chain id, nonce and time are determined in any case."
  },
  {
   "property": "C11",
   "status": "proved",
   "theorems": [
    "Siwe.C11_prepared_message",
    "Siwe.C11_reply",
    "Siwe.C11_reply_text"
   ],
   "note": ""
  },
  {
   "property": "C12",
   "status": "partial",
   "theorems": [
    "Siwe.C12_expired_inside_validity",
    "Siwe.C12_exact",
    "Siwe.C12_agreement_partial"
   ],
   "note": "False of the code: is_expired is true at any time after issuance. Negation proved, exact behaviour characterised."
  },
  {
   "property": "C13",
   "status": "proved",
   "theorems": [
    "Siwe.C13_key_injective",
    "Siwe.C13_preimage_injective",
    "Siwe.C13_insert_get",
    "Siwe.C13_insert_other",
    "Siwe.C13_remove_get",
    "Siwe.C13_remove_other",
    "Siwe.C13_no_panic"
   ],
   "note": ""
  },
  {
   "property": "C14",
   "status": "proved",
   "theorems": [
    "Siwe.C14_decision",
    "Siwe.C14_one_answer",
    "Siwe.C14_success_iff"
   ],
   "note": ""
  },
  {
   "property": "C15",
   "status": "proved",
   "theorems": [
    "Siwe.C15_login_needs_a_signed_fresh_message"
   ],
   "note": ""
  },
  {
   "property": "C16",
   "status": "proved",
   "theorems": [
    "Siwe.C16_no_replay",
    "Siwe.C16_one_attempt"
   ],
   "note": ""
  },
  {
   "property": "C17",
   "status": "proved",
   "theorems": [
    "Siwe.C17_expired_never_logs_in",
    "Siwe.C17_expired_removed"
   ],
   "note": ""
  },
  {
   "property": "C18",
   "status": "proved",
   "theorems": [
    "Siwe.C18_failure_grants_nothing",
    "Siwe.C18_others_keep_their_messages"
   ],
   "note": ""
  },
  {
   "property": "C19",
   "status": "proved",
   "theorems": [
    "Siwe.C19_expiration"
   ],
   "note": ""
  },
  {
   "property": "C20",
   "status": "partial",
   "theorems": [
    "Siwe.C20_exact",
    "Siwe.C20_expired_delegation_granted",
    "Siwe.C20_unexpired_partial"
   ],
   "note": "False of the code: a session shorter than the sign-in period can be granted already expired; negation proved. Proved when the session period is at least the sign-in period, and that this is exactly the condition (C20_exact)."
  },
  {
   "property": "C21",
   "status": "proved",
   "theorems": [
    "Siwe.C21_same_address_same_identity"
   ],
   "note": ""
  },
  {
   "property": "C22",
   "status": "proved",
   "theorems": [
    "Siwe.C22_keys_differ",
    "Siwe.C22_principals_differ",
    "Siwe.C22_logins_differ"
   ],
   "note": ""
  },
  {
   "property": "C23",
   "status": "partial",
   "theorems": [
    "Siwe.C23_seed_separates_partial",
    "Siwe.C23_seeds_differ_partial",
    "Siwe.C23_collides_iff",
    "Siwe.C23_long_salt_same_identity",
    "Siwe.C23_long_salt_accepted"
   ],
   "note": "Proved for salts of at most 255 bytes. Without the bound it is false of the code (the length byte wraps): two accepted configurations giving two addresses the same seed are exhibited; and proved exactly which configurations coincide, for any lengths (C23_collides_iff)."
  },
  {
   "property": "C24",
   "status": "proved",
   "theorems": [
    "Siwe.C24_without_feature",
    "Siwe.C24_with_feature",
    "Siwe.C24_uri_matters"
   ],
   "note": ""
  },
  {
   "property": "C25",
   "status": "proved",
   "theorems": [
    "Siwe.C25_key_reads_back",
    "Siwe.C25_key_injective",
    "Siwe.C25_oid_reads_back"
   ],
   "note": ""
  },
  {
   "property": "C26",
   "status": "proved",
   "theorems": [
    "Siwe.C26_create",
    "Siwe.C26_errors",
    "Siwe.C26_get_delegation"
   ],
   "note": ""
  },
  {
   "property": "C27",
   "status": "proved",
   "theorems": [
    "Siwe.C27_needs_recent_login"
   ],
   "note": ""
  },
  {
   "property": "C28",
   "status": "partial",
   "theorems": [
    "Siwe.C28_available_partial",
    "Siwe.C28_single_login_partial",
    "Siwe.C28_not_available",
    "Siwe.C28_removed_early",
    "Siwe.C28_boundary",
    "Siwe.C28_different_times_partial"
   ],
   "note": "False of the code: a delegation can stop being retrievable early (repeated login for the same delegation leaves an older queue entry that is found first / prunes the signature). Negations proved, exact boundary proved, partial theorems for a single grant and for accounts whose messages were issued at different times."
  },
  {
   "property": "C29",
   "status": "partial",
   "theorems": [
    "Siwe.C29_verifies_iff_certified",
    "Siwe.C29_verifies_partial",
    "Siwe.C29_not_always",
    "Siwe.C29_verifies_iff_nothing_removed"
   ],
   "note": "False of the code: a refused login may prune signatures without refreshing the certified data, after which fetched delegations fail verification until the next login. Negation proved; proved in full when no such refusal lies between; and proved exactly: since the last login delegations verify if and only if no signature was removed, unless a SHA-256 collision is exhibited (C29_verifies_iff_nothing_removed)."
  },
  {
   "property": "C30",
   "status": "proved",
   "theorems": [
    "Siwe.C30_login_certifies",
    "Siwe.C30_others_do_not"
   ],
   "note": ""
  },
  {
   "property": "C31",
   "status": "proved",
   "theorems": [
    "Siwe.C31_no_forgery",
    "Siwe.C31_no_forgery_by_lookup"
   ],
   "note": ""
  },
  {
   "property": "C32",
   "status": "proved",
   "theorems": [
    "Siwe.C32_witness_is_consistent",
    "Siwe.C32_no_witness_hash_mismatch"
   ],
   "note": ""
  },
  {
   "property": "C33",
   "status": "proved",
   "theorems": [
    "Siwe.C33_delegation_hash",
    "Siwe.C33_total",
    "Siwe.C33_order_independent"
   ],
   "note": ""
  },
  {
   "property": "C34",
   "status": "proved",
   "theorems": [
    "Siwe.C34_delegation_hash_injective",
    "Siwe.C34_few_strings"
   ],
   "note": ""
  },
  {
   "property": "C35",
   "status": "proved",
   "theorems": [
    "Siwe.C35_leb128",
    "Siwe.C35_hash",
    "Siwe.C35_injective"
   ],
   "note": ""
  },
  {
   "property": "C36",
   "status": "proved",
   "theorems": [
    "Siwe.C36_signature_map_is_a_set_with_expiry"
   ],
   "note": ""
  },
  {
   "property": "C37",
   "status": "proved",
   "theorems": [
    "Siwe.C37_prune_removes_what_is_due"
   ],
   "note": ""
  },
  {
   "property": "C38",
   "status": "proved",
   "theorems": [
    "Siwe.C38_every_signature_will_expire",
    "Siwe.C38_not_retrievable_for_ever"
   ],
   "note": ""
  },
  {
   "property": "C39",
   "status": "proved",
   "theorems": [
    "Siwe.C39_no_empty_submaps"
   ],
   "note": ""
  },
  {
   "property": "C40",
   "status": "proved",
   "theorems": [
    "Siwe.C40_accepts",
    "Siwe.C40_rejects"
   ],
   "note": ""
  },
  {
   "property": "C41",
   "status": "partial",
   "theorems": [
    "Siwe.C41_panics_iff",
    "Siwe.C41_panic_exists",
    "Siwe.C41_http_no_panic_partial",
    "Siwe.C41_panics_exactly",
    "Siwe.C41_special_schemes_safe",
    "Siwe.C41_other_schemes"
   ],
   "note": "False of the code: build panics exactly when the URL parser finds an authority without host in scheme://domain (C41_panics_iff), and with the URL parser modelled exactly for the settings of C41_panics_exactly. Proved panic-free for http and https under the URL standard's guarantee, and in that model for all schemes that must have a host."
  },
  {
   "property": "C42",
   "status": "proved",
   "theorems": [
    "Siwe.C42_settings_in_force",
    "Siwe.C42_install",
    "Siwe.C42_upgrade",
    "Siwe.C42_otherwise_trap",
    "Siwe.C42_determined"
   ],
   "note": ""
  },
  {
   "property": "C43",
   "status": "proved",
   "theorems": [
    "Siwe.C43_get_address",
    "Siwe.C43_get_caller_address",
    "Siwe.C43_caller_is_address",
    "Siwe.C43_get_principal"
   ],
   "note": ""
  },
  {
   "property": "C44",
   "status": "proved",
   "theorems": [
    "Siwe.C44_one_to_one",
    "Siwe.C44_principal_determined",
    "Siwe.C44_after_login"
   ],
   "note": ""
  },
  {
   "property": "C45",
   "status": "proved",
   "theorems": [
    "Siwe.C45_get_address_disabled",
    "Siwe.C45_get_principal_disabled",
    "Siwe.C45_enabled",
    "Siwe.C45_not_recorded"
   ],
   "note": ""
  },
  {
   "property": "C46",
   "status": "proved",
   "theorems": [
    "Siwe.C46_mappings_survive",
    "Siwe.C46_state",
    "Siwe.C46_messages_gone",
    "Siwe.C46_delegations_gone",
    "Siwe.C46_prepare_waits_for_randomness"
   ],
   "note": ""
  },
  {
   "property": "C47",
   "status": "proved",
   "theorems": [
    "Siwe.C47_queries_invisible",
    "Siwe.C47_traps_invisible",
    "Siwe.C47_when_it_traps"
   ],
   "note": ""
  },
  {
   "property": "C48",
   "status": "partial",
   "theorems": [
    "Siwe.C48_at_most_issued_partial",
    "Siwe.C48_growth_partial",
    "Siwe.C48_login_clears_partial",
    "Siwe.C48_no_bound",
    "Siwe.C48_since_login_partial",
    "Siwe.C48_regular_logins_partial"
   ],
   "note": "False of the code: prepare_login never removes expired messages. Negation proved for every size up to the 2^80 nonces; growth bounds and clearing by login proved."
  },
  {
   "property": "C49",
   "status": "proved",
   "theorems": [
    "Siwe.C49_others_do_not_interfere",
    "Siwe.C49_still_usable",
    "Siwe.C49_cannot_create"
   ],
   "note": ""
  },
  {
   "property": "C50",
   "status": "proved",
   "theorems": [
    "Siwe.C50_signature_reads_back",
    "Siwe.C50_signature_injective"
   ],
   "note": ""
  },
  {
   "property": "C51",
   "status": "proved",
   "theorems": [
    "Siwe.C51_only_logins_verify"
   ],
   "note": ""
  },
  {
   "property": "C52",
   "status": "proved",
   "theorems": [
    "Siwe.C52_decision",
    "Siwe.C52_one_answer"
   ],
   "note": ""
  },
  {
   "property": "C53",
   "status": "proved",
   "theorems": [
    "Siwe.C53_sign_in_works"
   ],
   "note": ""
  },
  {
   "property": "C54",
   "status": "partial",
   "theorems": [
    "Siwe.C54_conforms_partial",
    "Siwe.C54_reads_back",
    "Siwe.C54_conforms_iff",
    "Siwe.C54_not_always",
    "Siwe.C54_rfc3986",
    "Siwe.C54_rfc3986_reads_back"
   ],
   "note": "False of the code: the settings check accepts statements the EIP does not; negation proved. Reading back is proved in full for settings whose domain is an authority and whose uri is a URI of RFC 3986. Conformance is proved exactly, with RFC 3986's grammar: for one-line settings the texts conform if and only if the domain is an authority (possibly behind a scheme), the uri a URI and the statement as the EIP asks (C54_rfc3986)."
  },
  {
   "property": "C55",
   "status": "partial",
   "theorems": [
    "Siwe.C55_only_issued_texts",
    "Siwe.C55_own_message_partial",
    "Siwe.C55_not_own_message",
    "Siwe.C55_accounts_offered"
   ],
   "note": "Proved in full that only issued texts are signed. That the signing account is the one the text was issued for is false of the code (account switched after prepareLogin): negation proved; proved when the wallet offers one account. In general both accounts were offered first by the wallet (C55_accounts_offered), so they differ only if the wallet's account changed."
  },
  {
   "property": "C56",
   "status": "proved",
   "theorems": [
    "Siwe.C56_fresh_session_keys"
   ],
   "note": ""
  },
  {
   "property": "C57",
   "status": "proved",
   "theorems": [
    "Siwe.C57_identity_provenance"
   ],
   "note": ""
  },
  {
   "property": "C58",
   "status": "partial",
   "theorems": [
    "Siwe.C58_identity_verifies_partial",
    "Siwe.C58_not_always",
    "Siwe.C58_identity_verifies_iff"
   ],
   "note": "False of the code (as C29): a login refused for its session key between the page's login and its query leaves the displayed identity with a chain the IC rejects; negation proved. Proved with the proviso that no such refusal pruned signatures. Exactly: the chain verified iff the certified data was the digest of the signature tree (C58_identity_verifies_iff, with C29_verifies_iff_nothing_removed)."
  },
  {
   "property": "C59",
   "status": "proved",
   "theorems": [
    "Siwe.C59_survives_reload"
   ],
   "note": ""
  },
  {
   "property": "C60",
   "status": "partial",
   "theorems": [
    "Siwe.C60_signed_out_partial",
    "Siwe.C60_not_always",
    "Siwe.C60_exact"
   ],
   "note": "False of the code when a login is running while clear() is called: negation proved. Proved when none is running, and exactly: after clear() somebody is displayed before the next login() iff a login running at the time of clear() completes (C60_exact)."
  },
  {
   "property": "C61",
   "status": "partial",
   "theorems": [
    "Siwe.C61_second_login_rejected_partial",
    "Siwe.C61_not_always",
    "Siwe.C61_rejected_login_unlocks",
    "Siwe.C61_app_waits_partial"
   ],
   "note": "False of the code: two login() calls can both pass the check, and a rejected login() unlocks it. Negations proved; proved once the status says a call is in progress, and for apps that wait for each login() (C61_app_waits_partial)."
  },
  {
   "property": "C62",
   "status": "partial",
   "theorems": [
    "Siwe.C62_failure_forgets_message_partial",
    "Siwe.C62_fetches_new_message_partial",
    "Siwe.C62_not_after_success",
    "Siwe.C62_app_waits_partial"
   ],
   "note": "False of the code after a successful login without clear(): negation proved. Proved for every failed login, for login() with no message at hand, and for every history of an app that waits for each login() and calls clear() before the next (C62_app_waits_partial)."
  },
  {
   "property": "C63",
   "status": "proved",
   "theorems": [
    "Siwe.C63_login_signs_in",
    "Siwe.C63_prepared_login_signs_in",
    "Siwe.C63_possible_again"
   ],
   "note": ""
  },
  {
   "property": "C64",
   "status": "proved",
   "theorems": [
    "Siwe.C64_status_truthful",
    "Siwe.C64_returned_identity_displayed"
   ],
   "note": ""
  },
  {
   "property": "C65",
   "status": "proved",
   "theorems": [
    "Siwe.C65_which_wallet_signs",
    "Siwe.C65_no_wallet"
   ],
   "note": ""
  },
  {
   "property": "C66",
   "status": "proved",
   "theorems": [
    "Siwe.C66_prepare_error_reported",
    "Siwe.C66_fetch_error_reported",
    "Siwe.C66_login_error_reported",
    "Siwe.C66_lagging_error_reported",
    "Siwe.C66_errors_are_the_canisters"
   ],
   "note": ""
  },
  {
   "property": "C67",
   "status": "proved",
   "theorems": [
    "Siwe.C67_text_gives_reason",
    "Siwe.C67_possible_reasons",
    "Siwe.C67_text_is_printable"
   ],
   "note": ""
  },
  {
   "property": "C68",
   "status": "proved",
   "theorems": [
    "Siwe.C68_messages",
    "Siwe.C68_logins",
    "Siwe.C68_installs"
   ],
   "note": ""
  },
  {
   "property": "C69",
   "status": "partial",
   "theorems": [
    "Siwe.C69_react",
    "Siwe.C69_vue_not_always",
    "Siwe.C69_vue_recreated",
    "Siwe.C69_vue_shows_partial",
    "Siwe.C69_vue_from_first_update_partial",
    "Siwe.C69_vue_exact_partial"
   ],
   "note": "Proved in full for React. False of the code for Vue (changes before mounting are missed; a re-created provider shows idle flags): negations proved. Proved for Vue when nothing changed until the mounting, and from the first update on."
  },
  {
   "property": "C70",
   "status": "partial",
   "theorems": [
    "Siwe.C70_not_always",
    "Siwe.C70_connected_wallet_signs_partial",
    "Siwe.C70_last_connected_signs_partial"
   ],
   "note": "False of the code after disconnecting the wallet: negation proved. Proved while an account is connected."
  },
  {
   "property": "C71",
   "status": "proved",
   "theorems": [
    "Siwe.C71_whoami_is_the_caller",
    "Siwe.C71_whoami_answers",
    "Siwe.C71_whoami_after_login",
    "Siwe.C71_whoami_total"
   ],
   "note": ""
  },
  {
   "property": "C72",
   "status": "proved",
   "theorems": [
    "Siwe.C72_get_address",
    "Siwe.C72_get_caller_address",
    "Siwe.C72_get_principal",
    "Siwe.C72_unique"
   ],
   "note": ""
  },
  {
   "property": "C73",
   "status": "proved",
   "theorems": [
    "Siwe.C73_every_call_settles",
    "Siwe.C73_settles_once"
   ],
   "note": ""
  },
  {
   "property": "C74",
   "status": "proved",
   "theorems": [
    "Siwe.C74_busy_truthfully",
    "Siwe.C74_not_stuck"
   ],
   "note": ""
  },
  {
   "property": "C75",
   "status": "partial",
   "theorems": [
    "Siwe.C75_tab_provenance",
    "Siwe.C75_fresh_session_keys",
    "Siwe.C75_standing",
    "Siwe.C75_new_tab",
    "Siwe.C75_another_manager",
    "Siwe.C75_signed_out_partial",
    "Siwe.C75_not_everywhere"
   ],
   "note": "Proved in full for what new and reloaded tabs display, provenance and session keys. That open tabs follow a sign-out in another tab is false of the code: negation proved; proved for the tab itself and later tabs when no login is running."
  },
  {
   "property": "C76",
   "status": "partial",
   "theorems": [
    "Siwe.C76_unexpired_at_login_partial",
    "Siwe.C76_not_checked"
   ],
   "note": "False of the code: a stored identity is displayed after its expiration. Negation proved; proved for the time of the login, with C20's proviso."
  },
  {
   "property": "C77",
   "status": "partial",
   "theorems": [
    "Siwe.C77_received_partial",
    "Siwe.C77_chain_id_ignored",
    "Siwe.C77_honoured_partial",
    "Siwe.C77_not_honoured",
    "Siwe.C77_always_chain_one"
   ],
   "note": "False of the code: chain_id is published as opt nat and read as Option<u32>, so it is dropped and the default 1 is used; negation proved. Proved: every other setting is honoured, and a configuration is honoured exactly when chain_id is left out or 1."
  },
  {
   "property": "C78",
   "status": "proved",
   "theorems": [
    "Siwe.C78_same_methods",
    "Siwe.C78_labels",
    "Siwe.C78_calls",
    "Siwe.C78_replies",
    "Siwe.C78_told_apart"
   ],
   "note": ""
  },
  {
   "property": "C79",
   "status": "proved",
   "theorems": [
    "Siwe.C79_calls",
    "Siwe.C79_subtyping",
    "Siwe.C79_settings",
    "Siwe.C79_refused"
   ],
   "note": ""
  },
  {
   "property": "C80",
   "status": "proved",
   "theorems": [
    "Siwe.C80_only_calls"
   ],
   "note": ""
  },
  {
   "property": "C81",
   "status": "proved",
   "theorems": [
    "Siwe.C81_signs_only_grants",
    "Siwe.C81_requests_come_from_logins",
    "Siwe.C81_session_is_accepted"
   ],
   "note": ""
  },
  {
   "property": "C82",
   "status": "proved",
   "theorems": [
    "Siwe.C82_through_reconfigurations",
    "Siwe.C82_app_learns_the_signer"
   ],
   "note": ""
  },
  {
   "property": "C83",
   "status": "proved",
   "theorems": [
    "Siwe.C83_another_manager",
    "Siwe.C83_identity_provenance",
    "Siwe.C83_fresh_session_keys",
    "Siwe.C83_which_wallet_signs",
    "Siwe.C83_signed_out"
   ],
   "note": ""
  },
  {
   "property": "C84",
   "status": "proved",
   "theorems": [
    "Siwe.C84_display_is_json",
    "Siwe.C84_display_only",
    "Siwe.C84_display_determines"
   ],
   "note": ""
  },
  {
   "property": "C85",
   "status": "proved",
   "theorems": [
    "Siwe.C85_which_texts",
    "Siwe.C85_rewriting",
    "Siwe.C85_parse",
    "Siwe.C85_saved_is_loaded",
    "Siwe.C85_loads_last_login",
    "Siwe.C85_displays_what_is_stored"
   ],
   "note": ""
  },
  {
   "property": "C86",
   "status": "proved",
   "theorems": [
    "Siwe.C86_prepare_answer",
    "Siwe.C86_login_decision",
    "Siwe.C86_one_answer",
    "Siwe.C86_login_needs_a_signed_fresh_message",
    "Siwe.C86_no_replay"
   ],
   "note": ""
  },
  {
   "property": "C87",
   "status": "proved",
   "theorems": [
    "Siwe.C87_pairs_come_from_puts",
    "Siwe.C87_entries_come_from_puts",
    "Siwe.C87_witness_answer",
    "Siwe.C87_witness_needs_recent_put",
    "Siwe.C87_put_is_served",
    "Siwe.C87_other_maps_untouched"
   ],
   "note": ""
  },
  {
   "property": "C88",
   "status": "proved",
   "theorems": [
    "Siwe.C88_provider_embeds_the_library"
   ],
   "note": ""
  },
  {
   "property": "C89",
   "status": "proved",
   "theorems": [
    "Siwe.C89_answer"
   ],
   "note": ""
  },
  {
   "property": "C90",
   "status": "proved",
   "theorems": [
    "Siwe.C90_only_the_seed_matters",
    "Siwe.C90_nonces_differ"
   ],
   "note": ""
  },
  {
   "property": "C91",
   "status": "proved",
   "theorems": [
    "Siwe.C91_answer",
    "Siwe.C91_same_calls_same_answer",
    "Siwe.C91_only_answer",
    "Siwe.C91_success_iff"
   ],
   "note": ""
  },
  {
   "property": "C92",
   "status": "proved",
   "theorems": [
    "Siwe.C92_identities_differ",
    "Siwe.C92_no_other_canister_signs",
    "Siwe.C92_texts_name_the_domain",
    "Siwe.C92_signed_for_this_app",
    "Siwe.C92_signed_for_these_settings"
   ],
   "note": ""
  },
  {
   "property": "C93",
   "status": "proved",
   "theorems": [
    "Siwe.C93_map_follows_calls",
    "Siwe.C93_one_list",
    "Siwe.C93_answer",
    "Siwe.C93_bounded",
    "Siwe.C93_login_clears"
   ],
   "note": ""
  },
  {
   "property": "C94",
   "status": "proved",
   "theorems": [
    "Siwe.C94_refines",
    "Siwe.C94_no_choice"
   ],
   "note": ""
  },
  {
   "property": "C95",
   "status": "proved",
   "theorems": [
    "Siwe.C95_rfc3986_domain",
    "Siwe.C95_rfc3986_uri",
    "Siwe.C95_rfc3986_accepted",
    "Siwe.C95_domain_exact",
    "Siwe.C95_uri_exact",
    "Siwe.C95_web_never_panics",
    "Siwe.C95_line_breaks_ignored",
    "Siwe.C95_anything_behind_the_host",
    "Siwe.C95_ambiguous_settings_accepted",
    "Siwe.C95_other_schemes_panic",
    "Siwe.C95_accepted_exactly",
    "Siwe.C95_uri_any_scheme"
   ],
   "note": ""
  },
  {
   "property": "C96",
   "status": "proved",
   "theorems": [
    "Siwe.C96_no_conflict",
    "Siwe.C96_released",
    "Siwe.C96_same",
    "Siwe.C96_library",
    "Siwe.C96_library_released"
   ],
   "note": ""
  },
  {
   "property": "C97",
   "status": "partial",
   "theorems": [
    "Siwe.C97_stays_full",
    "Siwe.C97_room_partial",
    "Siwe.C97_freed_partial"
   ],
   "note": "False of the code: prepare_login never removes expired sign-ins, so a memory full of expired ones stays full as long as users prepare before they log in; negation proved for every size up to the 2^80 nonces. Proved: with room left nothing changes, and one well-formed login attempt makes room."
  },
  {
   "property": "C98",
   "status": "partial",
   "theorems": [
    "Siwe.C98_work",
    "Siwe.C98_looks_at_what_it_drops",
    "Siwe.C98_blocked",
    "Siwe.C98_can_be_blocked",
    "Siwe.C98_enough_partial",
    "Siwe.C98_within_limits_partial"
   ],
   "note": "False of the code: login looks at every pending sign-in. Negation proved: with memory for more sign-ins than a call may look at, logins can be blocked for ever. Proved: the exact work of each call, and that limits that allow for the whole memory change nothing."
  },
  {
   "property": "C99",
   "status": "proved",
   "theorems": [
    "Siwe.C99_accepted_iff",
    "Siwe.C99_login_iff",
    "Siwe.C99_wallet_signs_in",
    "Siwe.C99_every_key"
   ],
   "note": ""
  },
  {
   "property": "C100",
   "status": "proved",
   "theorems": [
    "Siwe.C100_one_signer",
    "Siwe.C100_own_address",
    "Siwe.C100_one_text",
    "Siwe.C100_not_malleable"
   ],
   "note": ""
  },
  {
   "property": "C101",
   "status": "proved",
   "theorems": [
    "Siwe.C101_read",
    "Siwe.C101_one_text",
    "Siwe.C101_print",
    "Siwe.C101_refused",
    "Siwe.C101_delegations"
   ],
   "note": ""
  },
  {
   "property": "C102",
   "status": "proved",
   "theorems": [
    "Siwe.C102_misprint",
    "Siwe.C102_refused"
   ],
   "note": ""
  },
  {
   "property": "C103",
   "status": "proved",
   "theorems": [
    "Siwe.C103_login_iff",
    "Siwe.C103_refused",
    "Siwe.C103_public_keys",
    "Siwe.C103_app_keys",
    "Siwe.C103_truncated",
    "Siwe.C103_trailing"
   ],
   "note": ""
  },
  {
   "property": "C104",
   "status": "proved",
   "theorems": [
    "Siwe.C104_login_signs_in"
   ],
   "note": ""
  },
  {
   "property": "C105",
   "status": "proved",
   "theorems": [
    "Siwe.C105_domain_exact",
    "Siwe.C105_uri_exact",
    "Siwe.C105_other_uri",
    "Siwe.C105_site_accepted",
    "Siwe.C105_site_uri",
    "Siwe.C105_dotted",
    "Siwe.C105_names",
    "Siwe.C105_panics_exactly",
    "Siwe.C105_ambiguous_accepted"
   ],
   "note": ""
  },
  {
   "property": "C106",
   "status": "proved",
   "theorems": [
    "Siwe.C106_chain_restored",
    "Siwe.C106_key_restored",
    "Siwe.C106_long_enough",
    "Siwe.C106_saved_is_loaded",
    "Siwe.C106_loads_last_login",
    "Siwe.C106_displays_what_is_stored",
    "Siwe.C106_chain_texts",
    "Siwe.C106_key_texts"
   ],
   "note": ""
  },
  {
   "property": "C107",
   "status": "proved",
   "theorems": [
    "Siwe.C107_read",
    "Siwe.C107_unambiguous",
    "Siwe.C107_sendable",
    "Siwe.C107_typed",
    "Siwe.C107_calls",
    "Siwe.C107_requests",
    "Siwe.C107_one_request",
    "Siwe.C107_configuration",
    "Siwe.C107_configurations",
    "Siwe.C107_replies",
    "Siwe.C107_history"
   ],
   "note": ""
  },
  {
   "property": "C108",
   "status": "proved",
   "theorems": [
    "Siwe.C108_received",
    "Siwe.C108_refusals",
    "Siwe.C108_replies",
    "Siwe.C108_conversation"
   ],
   "note": ""
  },
  {
   "property": "C109",
   "status": "proved",
   "theorems": [
    "Siwe.C109_map",
    "Siwe.C109_upgrade",
    "Siwe.C109_size"
   ],
   "note": ""
  },
  {
   "property": "C110",
   "status": "proved",
   "theorems": [
    "Siwe.C110_replies",
    "Siwe.C110_answers"
   ],
   "note": ""
  },
  {
   "property": "C111",
   "status": "proved",
   "theorems": [
    "Siwe.C111_understood",
    "Siwe.C111_only_the_owner"
   ],
   "note": ""
  },
  {
   "property": "C112",
   "status": "proved",
   "theorems": [
    "Siwe.C112_signing_in_works",
    "Siwe.C112_answers"
   ],
   "note": ""
  },
  {
   "property": "C113",
   "status": "proved",
   "theorems": [
    "Siwe.C113_last",
    "Siwe.C113_whole",
    "Siwe.C113_truthful",
    "Siwe.C113_initializing"
   ],
   "note": ""
  },
  {
   "property": "C114",
   "status": "partial",
   "theorems": [
    "Siwe.C114_told_survives_partial",
    "Siwe.C114_before_or_after_partial",
    "Siwe.C114_not_at_sign_out"
   ],
   "note": "False of the code: clear() tells subscribers before it empties local storage; negation proved. Proved for everything but clear(), and that a crash leaves the state before or after the step."
  },
  {
   "property": "C115",
   "status": "partial",
   "theorems": [
    "Siwe.C115_error_missing",
    "Siwe.C115_not_reset",
    "Siwe.C115_reset_partial",
    "Siwe.C115_error_given_partial"
   ],
   "note": "False of the code: clear() and a new login() drop the error of signing but keep its status; negations proved. Proved: everything else is reset, and only these two drop the error."
  },
  {
   "property": "C116",
   "status": "proved",
   "theorems": [
    "Siwe.C116_signs_in",
    "Siwe.C116_stale_fails",
    "Siwe.C116_up_to_date"
   ],
   "note": ""
  },
  {
   "property": "C117",
   "status": "proved",
   "theorems": [
    "Siwe.C117_told_the_account_shown",
    "Siwe.C117_is_told",
    "Siwe.C117_requests_accepted",
    "Siwe.C117_through_reconfigurations",
    "Siwe.C117_is_told_through_upgrades"
   ],
   "note": ""
  },
  {
   "property": "C118",
   "status": "proved",
   "theorems": [
    "Siwe.C118_grows_with_users",
    "Siwe.C118_counts_users_once",
    "Siwe.C118_only_logins"
   ],
   "note": ""
  },
  {
   "property": "C119",
   "status": "proved",
   "theorems": [
    "Siwe.C119_reads",
    "Siwe.C119_writes",
    "Siwe.C119_grows",
    "Siwe.C119_upgrade",
    "Siwe.C119_apart",
    "Siwe.C119_mappings"
   ],
   "note": ""
  },
  {
   "property": "C120",
   "status": "proved",
   "theorems": [
    "Siwe.C120_built",
    "Siwe.C120_refused",
    "Siwe.C120_asks_once",
    "Siwe.C120_any_order",
    "Siwe.C120_canister"
   ],
   "note": ""
  },
  {
   "property": "C121",
   "status": "partial",
   "theorems": [
    "Siwe.Startup.C121_history",
    "Siwe.Startup.C121_seeds_once",
    "Siwe.Startup.C121_ready_exactly",
    "Siwe.Startup.C121_nonces",
    "Siwe.Startup.C121_stuck",
    "Siwe.Startup.C121_becomes_ready_partial"
   ],
   "note": "That the canister becomes ready without intervention is false of the code: a lost timer or a rejected raw_rand is final until the next upgrade (C121_stuck). Everything else is proved in full, and readiness as long as neither has happened."
  },
  {
   "property": "C122",
   "status": "proved",
   "theorems": [
    "Siwe.C122_stored",
    "Siwe.C122_served",
    "Siwe.C122_needed"
   ],
   "note": ""
  },
  {
   "property": "C123",
   "status": "proved",
   "theorems": [
    "Siwe.C123_owner_signed",
    "Siwe.C123_session_over",
    "Siwe.C123_never_signed",
    "Siwe.C123_through_reconfigurations",
    "Siwe.C123_never_signed_reconfigured"
   ],
   "note": ""
  },
  {
   "property": "C124",
   "status": "proved",
   "theorems": [
    "Siwe.C124_draws",
    "Siwe.C124_blind",
    "Siwe.C124_guesses",
    "Siwe.C124_sign_in"
   ],
   "note": ""
  },
  {
   "property": "C125",
   "status": "proved",
   "theorems": [
    "Siwe.C125_login",
    "Siwe.C125_prepare",
    "Siwe.C125_principal",
    "Siwe.C125_delegation"
   ],
   "note": ""
  },
  {
   "property": "C126",
   "status": "partial",
   "theorems": [
    "Siwe.C126_any_key",
    "Siwe.C126_not_bound",
    "Siwe.C126_first_only_partial",
    "Siwe.C126_page_told_partial"
   ],
   "note": "That the key is the owner's is false of the code: the signed text does not contain the session key (C126_not_bound), and any acceptable key would do (C126_any_key). Proved: one session at most, and the owner is told."
  },
  {
   "property": "C127",
   "status": "partial",
   "theorems": [
    "Siwe.C127_nothing_ends_it",
    "Siwe.C127_not_ended",
    "Siwe.C127_ends_by_itself_partial",
    "Siwe.C127_forgotten_partial"
   ],
   "note": "False of the code: sessions cannot be ended early; negation proved (C127_not_ended), and in general that nothing ends one (C127_nothing_ends_it). Proved: the session ends by itself, and the page forgets it."
  },
  {
   "property": "C128",
   "status": "partial",
   "theorems": [
    "Siwe.C128_identity_of_the_configured_site",
    "Siwe.C128_identities_differ",
    "Siwe.C128_accepted_at_every_site",
    "Siwe.C128_not_separate",
    "Siwe.C128_separate_partial"
   ],
   "note": "False of the code: login derives the identity from the configuration at login, not from the message; negation proved (C128_not_separate), and in general that an accepted sign-in is accepted at every site (C128_accepted_at_every_site). Proved: identities of sites differ, and sign-ins are separate if the canister checks the message's URI itself."
  },
  {
   "property": "C129",
   "status": "proved",
   "theorems": [
    "Siwe.C129_verifies_iff_certified",
    "Siwe.C129_certified_maps_verify",
    "Siwe.C129_only_puts_verify"
   ],
   "note": ""
  },
  {
   "property": "C130",
   "status": "partial",
   "theorems": [
    "Siwe.C130_granted_by_a_used_canister",
    "Siwe.C130_granted_by_the_logins_canister",
    "Siwe.C130_not_its_own",
    "Siwe.C130_not_its_own_in_one_page",
    "Siwe.C130_one_canister_partial",
    "Siwe.C130_after_sign_out_partial",
    "Siwe.C130_running_login"
   ],
   "note": "False of the code: storage and store are not per canister; negation proved (C130_not_its_own). Proved: the identity was granted by one of the canisters used; by the manager's own if only one was used, or if the user signed out before (with no login running)."
  },
  {
   "property": "C131",
   "status": "proved",
   "theorems": [
    "Siwe.C131_repeats_iff",
    "Siwe.C131_repeated_nonces"
   ],
   "note": ""
  },
  {
   "property": "C132",
   "status": "partial",
   "theorems": [
    "Siwe.C132_issued_since_partial",
    "Siwe.C132_soon_partial",
    "Siwe.C132_signs_expired",
    "Siwe.C132_however_late",
    "Siwe.C132_in_vain"
   ],
   "note": "False of the code as stated (C132_signs_expired; what comes of it: C132_in_vain). Proved: the message was issued since the page last had none at hand, and has not expired if that was less than sign_in_expires_in ago. Missing: pages that keep a message for longer."
  },
  {
   "property": "C133",
   "status": "proved",
   "theorems": [
    "Siwe.C133_one_address",
    "Siwe.C133_address_never_changes",
    "Siwe.C133_principal_of_address",
    "Siwe.C133_several_principals"
   ],
   "note": "Salts of at most 255 bytes (longer ones: C23). C133_several_principals shows that the converse, one principal for each address, is false once the salt was changed."
  },
  {
   "property": "C134",
   "status": "proved",
   "theorems": [
    "Siwe.C134_targets",
    "Siwe.C134_limits",
    "Siwe.C134_session_is_accepted",
    "Siwe.C134_page"
   ],
   "note": ""
  },
  {
   "property": "C135",
   "status": "proved",
   "theorems": [
    "Siwe.C135_shows_only_itself",
    "Siwe.C135_short",
    "Siwe.C135_any_map"
   ],
   "note": "The labels and leaves of the tree read back from the signature are exactly those of the user's own entry. The length is bounded through the balance of the red-black trees and the number of signatures held (C93)."
  },
  {
   "property": "C136",
   "status": "proved",
   "theorems": [
    "Siwe.C136_only_key_holders",
    "Siwe.C136_others_are_told_so",
    "Siwe.C136_whoami"
   ],
   "note": "By the class byte of the IC's interface specification, from C43, C71 and C72."
  },
  {
   "property": "C137",
   "status": "proved",
   "theorems": [
    "Siwe.C137_order_is_not_observed",
    "Siwe.C137_replicas_agree",
    "Siwe.C137_hash_of_map",
    "Siwe.C137_embedded",
    "Siwe.C137_embedded_agree"
   ],
   "note": "Replicas whose pending sign-ins are permuted at will between calls are simulated by the model. Also for canisters that embed the library (C137_embedded, C137_embedded_agree)."
  },
  {
   "property": "C138",
   "status": "proved",
   "theorems": [
    "Siwe.C138_prepared",
    "Siwe.C138_user_key",
    "Siwe.C138_mapped"
   ],
   "note": "lower and upper bound of the prepared text, exact length of the user's key, of addresses and of principals, over all histories"
  },
  {
   "property": "C139",
   "status": "proved",
   "theorems": [
    "Siwe.C139_signing_in",
    "Siwe.C139_get_address",
    "Siwe.C139_get_principal",
    "Siwe.C139_order_of_features"
   ],
   "note": "Simulation between canisters that differ in the mapping features, over all pairs of histories."
  },
  {
   "property": "C140",
   "status": "proved",
   "theorems": [
    "Siwe.C140_targets",
    "Siwe.C140_session_length"
   ],
   "note": "Simulation between two canisters that differ in targets and session length (C140_targets, C140_session_length); the signature maps may differ and are not compared."
  },
  {
   "property": "C141",
   "status": "partial",
   "theorems": [
    "Siwe.C141_chain_bytes_partial",
    "Siwe.C141_fails",
    "Siwe.C141_other_arrays"
   ],
   "note": "C141_chain_bytes_partial characterises the arrays for which it holds (those that own their buffer, as the agent library's decoder makes them); C141_other_arrays shows it fails for others the types admit; C141_fails says when making the chain throws."
  },
  {
   "property": "C142",
   "status": "partial",
   "theorems": [
    "Siwe.C142_message_gives_cause",
    "Siwe.C142_not_unknown",
    "Siwe.C142_thrown_by_libraries_partial",
    "Siwe.C142_reason_lost"
   ],
   "note": "Proved for failures found by the client or reported by the canister (C142_message_gives_cause, C142_not_unknown) and for Error objects thrown by libraries (C142_thrown_by_libraries_partial); false for other thrown values (C142_reason_lost)."
  },
  {
   "property": "C143",
   "status": "partial",
   "theorems": [
    "Siwe.C143_only_certified_partial",
    "Siwe.C143_believes_the_host",
    "Siwe.C143_throws",
    "Siwe.C143_configured_canister_partial",
    "Siwe.C143_another_canister"
   ],
   "note": "Builds for the Internet Computer check answers under its key whatever the options (C143_only_certified_partial); all others believe the host, also against the app's own option (C143_believes_the_host). The configured canister and agent are used exactly if the options for actors name no other (C143_configured_canister_partial, C143_another_canister). The client's other models take the actor as calling the configured canister."
  },
  {
   "property": "C144",
   "status": "proved",
   "theorems": [
    "Siwe.C144_wording",
    "Siwe.C144_same_user",
    "Siwe.C144_scheme"
   ],
   "note": "Simulation between two canisters that differ in the wording (C144_wording); a user who signs both messages becomes the same user (C144_same_user). The scheme has no effect on any answer (C144_scheme): EIP-4361's optional scheme is not written into the text."
  },
  {
   "property": "C145",
   "status": "proved",
   "theorems": [
    "Siwe.C145_sign_in_time",
    "Siwe.C145_no_shorter",
    "Siwe.C145_same_user"
   ],
   "note": "Simulation between two canisters of which the second keeps every message at least as long (C145_sign_in_time, C145_no_shorter, C145_same_user)."
  }
 ]
}