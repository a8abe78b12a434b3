{
 "claims": [
  {
   "property": "C01",
   "status": "proved",
   "theorems": [
    "OidcOp.C01_lv_roundtrip_iff",
    "OidcOp.C01_lv_roundtrip_trim",
    "OidcOp.C01_lv_unpack_total",
    "OidcOp.C01_lv_pack_injective"
   ],
   "note": "Exact condition under which lv_pack/lv_unpack round-trip, as an iff."
  },
  {
   "property": "C02",
   "status": "proved",
   "theorems": [
    "OidcOp.C02_session_key_roundtrip_iff",
    "OidcOp.C02_session_key_of_unpack"
   ],
   "note": "Exact condition for the session key round trip, as an iff."
  },
  {
   "property": "C03",
   "status": "proved",
   "theorems": [
    "OidcOp.C03_session_id_roundtrip",
    "OidcOp.C03_session_id_roundtrip_triple",
    "OidcOp.C03_garbage_refused",
    "OidcOp.C03_trailing_space_lost"
   ],
   "note": "For every ideal cipher; what trailing white space loses is proved as well."
  },
  {
   "property": "C04",
   "status": "partial",
   "theorems": [
    "OidcOp.C04_distinct_paths_distinct_keys_refuted",
    "OidcOp.C04_distinct_paths_distinct_keys_partial"
   ],
   "note": "Refuted for identifiers that contain the separator; proved for identifiers without ';'."
  },
  {
   "property": "C05",
   "status": "partial",
   "theorems": [
    "OidcOp.C05_set_get_grant_partial",
    "OidcOp.C05_set_get_user_partial",
    "OidcOp.C05_set_get_client_partial",
    "OidcOp.C05_set_get_refuted"
   ],
   "note": "Proved for grants, and for user/client records that keep the list of subordinates; identifiers free of ';' and client ids that are not user names. Refuted for a user record that drops its clients."
  },
  {
   "property": "C06",
   "status": "partial",
   "theorems": [
    "OidcOp.C06_provider_histories_consistent_partial",
    "OidcOp.C06_database_consistent_partial",
    "OidcOp.C06_grants_listed_partial",
    "OidcOp.C06_database_consistent_refuted"
   ],
   "note": "Proved for all histories in which no grant made with add_grant is removed; refuted otherwise (add_grant lists the id twice)."
  },
  {
   "property": "C07",
   "status": "partial",
   "theorems": [
    "OidcOp.C07_by_session_id_partial",
    "OidcOp.C07_remove_session_partial",
    "OidcOp.C07_remove_session_refuted",
    "OidcOp.C07_remove_unknown_session_refuted"
   ],
   "note": "Proved for client ids that are not user names; refuted otherwise (delete uses the client id as a database key)."
  },
  {
   "property": "C08",
   "status": "partial",
   "theorems": [
    "OidcOp.C08_delete_user_leaves_nothing_refuted",
    "OidcOp.C08_delete_client_leaves_nothing_refuted",
    "OidcOp.C08_deleted_user_unreadable_partial",
    "OidcOp.C08_deleted_client_unreadable_partial"
   ],
   "note": "Refuted: records stay stored. Proved: they can no longer be read with get."
  },
  {
   "property": "C09",
   "status": "partial",
   "theorems": [
    "OidcOp.C09_by_session_id_partial",
    "OidcOp.C09_grant_by_session_id_partial",
    "OidcOp.C09_revoke_client_session_partial",
    "OidcOp.C09_removed_grant_refuted"
   ],
   "note": "Proved for all histories with clean identifiers in which no grant made with add_grant is removed; refuted otherwise: the grants listed after the removed one stay usable (C09_removed_grant_refuted)."
  },
  {
   "property": "C10",
   "status": "proved",
   "theorems": [
    "OidcOp.C10_is_active_iff"
   ],
   "note": ""
  },
  {
   "property": "C11",
   "status": "proved",
   "theorems": [
    "OidcOp.C11_inactive_forever",
    "OidcOp.C11_inactive_gives_no_response"
   ],
   "note": ""
  },
  {
   "property": "C12",
   "status": "proved",
   "theorems": [
    "OidcOp.C12_mint_only_from_live_authority",
    "OidcOp.C12_mint_refused_changes_nothing",
    "OidcOp.C12_mint_refused",
    "OidcOp.C12_mint_succeeds"
   ],
   "note": ""
  },
  {
   "property": "C13",
   "status": "proved",
   "theorems": [
    "OidcOp.C13_code_single_use",
    "OidcOp.C13_used_code_inactive"
   ],
   "note": ""
  },
  {
   "property": "C14",
   "status": "proved",
   "theorems": [
    "OidcOp.C14_at_most_one_response_per_code"
   ],
   "note": ""
  },
  {
   "property": "C15",
   "status": "partial",
   "theorems": [
    "OidcOp.C15_all_threads_partial",
    "OidcOp.C15_threads_partial",
    "OidcOp.C15_uninterrupted",
    "OidcOp.Ex.C15_threads_refuted"
   ],
   "note": "Refuted for two threads on one code (mint and register_usage are separate steps); proved when no two exchanges of one code overlap. For all schedules, also with refreshes in between: after the first answer at most the threads that had made their tokens by then still answer."
  },
  {
   "property": "C16",
   "status": "proved",
   "theorems": [
    "OidcOp.C16_all_threads",
    "OidcOp.C16_forever",
    "OidcOp.C16_threads",
    "OidcOp.C16_refresh_threads",
    "OidcOp.C16_refused",
    "OidcOp.C16_replay_revokes_descendants"
   ],
   "note": ""
  },
  {
   "property": "C17",
   "status": "proved",
   "theorems": [
    "OidcOp.C17_by_session_id",
    "OidcOp.C17_revoke_recursive",
    "OidcOp.C17_revoke_single",
    "OidcOp.C17_revoke_descendants",
    "OidcOp.C17_revoke_all",
    "OidcOp.C17_revoke_dependent"
   ],
   "note": ""
  },
  {
   "property": "C18",
   "status": "proved",
   "theorems": [
    "OidcOp.C18_ancestry"
   ],
   "note": ""
  },
  {
   "property": "C19",
   "status": "proved",
   "theorems": [
    "OidcOp.C19_scope_bounded"
   ],
   "note": ""
  },
  {
   "property": "C20",
   "status": "partial",
   "theorems": [
    "OidcOp.C20_refresh_scope_partial",
    "OidcOp.Ex.C20_widening_refuted"
   ],
   "note": "Refuted: the scope of a refresh request is checked against the grant, so a narrowed token can widen again. Proved: never wider than the grant."
  },
  {
   "property": "C21",
   "status": "proved",
   "theorems": [
    "OidcOp.C21_refresh_accepted_iff"
   ],
   "note": ""
  },
  {
   "property": "C22",
   "status": "proved",
   "theorems": [
    "OidcOp.C22_own_setting",
    "OidcOp.C22_rotation"
   ],
   "note": ""
  },
  {
   "property": "C23",
   "status": "partial",
   "theorems": [
    "OidcOp.C23_lifetime_partial",
    "OidcOp.C23_handed_out_usable",
    "OidcOp.C23_without_lifetime",
    "OidcOp.C23_reported_lifetime",
    "OidcOp.C23_authorization_lifetime",
    "OidcOp.C23_authorization_reported_lifetime",
    "OidcOp.C23_usable_refuted"
   ],
   "note": "Proved for all histories and all later histories: tokens of token responses live exactly the configured time (default 1800 s), also as told to the client. Refuted: the default configuration's life time of -1 for refresh tokens makes them useless when handed out."
  },
  {
   "property": "C24",
   "status": "proved",
   "theorems": [
    "OidcOp.C24_revoked_grant_is_dead"
   ],
   "note": ""
  },
  {
   "property": "C25",
   "status": "partial",
   "theorems": [
    "OidcOp.C25_all_threads_partial",
    "OidcOp.C25_spent_token_partial",
    "OidcOp.Ex.C25_revoked_grant_refuted",
    "OidcOp.C25_threads_partial",
    "OidcOp.C25_refresh_threads_partial"
   ],
   "note": "False of the code for a revoked grant or client session (C25_revoked_grant_refuted): the endpoints do not look at the grant's state. Proved: a revoked, used up or expired token is refused and inactive in every later state."
  },
  {
   "property": "C26",
   "status": "proved",
   "theorems": [
    "OidcOp.C26_client_binding",
    "OidcOp.C26_request_of_authenticated_client"
   ],
   "note": ""
  },
  {
   "property": "C27",
   "status": "proved",
   "theorems": [
    "OidcOp.C27_redirect_uri_binding"
   ],
   "note": ""
  },
  {
   "property": "C28",
   "status": "proved",
   "theorems": [
    "OidcOp.C28_authorization_request",
    "OidcOp.C28_token_request",
    "OidcOp.C28_code_exchange_proves_possession",
    "OidcOp.C28_grants_in_order",
    "OidcOp.C28_provider"
   ],
   "note": "Hash transformations are parameters. Grants added by an application with add_grant are outside the second half."
  },
  {
   "property": "C29",
   "status": "partial",
   "theorems": [
    "OidcOp.C29_minted_is_recognised_partial",
    "OidcOp.C29_never_another_class",
    "OidcOp.C29_forged_is_unknown_partial",
    "OidcOp.C29_accepted_is_authentic",
    "OidcOp.Ex.C29_id_handler_first_refuted",
    "OidcOp.Ex.C29_claim_named_ttype_refuted",
    "OidcOp.Ex.C29_forged_raises_refuted"
   ],
   "note": "Holds for the default handler order and payloads without entries named token_class or ttype; refuted for an order with the ID token handler first, for such payloads, and for unsigned JWT-like strings with an odd aud (IndexError). Cryptography is a parameter with laws."
  },
  {
   "property": "C30",
   "status": "proved",
   "theorems": [
    "OidcOp.C30_redirect_uri_exact",
    "OidcOp.C30_first_base_decides",
    "OidcOp.C30_used_uri"
   ],
   "note": "verify_uri decides membership exactly (first registered base with that query decides)"
  },
  {
   "property": "C31",
   "status": "partial",
   "theorems": [
    "OidcOp.C31_registered_usable_partial",
    "OidcOp.Ex.C31_same_base_refuted",
    "OidcOp.Ex.C31_percent_refuted"
   ],
   "note": "refuted for two registrations with the same base and for percent-encoded URIs; proved for plain URIs with distinct bases"
  },
  {
   "property": "C32",
   "status": "proved",
   "theorems": [
    "OidcOp.C32_response_type_registered"
   ],
   "note": ""
  },
  {
   "property": "C33",
   "status": "proved",
   "theorems": [
    "OidcOp.C33_state_and_scope",
    "OidcOp.C33_response_contents",
    "OidcOp.C33_unsupported",
    "OidcOp.C33_none",
    "OidcOp.C33_tokens_never_in_query"
   ],
   "note": ""
  },
  {
   "property": "C34",
   "status": "proved",
   "theorems": [
    "OidcOp.C34_pushed_once",
    "OidcOp.C34_request_uri",
    "OidcOp.C34_as_if_sent"
   ],
   "note": "Over all histories of the provider: URNs never repeat, are resolved at most once and to what was pushed; at the endpoint, a second use is refused whatever happens in between."
  },
  {
   "property": "C35",
   "status": "partial",
   "theorems": [
    "OidcOp.C35_client_partial",
    "OidcOp.Ex.C35_other_client_refuted",
    "OidcOp.Ex.C35_expiry_refuted"
   ],
   "note": "Refuted: another client can present the URN, and it works after the announced lifetime. Proved: the request that is used names the client that pushed it, and that client's redirect URI."
  },
  {
   "property": "C36",
   "status": "partial",
   "theorems": [
    "OidcOp.C36_token_scopes_partial",
    "OidcOp.Ex.C36_token_scopes_refuted",
    "OidcOp.C36_filter_exact",
    "OidcOp.C36_deny_unknown"
   ],
   "note": "filter and deny_unknown_scopes are proved exactly. Tokens: proved over all histories with deny_unknown_scopes, refuted without it."
  },
  {
   "property": "C37",
   "status": "partial",
   "theorems": [
    "OidcOp.C37_prompt_none_partial",
    "OidcOp.Ex.C37_expired_login_refuted"
   ],
   "note": "refuted as stated (an expired login gives a login page); proved otherwise"
  },
  {
   "property": "C38",
   "status": "partial",
   "theorems": [
    "OidcOp.C38_reuse_partial",
    "OidcOp.Ex.C38_other_user_refuted"
   ],
   "note": "refuted for user names that are base64url of JSON; proved for all other names"
  },
  {
   "property": "C39",
   "status": "partial",
   "theorems": [
    "OidcOp.C39_max_age_partial",
    "OidcOp.Ex.C39_zero_refuted",
    "OidcOp.Ex.C39_upm_answer_refuted",
    "OidcOp.Ex.C39_renewed_cookie_refuted"
   ],
   "note": "Refuted for max_age=0, for requests with upm_answer=true, and because the cookie's time is renewed with every response; proved relative to the time in the cookie."
  },
  {
   "property": "C40",
   "status": "partial",
   "theorems": [
    "OidcOp.C40_login_page_partial",
    "OidcOp.C40_no_method_partial",
    "OidcOp.C40_by_hint",
    "OidcOp.Ex.C40_reused_login_refuted",
    "OidcOp.C40_acr_honoured_partial",
    "OidcOp.C40_single_method_refuted"
   ],
   "note": "refuted for a broker with a single method and for logins that are reused; proved for all other brokers, and for hints"
  },
  {
   "property": "C41",
   "status": "proved",
   "theorems": [
    "OidcOp.C41_claims_match",
    "OidcOp.C41_other_specifications"
   ],
   "note": "For specifications of the form of OIDC Core 5.5.1; the rest of the domain is described by C41_other_specifications (exception, or text search in a string)."
  },
  {
   "property": "C42",
   "status": "proved",
   "theorems": [
    "OidcOp.C42_user_claims_sound",
    "OidcOp.C42_user_claims"
   ],
   "note": ""
  },
  {
   "property": "C43",
   "status": "proved",
   "theorems": [
    "OidcOp.C43_sources",
    "OidcOp.C43_standard_scopes",
    "OidcOp.C43_grant"
   ],
   "note": "For a registered client and a release point with a module; Python dictionaries have no key twice (ProperClaims)."
  },
  {
   "property": "C44",
   "status": "partial",
   "theorems": [
    "OidcOp.C44_pure_refuted",
    "OidcOp.C44_pure_partial"
   ],
   "note": "Refuted: _client_claims extends the list in the client database. Holds for evaluations without a second release point or for clients without a list for the first."
  },
  {
   "property": "C45",
   "status": "partial",
   "theorems": [
    "OidcOp.C45_userinfo_partial",
    "OidcOp.C45_whose_claims_partial",
    "OidcOp.C45_live_token_answered",
    "OidcOp.Ex.C45_acr_refuted"
   ],
   "note": "Proved for every state and string, except that acr is told without being allowed (C45_acr_refuted). Also proved: whose claims they are over every history of the provider, and that a live token is answered."
  },
  {
   "property": "C46",
   "status": "partial",
   "theorems": [
    "OidcOp.C46_active_sound_partial",
    "OidcOp.C46_found_token_partial",
    "OidcOp.C46_unknown_token_partial",
    "OidcOp.Ex.C46_removed_session_refuted",
    "OidcOp.Ex.C46_expired_token_refuted",
    "OidcOp.Ex.C46_subject_refuted"
   ],
   "note": "Proved: active=true only for live access and refresh tokens in any state; equivalence and no exception for tokens whose session is found. Refuted: exceptions for removed sessions and expired JWTs, and the subject told."
  },
  {
   "property": "C47",
   "status": "partial",
   "theorems": [
    "OidcOp.C47_protected_partial",
    "OidcOp.C47_hashes_partial",
    "OidcOp.Ex.C47_code_claim_refuted",
    "OidcOp.Ex.C47_hash_claim_refuted"
   ],
   "note": "Proved for iss, aud, exp, sub, nonce, auth_time, acr over all user databases; hashes proved unless the user's record has claims called code, access_token, c_hash or at_hash, and refuted otherwise."
  },
  {
   "property": "C48",
   "status": "partial",
   "theorems": [
    "OidcOp.C48_access_token_partial",
    "OidcOp.Ex.C48_user_claims_refuted"
   ],
   "note": "False of the code (C48_user_claims_refuted). Proved: sid, iss, exp always; sub, client_id, scope, aud, token_class, cnf if the user's record has no such name."
  },
  {
   "property": "C49",
   "status": "partial",
   "theorems": [
    "OidcOp.C49_secret_partial",
    "OidcOp.C49_only_secrets_partial",
    "OidcOp.C49_right_secret_partial",
    "OidcOp.C49_every_method_partial",
    "OidcOp.Ex.C49_bearer_body_refuted",
    "OidcOp.C49_right_basic"
   ],
   "note": "Soundness of secrets, completeness and the classification of every method are proved; the claim on wrong secrets holds for the methods with secrets and is false with bearer_body (C49_bearer_body_refuted)."
  },
  {
   "property": "C50",
   "status": "proved",
   "theorems": [
    "OidcOp.C50_unused_accepted",
    "OidcOp.C50_assertion_once",
    "OidcOp.C50_assertion_checked"
   ],
   "note": "Over all series of requests."
  },
  {
   "property": "C51",
   "status": "partial",
   "theorems": [
    "OidcOp.C51_read_partial",
    "OidcOp.Ex.C51_bearer_body_refuted",
    "OidcOp.Ex.C51_no_method_refuted"
   ],
   "note": "Equivalence proved for the documented configuration (bearer_header only); false for bearer_body and for an endpoint without methods."
  },
  {
   "property": "C52",
   "status": "proved",
   "theorems": [
    "OidcOp.C52_others_untouched",
    "OidcOp.C52_fresh_id",
    "OidcOp.C52_history",
    "OidcOp.C52_access_tokens_kept",
    "OidcOp.C52_access_tokens_history",
    "OidcOp.C52_ends"
   ],
   "note": "For single calls and for all series of registrations; a client_id_generator of one's own is not modelled."
  },
  {
   "property": "C53",
   "status": "partial",
   "theorems": [
    "OidcOp.C53_early_partial",
    "OidcOp.C53_leftover_unusable_partial",
    "OidcOp.Ex.C53_refuted"
   ],
   "note": "False as stated (C53_refuted): a refused registration can leave a client with a secret behind. Proved: early refusals change nothing; a leftover client has nothing of the request and no usable redirect URI."
  },
  {
   "property": "C54",
   "status": "partial",
   "theorems": [
    "OidcOp.C54_unnamed_partial",
    "OidcOp.C54_id_partial",
    "OidcOp.C54_any_parameter_refuted",
    "OidcOp.Ex.C54_refuted"
   ],
   "note": "False as stated (C54_refuted, and C54_any_parameter_refuted for every other name). Proved: what the request does not name is the provider's own, and the client id and redirect URIs cannot be set unchecked."
  },
  {
   "property": "C55",
   "status": "partial",
   "theorems": [
    "OidcOp.C55_web",
    "OidcOp.C55_native_partial",
    "OidcOp.C55_web_registered",
    "OidcOp.Ex.C55_native_fragment_refuted"
   ],
   "note": "Exact for web clients, up to the authorization endpoint; for native clients a fragment is accepted (C55_native_fragment_refuted)."
  },
  {
   "property": "C56",
   "status": "proved",
   "theorems": [
    "OidcOp.C56_match_exact",
    "OidcOp.C56_history"
   ],
   "note": "Exact, and for the records after all series of registrations."
  },
  {
   "property": "C57",
   "status": "partial",
   "theorems": [
    "OidcOp.C57_cookie_roundtrip_partial",
    "OidcOp.Ex.C57_colons_refuted",
    "OidcOp.Ex.C57_bar_refuted"
   ],
   "note": "Proved for values and types that can be told apart; false with '::' in the value, and with '|' if cookies are only signed (C57_colons_refuted, C57_bar_refuted)."
  },
  {
   "property": "C58",
   "status": "partial",
   "theorems": [
    "OidcOp.C58_encrypted_authentic",
    "OidcOp.C58_signed_partial",
    "OidcOp.C58_other_shapes_refused",
    "OidcOp.C58_name_not_protected",
    "OidcOp.Ex.C58_signed_refuted"
   ],
   "note": "Proved for encrypted cookies; for signed ones only the concatenation of payload and time stamp is protected (C58_signed_refuted)."
  },
  {
   "property": "C59",
   "status": "proved",
   "theorems": [
    "OidcOp.C59_merge",
    "OidcOp.C59_server_only",
    "OidcOp.C59_rulesOf"
   ],
   "note": "C59_merge: class by class and rule by rule; C59_rulesOf: the same for the rules the authorization handler puts in a grant."
  },
  {
   "property": "C60",
   "status": "partial",
   "theorems": [
    "OidcOp.C60_history_independent_partial",
    "OidcOp.C60_grant_first",
    "OidcOp.C60_defaults",
    "OidcOp.Ex.C60_defaults_refuted",
    "OidcOp.Ex.C60_client_refuted"
   ],
   "note": "The claim is false: C60_defaults_refuted and C60_client_refuted show rules of one grant leaking into the module defaults and the client record. C60_history_independent_partial: over any series of calls nothing changes for classes the server has rules for. C60_grant_first: what a call returns. C60_defaults: what the defaults are."
  },
  {
   "property": "C61",
   "status": "partial",
   "theorems": [
    "OidcOp.C61_public_partial",
    "OidcOp.C61_pairwise_partial",
    "OidcOp.Ex.C61_pairwise_client_refuted",
    "OidcOp.Ex.C61_concatenation_refuted"
   ],
   "note": "Public subjects over all histories of the provider: C61_public_partial. Pairwise subjects: C61_pairwise_partial for callers of the session manager. The claim is false of the authorization endpoint, which never uses pairwise subjects (C61_pairwise_client_refuted), and of the concatenation without separators (C61_concatenation_refuted)."
  },
  {
   "property": "C62",
   "status": "partial",
   "theorems": [
    "OidcOp.C62_redirect_partial",
    "OidcOp.C62_own_client_partial",
    "OidcOp.C62_confirmation",
    "OidcOp.Ex.C62_other_client_refuted"
   ],
   "note": "Proved for the client the request names, and in full for requests that name no other client than the session's; the confirmation's content is proved too. Refuted in full: a request may name another client and be sent to that client's URI."
  },
  {
   "property": "C63",
   "status": "partial",
   "theorems": [
    "OidcOp.C63_logout_all_partial",
    "OidcOp.C63_logout_one",
    "OidcOp.C63_regardless_of_clients",
    "OidcOp.Ex.C63_everywhere_refuted",
    "OidcOp.Ex.C63_unregistered_client_refuted"
   ],
   "note": "Proved for clients with a logout URI and an ID token when all clients of the user are registered; logging out of one client is proved in full, and that the outcome does not depend on the clients' endpoints. Refuted in full: clients without a logout URI stay logged in, and an unregistered client blocks everything."
  },
  {
   "property": "C64",
   "status": "partial",
   "theorems": [
    "OidcOp.C64_fields_partial",
    "OidcOp.C64_extra_field_refuted",
    "OidcOp.C64_markup_refuted"
   ],
   "note": "refuted: values are not escaped; proved that the fields are the parameters if no value has a quotation mark"
  },
  {
   "property": "C65",
   "status": "proved",
   "theorems": [
    "OidcOp.C65_order",
    "OidcOp.C65_sorted",
    "OidcOp.C65_permitted",
    "OidcOp.C65_refused",
    "OidcOp.C65_no_weak_default"
   ],
   "note": "C65_permitted, C65_refused: nothing but supported algorithms is published from configuration or built-in defaults; C65_no_weak_default; C65_order and C65_sorted: the order is total and RS comes first."
  },
  {
   "property": "C66",
   "status": "proved",
   "theorems": [
    "OidcOp.C66_user_isolation",
    "OidcOp.C66_user_isolation_history"
   ],
   "note": "Token endpoint, authorization, revocation and session removal operations; user info and introspection only read. Users, clients and grants with clean ids."
  },
  {
   "property": "C67",
   "status": "partial",
   "theorems": [
    "OidcOp.Ex.C67_used_uri_registered_refuted",
    "OidcOp.C67_used_uri_registered_partial"
   ],
   "note": "refuted: get_uri returns the URI as sent while verify_uri checks the decoded one; proved for URIs that decoding does not change"
  },
  {
   "property": "C68",
   "status": "partial",
   "theorems": [
    "OidcOp.C68_grant_vetted_partial",
    "OidcOp.C68_grant_vetted_direct_partial",
    "OidcOp.Ex.C68_presenter_refuted"
   ],
   "note": "Proved over all histories of the whole provider, with the response type and PKCE checked for the client that sends the request, and for the one client if there is no pushed authorization endpoint. Refuted in general: another client can present a pushed request and so skip PKCE."
  },
  {
   "property": "C69",
   "status": "partial",
   "theorems": [
    "OidcOp.C69_by_scope_refuted",
    "OidcOp.C69_by_scope_partial"
   ],
   "note": "Refuted: an explicit False of the client falls back to the server's setting. The partial theorem says what decides."
  },
  {
   "property": "C70",
   "status": "proved",
   "theorems": [
    "OidcOp.C70_read_what_was_answered"
   ],
   "note": ""
  },
  {
   "property": "C71",
   "status": "proved",
   "theorems": [
    "OidcOp.C71_session_state"
   ],
   "note": "For client ids and origins without spaces; the hash does not collide on the two texts."
  },
  {
   "property": "C72",
   "status": "proved",
   "theorems": [
    "OidcOp.C72_token_leads_home",
    "OidcOp.C72_never_another_session"
   ],
   "note": "For all fair histories (session ids from the provider, names without the separator); for every token of every grant. Relies on the seal of token values (Env.info_seal) and of session ids (Env.decrypt_enc)."
  },
  {
   "property": "C73",
   "status": "partial",
   "theorems": [
    "OidcOp.C73_confirmation_ends_session_partial",
    "OidcOp.C73_unsigned_changes_nothing_partial",
    "OidcOp.Ex.C73_access_token_refuted"
   ],
   "note": "Proved: the confirmation ends exactly the cookie's session, and a text without the provider's signature changes nothing. Refuted in full: a JWT access token (or ID token) of the provider is taken as confirmation."
  },
  {
   "property": "C74",
   "status": "proved",
   "theorems": [
    "OidcOp.C74_logout_tokens"
   ],
   "note": "For all fair histories, when all clients of the user are registered."
  },
  {
   "property": "C75",
   "status": "proved",
   "theorems": [
    "OidcOp.C75_tokens_never_repeat",
    "OidcOp.C75_token_names_its_session",
    "OidcOp.C75_history_tokens_distinct"
   ],
   "note": "For every configuration of encrypted and signed handlers and for all histories; the assumptions on keys, random strings and payloads are in Spec/Parts. The provider of the history theorems is built from the modelled parts (Parts.env)."
  },
  {
   "property": "C76",
   "status": "proved",
   "theorems": [
    "OidcOp.C76_at_most_max_usage_responses",
    "OidcOp.C76_minted_max_usage",
    "OidcOp.C76_refreshed_max_usage"
   ],
   "note": "For every history and interleaving; access tokens are not covered, since their uses are not registered anywhere."
  },
  {
   "property": "C77",
   "status": "partial",
   "theorems": [
    "OidcOp.C77_works_partial",
    "OidcOp.C77_login_page",
    "OidcOp.Ex.C77_colon_refuted",
    "OidcOp.C77_password_needed",
    "OidcOp.C77_wrong_password",
    "OidcOp.C77_user_partial",
    "OidcOp.C77_own_cookies_partial",
    "OidcOp.C77_form",
    "OidcOp.Ex.C77_other_cookie_refuted"
   ],
   "note": "Proved: a password is needed, wrong ones are refused, right ones work, and without a cookie of someone else for the client the session is the user's. Refuted with such a cookie (C77_other_cookie_refuted) and for passwords with a colon (C77_colon_refuted)."
  },
  {
   "property": "C78",
   "status": "proved",
   "theorems": [
    "OidcOp.C78_only_when_allowed",
    "OidcOp.C78_offline_access",
    "OidcOp.C78_oauth2_none",
    "OidcOp.C78_grant_type"
   ],
   "note": ""
  },
  {
   "property": "C79",
   "status": "proved",
   "theorems": [
    "OidcOp.C79_redirect_uris",
    "OidcOp.C79_copied",
    "OidcOp.C79_secret",
    "OidcOp.C79_request_uris"
   ],
   "note": ""
  },
  {
   "property": "C80",
   "status": "partial",
   "theorems": [
    "OidcOp.C80_grant_partial",
    "OidcOp.C80_answer_partial",
    "OidcOp.C80_userinfo_partial",
    "OidcOp.Ex.C80_name_refuted"
   ],
   "note": "refuted for user names that are base64url of JSON, which get a new event of another user; proved for all other names"
  },
  {
   "property": "C81",
   "status": "partial",
   "theorems": [
    "OidcOp.C81_proof_required",
    "OidcOp.C81_bound_to_proven_key_partial",
    "OidcOp.Ex.C81_proven_key_refuted",
    "OidcOp.Ex.C81_type_refuted"
   ],
   "note": "Proved for proofs without a claim jwk, as an iff; refuted for the key when there is one, and for the type of the proof, which is not checked."
  },
  {
   "property": "C82",
   "status": "partial",
   "theorems": [
    "OidcOp.C82_responses_bound_partial",
    "OidcOp.Ex.C82_refresh_same_key_refuted",
    "OidcOp.Ex.C82_replay_refuted",
    "OidcOp.Ex.C82_without_http_info_refuted"
   ],
   "note": "Proved for the OpenID Connect token endpoint when requests come with HTTP information; refuted: replayed proofs, refresh with another key, requests without HTTP information."
  },
  {
   "property": "C83",
   "status": "partial",
   "theorems": [
    "OidcOp.C83_object_partial",
    "OidcOp.C83_accepted_partial",
    "OidcOp.Ex.C83_place_refuted",
    "OidcOp.Ex.C83_algorithm_refuted",
    "OidcOp.Ex.C83_encrypted_refuted"
   ],
   "note": "Proved as an iff for references, with the odd condition the code has for encrypted objects and where names of algorithms are not parts of one another; refuted for places when none are registered, for parts of names, and for encrypted objects."
  },
  {
   "property": "C84",
   "status": "partial",
   "theorems": [
    "OidcOp.C84_protected_partial",
    "OidcOp.Ex.C84_client_refuted"
   ],
   "note": "Proved for objects that do not refer to further objects; refuted for the client: an object can name another client."
  },
  {
   "property": "C85",
   "status": "partial",
   "theorems": [
    "OidcOp.C85_live_all_along_partial",
    "OidcOp.C85_revoked_partial",
    "OidcOp.C85_removed_partial",
    "OidcOp.Ex.C85_removed_login_refuted",
    "OidcOp.Ex.C85_name_refuted"
   ],
   "note": "Proved for histories with ordinary names; refuted for names that look like base64url, and a cookie of a removed session is not as good as none."
  },
  {
   "property": "C86",
   "status": "partial",
   "theorems": [
    "OidcOp.C86_cookie_partial",
    "OidcOp.C86_cookie_time",
    "OidcOp.Ex.C86_token_cookie_refuted"
   ],
   "note": "Proved for cookies of the authorization endpoint with ordinary names, and their time stamps in general; refuted for the cookie of the token endpoint."
  },
  {
   "property": "C87",
   "status": "partial",
   "theorems": [
    "OidcOp.C87_restart_partial",
    "OidcOp.C87_twice",
    "OidcOp.C87_token_cookie_refuted"
   ],
   "note": "Proved for the authorization, token, user info and introspection endpoints and all records; refuted for the session cookie of the token endpoint. Token values are taken as not forged."
  },
  {
   "property": "C88",
   "status": "partial",
   "theorems": [
    "OidcOp.C88_id_token_alg",
    "OidcOp.C88_id_token_signed",
    "OidcOp.C88_supported",
    "OidcOp.C88_userinfo",
    "OidcOp.C88_logout_partial",
    "OidcOp.C88_logout_token",
    "OidcOp.C88_id_token_encrypted",
    "OidcOp.C88_never_encrypted",
    "OidcOp.Ex.C88_logout_refuted",
    "OidcOp.Ex.C88_encryption_refuted",
    "OidcOp.Ex.C88_userinfo_default_refuted"
   ],
   "note": "Signing of ID tokens and user info proved; logout tokens proved for clients that registered an algorithm or if RS256 is the provider's first. Refuted: encryption of ID tokens, logout tokens in general, user info with one registered encryption algorithm."
  },
  {
   "property": "C89",
   "status": "partial",
   "theorems": [
    "OidcOp.C89_tokens_to_the_client_partial",
    "OidcOp.C89_assertion_once",
    "OidcOp.Ex.C89_no_methods_refuted",
    "OidcOp.Ex.C89_bearer_refuted"
   ],
   "note": "Proved for an endpoint whose configured methods are client_secret_basic, client_secret_post, client_secret_jwt and private_key_jwt. Refuted for an endpoint without configured methods (the default of the token endpoint) and for bearer_header."
  },
  {
   "property": "C90",
   "status": "partial",
   "theorems": [
    "OidcOp.C90_works",
    "OidcOp.C90_expires",
    "OidcOp.C90_only_this_secret",
    "OidcOp.C90_lifetime_partial",
    "OidcOp.Ex.C90_lifetime_refuted"
   ],
   "note": "Working until the expiry time in the answer, not after it, and only with this secret: proved in full. That the expiry time follows the provider's configuration is proved for requests that bring neither a secret nor an expiry time, and refuted for others."
  },
  {
   "property": "C91",
   "status": "partial",
   "theorems": [
    "OidcOp.C91_introspection_without_token",
    "OidcOp.C91_userinfo",
    "OidcOp.C91_userinfo_works",
    "OidcOp.C91_introspection_partial",
    "OidcOp.C91_introspection_live_partial",
    "OidcOp.C91_introspection_works",
    "OidcOp.C91_invalid_token",
    "OidcOp.Ex.C91_introspection_refuted"
   ],
   "note": "Proved for the user info endpoint, and for an introspection endpoint with methods that authenticate clients; refuted for an introspection endpoint without configured methods, which is the default."
  },
  {
   "property": "C92",
   "status": "partial",
   "theorems": [
    "OidcOp.C92_where_partial",
    "OidcOp.C92_where_after_login",
    "OidcOp.C92_delivered_partial",
    "OidcOp.C92_login_required_partial",
    "OidcOp.Ex.C92_where_refuted",
    "OidcOp.Ex.C92_timed_out_refuted",
    "OidcOp.Ex.C92_form_post_refuted"
   ],
   "note": "Proved for requests that fit (target, place, members, state, issuer), and for login_required without a response mode or in a form; refuted for login_required with query or fragment, for failures without a response mode, and for the issuer in forms."
  },
  {
   "property": "C93",
   "status": "partial",
   "theorems": [
    "OidcOp.C93_agree_partial",
    "OidcOp.C93_agree_authorization_partial",
    "OidcOp.C93_handler_lifetime",
    "OidcOp.C93_not_after_its_end",
    "OidcOp.C93_agree_refuted",
    "OidcOp.C93_zero_refuted"
   ],
   "note": "Proved for every history and configuration where the usage rules give the class a positive life time (token and authorization endpoint), for the handler's life time where they give none, and that no signed token is accepted after its end. The code violates the rest: the default configuration tells the client 1800 seconds while the token says 3600, and with a life time of 0 a signed token is never accepted (refuted theorems)."
  },
  {
   "property": "C94",
   "status": "proved",
   "theorems": [
    "OidcOp.C94_refresh_honoured",
    "OidcOp.C94_code_honoured"
   ],
   "note": "for all reachable states; the handlers' not failing is a hypothesis"
  },
  {
   "property": "C95",
   "status": "partial",
   "theorems": [
    "OidcOp.C95_short_chain_partial",
    "OidcOp.C95_replay_outcome",
    "OidcOp.C95_deep_chain_refuted"
   ],
   "note": "holds when the chain is shorter than the interpreter's stack; refuted for every finite stack"
  },
  {
   "property": "C96",
   "status": "partial",
   "theorems": [
    "OidcOp.C96_urls_partial",
    "OidcOp.C96_audience_partial",
    "OidcOp.C96_assertion_partial",
    "OidcOp.C96_keys",
    "OidcOp.Ex.C96_second_provider_refuted"
   ],
   "note": "holds where the configuration names no URLs of endpoints; refuted for a second provider made from the same configuration"
  },
  {
   "property": "C97",
   "status": "partial",
   "theorems": [
    "OidcOp.C97_endpoint",
    "OidcOp.C97_from_endpoints_partial",
    "OidcOp.C97_configured_partial",
    "OidcOp.C97_order_partial",
    "OidcOp.Ex.C97_configured_refuted",
    "OidcOp.Ex.C97_order_refuted"
   ],
   "note": "holds for members that nothing else decides about, and for endpoints that agree; refuted for ID token algorithms and for the order of endpoints"
  },
  {
   "property": "C98",
   "status": "partial",
   "theorems": [
    "OidcOp.C98_acr",
    "OidcOp.C98_scopes_partial",
    "OidcOp.C98_claims_partial",
    "OidcOp.Ex.C98_scopes_refuted",
    "OidcOp.Ex.C98_dpop_refuted",
    "OidcOp.C98_custom_scopes_partial",
    "OidcOp.C98_custom_claims_partial",
    "OidcOp.C98_dpop_published",
    "OidcOp.Ex.C98_mapping_refuted"
   ],
   "note": "acr values in full; scopes where the configuration does not list them; refuted for listed scopes and for DPoP algorithms"
  },
  {
   "property": "C99",
   "status": "partial",
   "theorems": [
    "OidcOp.C99_published_partial",
    "OidcOp.C99_accepted_partial",
    "OidcOp.C99_works_partial",
    "OidcOp.Ex.C99_default_refuted",
    "OidcOp.Ex.C99_capabilities_refuted"
   ],
   "note": "Proved where methods are configured for the token endpoint and the capabilities name none; refuted for the default configuration (no method published, everybody passes) and for methods named in the capabilities."
  },
  {
   "property": "C100",
   "status": "partial",
   "theorems": [
    "OidcOp.C100_one_method_partial",
    "OidcOp.Ex.C100_registered_method_refuted"
   ],
   "note": "Proved where the token endpoint has one method; refuted for more, as the registered method is not looked at."
  },
  {
   "property": "C101",
   "status": "partial",
   "theorems": [
    "OidcOp.C101_others_change_nothing",
    "OidcOp.C101_others_refused",
    "OidcOp.C101_only_configured",
    "OidcOp.C101_refresh_honoured",
    "OidcOp.C101_code_honoured",
    "OidcOp.C101_published_partial",
    "OidcOp.C101_one_type_partial",
    "OidcOp.C101_own_list_partial",
    "OidcOp.Ex.C101_published_refuted",
    "OidcOp.Ex.C101_registered_refuted"
   ],
   "note": "Only grant types that are turned on and not excluded in the client's record are answered, and they are honoured. Refuted: registered grant types are stored under another name than the one looked at, and the default metadata do not name refresh_token (Ex.C101_registered_refuted, Ex.C101_published_refuted); shown with one grant type, or with capabilities that name what is turned on."
  },
  {
   "property": "C102",
   "status": "partial",
   "theorems": [
    "OidcOp.C102_given_partial",
    "OidcOp.C102_default",
    "OidcOp.C102_nothing_else",
    "OidcOp.C102_refused",
    "OidcOp.C102_authorization_server_partial",
    "OidcOp.C102_allowed_scopes_ignored",
    "OidcOp.C102_tls_plain",
    "OidcOp.C102_tls_partial",
    "OidcOp.Ex.C102_dropped_refuted",
    "OidcOp.Ex.C102_empty_refuted",
    "OidcOp.Ex.C102_issuer_refuted"
   ],
   "note": "settings that the class does not know are dropped, empty ones replaced, domain and port not put into the issuer"
  },
  {
   "property": "C103",
   "status": "partial",
   "theorems": [
    "OidcOp.C103_configured_rules_apply",
    "OidcOp.C103_grants_configured",
    "OidcOp.C103_refresh_max_usage",
    "OidcOp.C103_negative_never_refreshed",
    "OidcOp.C103_default_refresh_refuted",
    "OidcOp.C103_default_lifetimes"
   ],
   "note": "with the default configuration no refresh token is ever accepted (proved for all histories); where the grant configuration has no usage rules the rules of an earlier grant stay, see C60"
  },
  {
   "property": "C104",
   "status": "partial",
   "theorems": [
    "OidcOp.C104_not_cached_partial",
    "OidcOp.C104_one_type_partial",
    "OidcOp.C104_error_partial",
    "OidcOp.C104_error_redirect_partial",
    "OidcOp.C104_response_partial",
    "OidcOp.C104_ready_message",
    "OidcOp.C104_configured_format",
    "OidcOp.C104_userinfo_type",
    "OidcOp.C104_webfinger",
    "OidcOp.Ex.C104_webfinger_refuted",
    "OidcOp.Ex.C104_types_refuted",
    "OidcOp.Ex.C104_error_lost_refuted",
    "OidcOp.Ex.C104_error_uri_refuted"
   ],
   "note": "WebFinger answers are not marked; with some arguments the type is said twice or the error is lost C104_configured_format: endpoints configured for another format."
  },
  {
   "property": "C105",
   "status": "partial",
   "theorems": [
    "OidcOp.C105_hint",
    "OidcOp.C105_open",
    "OidcOp.C105_credentials_partial",
    "OidcOp.C105_any_token",
    "OidcOp.Ex.C105_secret_refuted",
    "OidcOp.Ex.C105_token_refuted"
   ],
   "note": "Proved for endpoints without client authentication and for the hint; for endpoints with client authentication the property is false: only requests with an access token in the body and a client id get through, and the token is not verified."
  },
  {
   "property": "C106",
   "status": "partial",
   "theorems": [
    "OidcOp.C106_login_hint_partial",
    "OidcOp.C106_same_user",
    "OidcOp.C106_id_token_ignored",
    "OidcOp.C106_acr",
    "OidcOp.Ex.C106_id_token_hint_refuted",
    "OidcOp.Ex.C106_unknown_user_refuted",
    "OidcOp.Ex.C106_address_refuted",
    "OidcOp.C106_misspelt_partial"
   ],
   "note": "Proved for login hints with a prefix that fit a user, and for authentication contexts. False for ID token hints (a misspelt parameter name), for hints that fit nobody (exceptions) and for plain addresses."
  },
  {
   "property": "C107",
   "status": "partial",
   "theorems": [
    "OidcOp.C107_made",
    "OidcOp.C107_key_source",
    "OidcOp.C107_key_partial",
    "OidcOp.C107_no_other_key",
    "OidcOp.C107_as_configured",
    "OidcOp.C107_recognised",
    "OidcOp.C107_default_partial",
    "OidcOp.Ex.C107_default_id_token_refuted",
    "OidcOp.Ex.C107_named_class_refuted",
    "OidcOp.Ex.C107_password_refuted"
   ],
   "note": "Classes, keys, life times and recognition are proved for all configurations. Refuted: the default configuration makes no ID token handler, naming the default class without kwargs keeps the provider from starting, and configured passwords are replaced."
  },
  {
   "property": "C108",
   "status": "partial",
   "theorems": [
    "OidcOp.C108_read_partial",
    "OidcOp.C108_unknown_partial",
    "OidcOp.C108_code_partial",
    "OidcOp.C108_refresh_partial",
    "OidcOp.C108_encryption",
    "OidcOp.Ex.C108_unknown_refresh_refuted",
    "OidcOp.Ex.C108_ended_session_refuted",
    "OidcOp.Ex.C108_no_redirect_uri_refuted"
   ],
   "note": "The requests that raise an exception are characterised exactly over all reachable states, and the decision table for live codes and refresh tokens is proved. Refuted: unknown refresh tokens, sessions that ended beside another one, and codes without redirect URI raise exceptions."
  },
  {
   "property": "C109",
   "status": "partial",
   "theorems": [
    "OidcOp.C109_flags",
    "OidcOp.C109_default_flags",
    "OidcOp.C109_sent_back",
    "OidcOp.C109_killed",
    "OidcOp.C109_killed_read",
    "OidcOp.C109_default_names",
    "OidcOp.C109_kept_partial",
    "OidcOp.Ex.C109_max_age_refuted"
   ],
   "note": "Flags, session cookies and dropped cookies are proved for all configurations and jars. That a cookie with a life time ends when it should is refuted: max-age is set to an absolute time; proved is that it is kept at least that long."
  },
  {
   "property": "C110",
   "status": "partial",
   "theorems": [
    "OidcOp.C110_registered",
    "OidcOp.C110_removal",
    "OidcOp.C110_none_left_out_partial",
    "OidcOp.C110_pick_partial",
    "OidcOp.C110_published_partial",
    "OidcOp.C110_choice_partial",
    "OidcOp.C110_configured",
    "OidcOp.Ex.C110_replaced_refuted",
    "OidcOp.Ex.C110_replaced_removed_refuted"
   ],
   "note": "Proved for all histories in which no method is replaced under its id, and for every configuration; for all histories proved are the registered methods, their removal, and that no method is left out. Refuted where a method is replaced by one with another acr."
  },
  {
   "property": "C111",
   "status": "partial",
   "theorems": [
    "OidcOp.C111_authorization_partial",
    "OidcOp.C111_authorization_answers_partial",
    "OidcOp.C111_errors",
    "OidcOp.C111_others",
    "OidcOp.C111_start",
    "OidcOp.Ex.C111_token_refuted",
    "OidcOp.Ex.C111_introspection_refuted",
    "OidcOp.Ex.C111_userinfo_refuted"
   ],
   "note": "Proved for the authorization endpoint, for errors, ready made answers and other endpoints, and for the start. Refuted for the token, introspection and user info endpoints, whose answers never get the configured arguments."
  },
  {
   "property": "C112",
   "status": "partial",
   "theorems": [
    "OidcOp.C112_comes_back",
    "OidcOp.C112_login",
    "OidcOp.C112_authentic_partial",
    "OidcOp.C112_shows",
    "OidcOp.C112_made",
    "OidcOp.Ex.Page.C112_signed_by_client_refuted"
   ],
   "note": "proved except that only the provider's own pages are accepted, which is refuted: the token of the form may be signed by a client"
  },
  {
   "property": "C113",
   "status": "proved",
   "theorems": [
    "OidcOp.C113_accepted",
    "OidcOp.C113_kept"
   ],
   "note": "accepted if and only if in order, given that a free client id is drawn; what is kept of it"
  },
  {
   "property": "C114",
   "status": "partial",
   "theorems": [
    "OidcOp.C114_everywhere_partial",
    "OidcOp.C114_one",
    "OidcOp.C114_in_turn",
    "OidcOp.Ex.C114_unreachable_refuted",
    "OidcOp.Ex.C114_markup_refuted"
   ],
   "note": "Proved for all histories when the clients' logout endpoints can be reached; refuted when one cannot (the clients after it are not told) and for front channel URIs with a quote (markup on the provider's page)."
  },
  {
   "property": "C115",
   "status": "proved",
   "theorems": [
    "OidcOp.C115_id_token",
    "OidcOp.C115_access_token",
    "OidcOp.C115_access_token_made",
    "OidcOp.C115_id_token_made"
   ],
   "note": ""
  },
  {
   "property": "C116",
   "status": "partial",
   "theorems": [
    "OidcOp.C116_token_needed",
    "OidcOp.C116_works_partial",
    "OidcOp.C116_user_partial",
    "OidcOp.C116_plain_name_never",
    "OidcOp.C116_without_token",
    "OidcOp.C116_does_not_open",
    "OidcOp.Ex.C116_plain_name_refuted",
    "OidcOp.Ex.C116_colon_refuted",
    "OidcOp.Ex.C116_time_to_live_refuted",
    "OidcOp.Ex.C116_cookie_refuted"
   ],
   "note": "Nobody gets a session without a token (proved), and tokens with a wrapped user name work if they have one colon. Refuted: plain user names never work (the id is bytes), tokens with a colon among their bytes raise, the time to live is ignored, requests without a token or with a token of another key raise an exception, and the user of a cookie replaces that of the token."
  },
  {
   "property": "C117",
   "status": "partial",
   "theorems": [
    "OidcOp.C117_add_ons",
    "OidcOp.C117_refresh_flag",
    "OidcOp.C117_has_all",
    "OidcOp.C117_refuses",
    "OidcOp.C117_starts_partial",
    "OidcOp.C117_without_refresh",
    "OidcOp.C117_without_grant_types",
    "OidcOp.C117_default_ways",
    "OidcOp.C117_no_ways",
    "OidcOp.C117_starts_refuted",
    "OidcOp.C117_capabilities_refuted"
   ],
   "note": "C117_has_all and C117_refuses hold for all configurations; C117_starts_partial needs settings for refresh tokens and known grant types if there is a token endpoint, which the property does not: C117_without_refresh and C117_without_grant_types show for all configurations that nothing else helps, and C117_starts_refuted and C117_capabilities_refuted that the property fails for this code."
  },
  {
   "property": "C118",
   "status": "partial",
   "theorems": [
    "OidcOp.C118_records_told_partial",
    "OidcOp.C118_records_stored",
    "OidcOp.C118_id_of_token",
    "OidcOp.C118_no_id_of_token",
    "OidcOp.C118_session_told_partial",
    "OidcOp.C118_parts_told_partial",
    "OidcOp.C118_session_told_refuted",
    "OidcOp.C118_unknown_session_refused",
    "OidcOp.C118_created_told_partial",
    "OidcOp.C118_events_told_partial",
    "OidcOp.C118_events_once_partial",
    "OidcOp.C118_events_once_refuted",
    "OidcOp.C118_events_unknown_refused",
    "OidcOp.C118_token_found",
    "OidcOp.C118_update_told_partial"
   ],
   "note": "C118_unknown_session_refused, C118_events_unknown_refused and C118_token_found hold for all databases; the other theorems need, as C06, that no grant made with add_grant is removed; C118_session_told_partial excludes asking for the grant and the event together, which C118_session_told_refuted shows never to get an answer, and C118_events_once_partial excludes add_grant, for which C118_events_once_refuted shows a login told twice. C118_records_told_partial covers get_user_info, get_user_session_info and get_client_session_info with their type checks, C118_records_stored the same for all databases, C118_id_of_token get_session_id_by_token."
  },
  {
   "property": "C119",
   "status": "partial",
   "theorems": [
    "OidcOp.C119_session_isolation",
    "OidcOp.C119_client_isolation",
    "OidcOp.C119_received_changes_nothing_partial",
    "OidcOp.C119_processed_only_own",
    "OidcOp.Ex.C119_used_code_refuted"
   ],
   "note": "Proved for all operations but the presentation of a used code by another client, which is refuted: it revokes the tokens of the client the code was issued to."
  },
  {
   "property": "C120",
   "status": "partial",
   "theorems": [
    "OidcOp.C120_not_asked_again_partial",
    "OidcOp.C120_asked_again_partial",
    "OidcOp.C120_new_login_partial",
    "OidcOp.Ex.C120_other_client_refuted",
    "OidcOp.Ex.C120_removed_refuted"
   ],
   "note": "Proved for the client the cookie was made for and sessions that are in the database; refuted for other clients (no single sign-on) and for removed sessions (KeyError)."
  },
  {
   "property": "C121",
   "status": "proved",
   "theorems": [
    "OidcOp.C121_code_flow"
   ],
   "note": "From every history of the provider, with anything in between that leaves the session alone."
  },
  {
   "property": "C122",
   "status": "partial",
   "theorems": [
    "OidcOp.C122_signed_token_partial",
    "OidcOp.C122_dpop_scheme_refuted",
    "OidcOp.Ex.C122_bearer_refuted",
    "OidcOp.Ex.C122_introspection_refuted"
   ],
   "note": "Proved: signed tokens say the key. Refuted: bound tokens are taken as bearer tokens without a proof, never with the scheme DPoP (every state), and introspection does not tell the key."
  },
  {
   "property": "C123",
   "status": "proved",
   "theorems": [
    "OidcOp.C123_access_token",
    "OidcOp.C123_code"
   ],
   "note": "For sessions that are not changed in between, as in C121."
  },
  {
   "property": "C124",
   "status": "proved",
   "theorems": [
    "OidcOp.C124_login_page",
    "OidcOp.C124_pushed",
    "OidcOp.C124_response"
   ],
   "note": "Redirect URIs as in C31 (bases differ, nothing percent-encoded), since the code cannot serve the others; requests without cookies (with cookies: C37-C39, C120)."
  },
  {
   "property": "C125",
   "status": "proved",
   "theorems": [
    "OidcOp.C125_stays_served",
    "OidcOp.C125_from_login"
   ],
   "note": "Refresh requests without a scope of their own; the scope of the token and the scope it is based on are the same (for others C20)."
  },
  {
   "property": "C126",
   "status": "proved",
   "theorems": [
    "OidcOp.C126_at_most_one",
    "OidcOp.C126_as_pushed",
    "OidcOp.C126_not_lost",
    "OidcOp.C126_alone"
   ],
   "note": "For all schedules of any number of threads; the accesses to the table are taken as the atomic steps, as they are under Python's interpreter lock."
  },
  {
   "property": "C127",
   "status": "partial",
   "theorems": [
    "OidcOp.C127_refuted",
    "OidcOp.C127_later_partial",
    "OidcOp.C127_refused_partial",
    "OidcOp.C127_alone"
   ],
   "note": "Refuted: two threads can both look before either notes the jti. Proved for all schedules: once accepted, no request that comes later is accepted with it, and none is refused unless one was accepted."
  },
  {
   "property": "C128",
   "status": "partial",
   "theorems": [
    "OidcOp.C128_there_partial",
    "OidcOp.C128_no_failure_partial",
    "OidcOp.C128_kept_partial",
    "OidcOp.C128_first_login_refuted",
    "OidcOp.C128_new_client_refuted",
    "OidcOp.C128_alone"
   ],
   "note": "Refuted for first logins of a user and first logins at a client. Proved for all schedules when the user has been at the client before: every session that is created can be read, none of the logins fails; and no session that could be read before is lost, in any case."
  },
  {
   "property": "C129",
   "status": "partial",
   "theorems": [
    "OidcOp.C129_ended_partial",
    "OidcOp.C129_new_client_refuted",
    "OidcOp.C129_alone",
    "OidcOp.C129_no_error_partial",
    "OidcOp.C129_finishes_partial",
    "OidcOp.C129_others",
    "OidcOp.C129_others_readable_partial"
   ],
   "note": "Refuted for a client that is new for the user: a record that another login stores late brings back a session the logout did not see. Where the user has been at the client before: over all schedules every session that could be read when the logout began is revoked when it is over (C129_ended_partial). Over all schedules, sessions of other users or at other clients stay as they were (C129_others), and can still be read where their client's record was there before (C129_others_readable_partial). Where the user has been at the client before and the sessions that its record lists are there, no logout there is stopped by an error (C129_no_error_partial), and each comes to its end when it is let run (C129_finishes_partial)."
  },
  {
   "property": "C130",
   "status": "partial",
   "theorems": [
    "OidcOp.C130_all_threads_partial",
    "OidcOp.C130_all_threads_never_revived",
    "OidcOp.C130_all_threads_tokens",
    "OidcOp.C130_later_partial",
    "OidcOp.C130_revoked",
    "OidcOp.C130_uninterrupted",
    "OidcOp.Ex.C130_refuted",
    "OidcOp.C130_never_revived",
    "OidcOp.C130_scopes"
   ],
   "note": "Refuted: two threads can both make tokens before either revokes the refresh token. Proved for all histories: from the first response on the token is revoked, a request that comes later gets no response, and at most the threads that were past minting still answer."
  },
  {
   "property": "C131",
   "status": "partial",
   "theorems": [
    "OidcOp.C131_alone",
    "OidcOp.C131_revoked_partial",
    "OidcOp.C131_replay_partial",
    "OidcOp.C131_refuted",
    "OidcOp.C131_replay_refuted"
   ],
   "note": "Refuted: mint_token checks the base token before it makes the value and appends the new token after it, so a thread in between appends a live token after the revocation or the replay of the code. Proved for all schedules: if no thread is in between with a token of the line, everything derived is revoked for ever."
  }
 ]
}