{"claims": [
  {"property": "C01", "status": "proved", "theorems": ["Verif.Props.C01_code_only_for_wellformed"], "note": "Open semantics: any store, any failure."},
  {"property": "C02", "status": "proved", "theorems": ["Verif.Props.C02_client_registered"], "note": "Open semantics."},
  {"property": "C03", "status": "proved", "theorems": ["Verif.Props.C03_code_bound_to_session", "Verif.Props.C03_no_code_no_session", "Verif.Props.C03_session_justified"], "note": "Open semantics; C03_session_justified also covers interrupted executions."},
  {"property": "C04", "status": "proved", "theorems": ["Verif.Props.C04_redeemed_once", "Verif.Props.C04_unique_code_single_use"], "note": "Closed system, sequential histories of any length with failures and crashes; assumes that no two objects addressed in the history share a storage key."},
  {"property": "C05", "status": "partial", "theorems": ["Verif.Props.C05_violated", "Verif.Props.C05_double_redemption_overlaps_partial"], "note": "False of the code: C05_violated is the counterexample. The partial theorem shows that double redemption requires each lookup to precede the other request's deletion."},
  {"property": "C06", "status": "proved", "theorems": ["Verif.Props.C06_consumed_code_is_dead"], "note": "Closed system, any interleaving and failures."},
  {"property": "C07", "status": "proved", "theorems": ["Verif.Props.C07_code_expires", "Verif.Props.C07_announced_lifetime"], "note": "The 60 seconds are measured from the storage of the session to the session lookup of the redemption."},
  {"property": "C08", "status": "proved", "theorems": ["Verif.Props.C08_pkce"], "note": "Closed system, any interleaving; relates to the request as submitted, directly or pushed."},
  {"property": "C09", "status": "proved", "theorems": ["Verif.Props.C09_redirect_uri"], "note": "Closed system, any interleaving."},
  {"property": "C10", "status": "partial", "theorems": ["Verif.Props.C10_violated", "Verif.Props.C10_client_binding_partial"], "note": "False of the code: C10_violated. Holds when the redirect URI is registered for one client only."},
  {"property": "C11", "status": "proved", "theorems": ["Verif.Props.C11_attempt_consumes_code", "Verif.Props.C06_consumed_code_is_dead"], "note": "Closed system, any interleaving and failures."},
  {"property": "C12", "status": "proved", "theorems": ["Verif.Props.C12_code_token_claims"], "note": "Closed system, any interleaving."},
  {"property": "C13", "status": "proved", "theorems": ["Verif.Props.C13_tokens_iff_scope", "Verif.Props.code_success"], "note": "Open semantics."},
  {"property": "C14", "status": "partial", "theorems": ["Verif.Props.C14_violated", "Verif.Props.C14_offline_needs_consent_partial"], "note": "False of the code for duplicated offline_access: C14_violated; proved for scopes naming it at most once."},
  {"property": "C15", "status": "proved", "theorems": ["Verif.Props.C15_pushed_verbatim", "Verif.Props.C15_pushed_once"], "note": "Verbatim and consumption for any interleaving, at most one code per push for sequential histories."},
  {"property": "C16", "status": "proved", "theorems": ["Verif.Props.C16_push_by_owner", "Verif.Props.C16_pushed_request_justified", "Verif.Props.C16_key_violated"], "note": "Open semantics. C16_key_violated, beyond the statement: the key shown with the push is forgotten, so the code is not bound to it."},
  {"property": "C17", "status": "partial", "theorems": ["Verif.Props.C17_violated", "Verif.Props.C17_push_flow_dead", "Verif.Props.C17_with_prefix_partial", "Verif.Props.C17_check"], "note": "Violated by the code: no generated request URI passes the shipped check, so with the shipped generator no pushed request is ever answered with a code. The partial theorem covers what the check would accept."},
  {"property": "C18", "status": "proved", "theorems": ["Verif.Props.C18_response_mode"], "note": "Open semantics."},
  {"property": "C19", "status": "proved", "theorems": ["Verif.Props.C19_grant_registered"], "note": "Open semantics, all grants."},
  {"property": "C20", "status": "proved", "theorems": ["Verif.Props.C20_client_credentials"], "note": "Open semantics."},
  {"property": "C21", "status": "proved", "theorems": ["Verif.Props.C21_stored_lifetimes", "Verif.Props.C21_created_lifetimes"], "note": "Any interleaving, failures and clock; exchanged tokens have nbf 0."},
  {"property": "C22", "status": "proved", "theorems": ["Verif.Props.C22_stored_before_returned", "Verif.Props.C22_stored_under_request_issuer"], "note": "Open-store theorem for every storage behaviour (issuer is the one named in the stored refresh token for refresh); history theorem identifies it with the request issuer absent key clashes."},
  {"property": "C23", "status": "proved", "theorems": ["Verif.Props.C23_fail_closed", "Verif.Props.C23_orphan_access_token"], "note": "Includes the witness of the orphaned access token mentioned in the statement."},
  {"property": "C24", "status": "proved", "theorems": ["Verif.Props.C24_refresh_owner"], "note": "Open semantics."},
  {"property": "C25", "status": "proved", "theorems": ["Verif.Props.C25_refresh_step", "Verif.Props.C25_refresh_chain"], "note": "Step for any store; chains over histories without key clash and with non-repeating generators."},
  {"property": "C26", "status": "proved", "theorems": ["Verif.Props.C26_rotation_step", "Verif.Props.C26_rotated_token_is_dead", "Verif.Props.C26_reuse_without_rotation"], "note": "Rotation happens exactly when the new access token would outlive the refresh token; C26_reuse_without_rotation is the witness that it does not happen on every use."},
  {"property": "C27", "status": "proved", "theorems": ["Verif.Props.C27_revocation_is_final", "Verif.Props.C27_sequential"], "note": "Under non-repeating generators and no key clash; Dead describes lookups, introspection, refresh and exchange after the revoking call."},
  {"property": "C28", "status": "partial", "theorems": ["Verif.Props.C28_revokes_presented_partial", "Verif.Props.C28_violated"], "note": "Holds when ids do not repeat; violated by an id collision."},
  {"property": "C29", "status": "proved", "theorems": ["Verif.Props.C29_exchange"], "note": "Open semantics."},
  {"property": "C30", "status": "partial", "theorems": ["Verif.Props.C30_exchange_scope_partial", "Verif.Props.C30_scope_widening"], "note": "The property is false of the code: C30_scope_widening is the counterexample; without a requested scope the scope is unchanged."},
  {"property": "C31", "status": "partial", "theorems": ["Verif.Props.C31_exchange_audience_partial", "Verif.Props.C31_unknown_audience_no_oauth_error", "Verif.Props.C31_audience_failure_crashes", "Verif.Props.C31_shipped"], "note": "False of the code: two counterexamples; the partial theorem covers resolvable audiences, and C31_shipped says which these are with the shipped resources."},
  {"property": "C32", "status": "proved", "theorems": ["Verif.Props.C32_signed", "Verif.Props.C32_endpoint", "Verif.Props.C32_service"], "note": "The endpoint for every request, the service for every store, and the signed answers."},
  {"property": "C33", "status": "partial", "theorems": ["Verif.Props.C33_issuers_isolated_partial", "Verif.Props.C33_violated", "Verif.Props.C33_exchange_violated"], "note": "Holds for prefix-free issuers and a collision-free hash; violated for issuers where one is a prefix of another. C33_exchange_violated: an exchange then answers with, and stores, a token that names the other issuer."},
  {"property": "C34", "status": "proved", "theorems": ["Verif.Props.C34_device_tokens", "Verif.Props.C34_approved_by_user", "Verif.Props.C34_audience_violated"], "note": "Open semantics for one request; C34_approved_by_user links the tokens to an earlier approval by their subject, over concurrent histories. C34_audience_violated, beyond the statement: the audience asked for at the start never reaches the tokens."},
  {"property": "C35", "status": "partial", "theorems": ["Verif.Props.C35_never_completes", "Verif.Props.C35_first_poll_violated", "Verif.Props.C35_pending_completes_partial"], "note": "Violated in every history: the shipped service stores sessions without status and expiry; over HTTP the first poll is told that the code has expired, although the answer said it was good for two minutes. With a session stored pending the flow completes (proved after any history)."},
  {"property": "C36", "status": "proved", "theorems": ["Verif.Props.C36_approved_session_is_final", "Verif.Props.C36_approved_once", "Verif.Props.C36_answers", "Verif.Props.C36_violated_concurrently"], "note": "Sequential histories, arbitrary initial stores; witness of the violation for overlapping approvals."},
  {"property": "C37", "status": "partial", "theorems": ["Verif.Props.C37_violated", "Verif.Props.C37_window_partial"], "note": "Violated (witness). What holds: no tokens later than two minutes after the last registration or approval under the key."},
  {"property": "C38", "status": "proved", "theorems": ["Verif.Props.C38_accepted_proof", "Verif.Props.C38_accepted_proof_remembered", "Verif.Props.C38_valid_proof_accepted", "Verif.Props.C38_confirmation_needs_token_value"], "note": "Open semantics; signature verification is a parameter. Includes the converse: a valid unseen proof is accepted."},
  {"property": "C39", "status": "proved", "theorems": ["Verif.Props.C39_no_replay", "Verif.Props.C39_slow_replay"], "note": "For verifications that look up the cache within 29 s of reading the clock; C39_slow_replay shows that a slower verification can be replayed."},
  {"property": "C40", "status": "partial", "theorems": ["Verif.Props.C40_replay_needs_overlap_partial", "Verif.Props.C40_violated"], "note": "Violated for overlapping verifications (witness); holds when they do not overlap."},
  {"property": "C41", "status": "partial", "theorems": ["Verif.Props.C41_roundtrip_partial", "Verif.Props.C41_violated", "Verif.Props.C41_authentic", "Verif.Props.C41_error_unbound_violated"], "note": "Round trip exact for a signer with header type jarm+jwt; the shipped signer writes jarm, so every shipped response is refused; error responses are bound to nothing."},
  {"property": "C42", "status": "proved", "theorems": ["Verif.Props.C42_private_key_jwt", "Verif.Props.C42_refused_no_client", "Verif.Props.C42_holder_accepted"], "note": "go-jose parsing and signature primitives are parameters of the model; C42_holder_accepted is the converse (the key holder is accepted)."},
  {"property": "C43", "status": "partial", "theorems": ["Verif.Props.C43_attestation_partial", "Verif.Props.C43_violated"], "note": "The code violates the property: C43_violated shows any registered client with keys authenticates as any other. C43_attestation_partial states what is established."},
  {"property": "C44", "status": "partial", "theorems": ["Verif.Props.C44_contains", "Verif.Props.C44_hasOneOf", "Verif.Props.C44_hasAll_partial", "Verif.Props.C44_hasAll_violated", "Verif.Props.C44_addIfNotContains", "Verif.Props.C44_remove_partial", "Verif.Props.C44_remove_violated", "Verif.Props.C44_blank"], "note": "HasAll() of an empty list answers false; Remove removes the first occurrence only."},
  {"property": "C45", "status": "proved", "theorems": ["Verif.Props.C45_secureCompare"], "note": "Down to the bit operations of crypto/subtle."},
  {"property": "C46", "status": "proved", "theorems": ["Verif.Props.C46_roundtrip", "Verif.Props.C46_token_types", "Verif.Props.C46_token_marks", "Verif.Props.C46_form"], "note": "Every generated token is accepted by the generating side's own check, for any 32-byte hash and any alphanumeric prefix; both shipped token types have such a prefix."},
  {"property": "C47", "status": "partial", "theorems": ["Verif.Props.C47_accepted_iff", "Verif.Props.C47_protected_injective", "Verif.Props.C47_type_confusion", "Verif.Props.C47_crash_iff", "Verif.Props.C47_violated_crash", "Verif.Props.C47_violated_malleable"], "note": "Acceptance is characterised exactly (tag equality over the protected text) and the protected text determines prefix, purpose and bytes. The code violates the rest: attacker text crashes the parser and an extra leading zero is accepted; both are proved with witnesses."},
  {"property": "C48", "status": "partial", "theorems": ["Verif.Props.C48_pair_accepted", "Verif.Props.C48_validate_violated", "Verif.Props.C48_validate_plain", "Verif.Props.C48_alphabet"], "note": "The endpoints accept every generated pair; the library's Validate refuses every generated pair."},
  {"property": "C49", "status": "partial", "theorems": ["Verif.Props.C49_separates_partial", "Verif.Props.C49_subjects", "Verif.Props.C49_violated", "Verif.Props.C49_blanks"], "note": "Violated for sectors extending one another; proved for sectors that are not prefixes of one another."},
  {"property": "C50", "status": "partial", "theorems": ["Verif.Props.C50_access_token", "Verif.Props.C50_access_token_complete", "Verif.Props.C50_refresh_token", "Verif.Props.C50_refresh_token_complete", "Verif.Props.C50_client_assertion_partial", "Verif.Props.C50_assertion_nbf_violated"], "note": "Access and refresh tokens: exact policy in both directions. Client assertions: nbf is not checked (C50_assertion_nbf_violated); everything else is."},
  {"property": "C51", "status": "partial", "theorems": ["Verif.Props.C51_accepted", "Verif.Props.C51_proof_of_possession", "Verif.Props.C51_bearer_passes", "Verif.Props.C51_crash_partial", "Verif.Props.C51_violated_crash", "Verif.Props.C51_shipped_never_passes", "Verif.Props.C51_stepup_needs_report"], "note": "Acceptance conditions proved for every client, request and execution. The code violates the rest: a header without a token crashes it, and with the shipped client library no request ever gets through, because decoding an introspection answer dereferences nil."},
  {"property": "C52", "status": "proved", "theorems": ["Verif.Props.C52_authenticateRequest", "Verif.Props.C52_error", "Verif.Props.C52_client", "Verif.Props.C52_authenticateResponse", "Verif.Props.C52_registerResponse", "Verif.Props.C52_softwareStatement", "Verif.Props.C52_protectedResourceMetadata", "Verif.Props.C52_mTLSEndpoints", "Verif.Props.C52_serverMetadata", "Verif.Props.C52_authorizationRequest", "Verif.Props.C52_authorizeRequest", "Verif.Props.C52_authorizeResponse", "Verif.Props.C52_tokenConfirmation", "Verif.Props.C52_registrationRequest", "Verif.Props.C52_registrationResponse", "Verif.Props.C52_tokenMeta", "Verif.Props.C52_actor", "Verif.Props.C52_token", "Verif.Props.C52_tokenResponse", "Verif.Props.C52_deviceAuthorizationRequest", "Verif.Props.C52_deviceAuthorizationResponse", "Verif.Props.C52_deviceCodeValidationRequest", "Verif.Props.C52_deviceCodeValidationResponse", "Verif.Props.C52_grantAuthorizationCode", "Verif.Props.C52_grantRefreshToken", "Verif.Props.C52_grantDeviceCode", "Verif.Props.C52_grantClientCredentials", "Verif.Props.C52_grantTokenExchange", "Verif.Props.C52_resource", "Verif.Props.C52_authorizationCodeSession", "Verif.Props.C52_deviceCodeSession", "Verif.Props.C52_introspectRequest", "Verif.Props.C52_introspectResponse", "Verif.Props.C52_revokeRequest", "Verif.Props.C52_revokeResponse", "Verif.Props.C52_oAuthTokenResponse", "Verif.Props.C52_tokenRequest", "Verif.Props.C52_injective", "Verif.Props.C52_actor_depth", "Verif.Props.C52_clientMeta", "Verif.Props.C52_registerRequest", "Verif.Props.C52_any_order", "Verif.Props.C52_entry_overrun"], "note": "All 39 message types of api/oidc. C52_entry_overrun shows an input that the decoder accepts although a map entry ends before its key does."},
  {"property": "C53", "status": "proved", "theorems": ["Verif.Props.C53_validateToken", "Verif.Props.C53_validateSignature", "Verif.Props.C53_defaultVerifier", "Verif.Props.C53_embeddedVerifier"], "note": "Characterisations of the three verification entry points."},
  {"property": "C54", "status": "partial", "theorems": ["Verif.Props.C54_errors_carry_nothing", "Verif.Props.C54_token_error_reported_partial", "Verif.Props.C54_exchange_bare_error", "Verif.Props.C54_revoke_bare_error"], "note": "First half proved for all endpoints; second half false for exchange and revocation (counterexamples)."},
  {"property": "C55", "status": "partial", "theorems": ["Verif.Props.C55_no_crash_partial", "Verif.Props.C31_audience_failure_crashes", "Verif.Props.C55_working"], "note": "False for token exchange naming an audience if the resource store fails; proved for every other request, and for all requests in histories in which no call fails (C55_working)."},
  {"property": "C56", "status": "proved", "theorems": ["Verif.Props.C56_alpha", "Verif.Props.C56_num", "Verif.Props.C56_injective"], "note": ""},
  {"property": "C57", "status": "proved", "theorems": ["Verif.Props.C57_authorize", "Verif.Props.C57_redeem", "Verif.Props.C57_refresh", "Verif.Props.C57_exchange"], "note": ""},
  {"property": "C58", "status": "proved", "theorems": ["Verif.Props.C58_codes_accepted", "Verif.Props.C58_check"], "note": ""},
  {"property": "C59", "status": "partial", "theorems": ["Verif.Props.C59_audience_violated", "Verif.Props.C59_replay_violated"], "note": "Violated by the code: any non-empty audience is accepted and authentication changes no state."},
  {"property": "C60", "status": "partial", "theorems": ["Verif.Props.C60_private_key_jwt", "Verif.Props.C60_attestation_partial", "Verif.Props.C60_violated"], "note": "private_key_jwt never crashes; client attestation crashes exactly on a confirmation without a key (or a nil request)."},
  {"property": "C61", "status": "partial", "theorems": ["Verif.Props.C61_accepted_partial", "Verif.Props.C61_violated"], "note": "Holds for the code and refresh grants; violated for client credentials, device and exchange in every execution."},
  {"property": "C62", "status": "partial", "theorems": ["Verif.Props.C62_roundtrip_partial", "Verif.Props.C62_violated", "Verif.Props.C62_other_url_refused", "Verif.Props.C62_embedded"], "note": "Round trip for a signer with header type dpop+jwt and URLs not needing escaping; refuted for the shipped signer."},
  {"property": "C63", "status": "proved", "theorems": ["Verif.Props.C63_client_required", "Verif.Props.C63_user_required", "Verif.Props.C63_tokens_for_client"], "note": "Over the composed router, middleware, handler and service model."},
  {"property": "C64", "status": "partial", "theorems": ["Verif.Props.C64_binding", "Verif.Props.C64_refresh_keeps", "Verif.Props.C64_violated_no_proof", "Verif.Props.C64_violated_unbound"], "note": "Holds for all grants but refresh; the code violates it for refresh in both directions."},
  {"property": "C65", "status": "partial", "theorems": ["Verif.Props.C65_no_crash_partial", "Verif.Props.C65_violated_token", "Verif.Props.C65_violated_revoke"], "note": "Violated by the code as found; the partial theorem names exactly the excluded situations."},
  {"property": "C66", "status": "partial", "theorems": ["Verif.Props.C66_device_client_partial", "Verif.Props.C66_violated"], "note": "Violated when the body names a client; holds when only the query does."},
  {"property": "C67", "status": "partial", "theorems": ["Verif.Props.C67_signed", "Verif.Props.C67_violated"], "note": "The signature is by the query's client; the code may be issued to another one."},
  {"property": "C68", "status": "partial", "theorems": ["Verif.Props.C68_content", "Verif.Props.C68_violated"], "note": "The content holds; the response mode is ignored."},
  {"property": "C69", "status": "partial", "theorems": ["Verif.Props.C69_grants", "Verif.Props.C69_violated"], "note": "Only advertised, registered grants; token exchange is never served."},
  {"property": "C70", "status": "proved", "theorems": ["Verif.Props.C70_device_authorization", "Verif.Props.C70_sessions_registered"], "note": "Whether the session is retrievable is C34/C35; lookup of the client is by the id in the request (C66 for the HTTP endpoint)."},
  {"property": "C71", "status": "partial", "theorems": ["Verif.Props.C71_revoked_by_holder_partial", "Verif.Props.C71_violated"], "note": "Holds: a revoked token was presented by a client known to the store or rotated by its owner. Missing: revocation by the owner only, which fails (C71_violated)."},
  {"property": "C72", "status": "proved", "theorems": ["Verif.Props.C72_exact", "Verif.Props.C72_unknown_refused", "Verif.Props.C72_unambiguous", "Verif.Props.C72_roundtrip", "Verif.Props.C72_server"], "note": "Relative to JSON parsing and to the signature library (parameters)."},
  {"property": "C73", "status": "partial", "theorems": ["Verif.Props.C73_gets_token_partial", "Verif.Props.C73_introspects", "Verif.Props.C73_violated", "Verif.Props.C73_shipped_violated", "Verif.Props.C73_expiry_violated"], "note": "Holds for clients whose tokens need not be bound to a key. The library sends no proof of possession, so a client with bound tokens never gets one; the client of the device example is registered like this. C73_expiry_violated: the client does not learn when the token expires."},
  {"property": "C74", "status": "partial", "theorems": ["Verif.Props.C74_history", "Verif.Props.C74_available", "Verif.Props.C74_never_cached", "Verif.Props.C74_violated", "Verif.Props.C74_no_crash_partial"], "note": "All but the last part. An answer without the member keys makes the client crash."},
  {"property": "C75", "status": "partial", "theorems": ["Verif.Props.C75_gets_token_partial", "Verif.Props.C75_shipped_violated", "Verif.Props.C75_anyone_violated", "Verif.Props.C75_crash_violated"], "note": "Holds for a server that accepts the algorithm of the attestations. The example server does not, so the attestation example never gets a token; the attestation server attests any key for any client and crashes on a request without key."},
  {"property": "C76", "status": "partial", "theorems": ["Verif.Props.C76_violated", "Verif.Props.C76_partial"], "note": "Holds if no public client is registered. Otherwise the identifier of a public client in the query is enough to read the claims of any valid token."},
  {"property": "C77", "status": "partial", "theorems": ["Verif.Props.C77_client_reads", "Verif.Props.C77_codes_partial", "Verif.Props.C77_codes_violated", "Verif.Props.C77_member_violated"], "note": "The client library reads the errors. The code is written to the member err instead of error, and the code for an expired device session is not registered."},
  {"property": "C78", "status": "partial", "theorems": ["Verif.Props.C78_undisturbed", "Verif.Props.C78_overlapping_partial", "Verif.Props.C78_absent_violated", "Verif.Props.C78_nested_violated", "Verif.Props.C78_iss_violated"], "note": "Holds for a request that no other one disturbs. Overlapping requests can be answered without a signature or with the signature of another description; what is signed is always a description of the server. The iss claim of RFC 8414 is missing."},
  {"property": "C79", "status": "partial", "theorems": ["Verif.Props.C79_endpoints", "Verif.Props.C79_urls", "Verif.Props.C79_device_page", "Verif.Props.C79_algs", "Verif.Props.C79_proofs_violated", "Verif.Props.C79_empty_violated", "Verif.Props.C79_accepted", "Verif.Props.C79_advertised", "Verif.Props.C79_response_type_violated", "Verif.Props.C79_assertions", "Verif.Props.C79_assertion_violated"], "note": "Holds for the endpoints, the request objects and the authorization responses. The only advertised algorithm of DPoP proofs is refused, and empty members are written; a code is issued for the response type token, which is not advertised, and assertions signed by ES256 are accepted, which is not advertised."},
  {"property": "C80", "status": "partial", "theorems": ["Verif.Props.C80_connects", "Verif.Props.C80_holds_partial", "Verif.Props.C80_issuer_violated", "Verif.Props.C80_mixup_violated", "Verif.Props.C80_null_violated"], "note": "A client of the example server ends up with its description and keys. The issuer in the description is not compared, an assertion made for another server gets a token here, and the answer null crashes the client."},
  {"property": "C81", "status": "proved", "theorems": ["Verif.Props.C81_code", "Verif.Props.C81_device", "Verif.Props.C81_refresh", "Verif.Props.C81_lifetime", "Verif.Props.C81_par", "Verif.Props.C81_codes", "Verif.Props.C81_approval"], "note": "Relative to the stores and libraries (parameters)."},
  {"property": "C82", "status": "partial", "theorems": ["Verif.Props.C82_redirect_partial", "Verif.Props.C82_violated_always", "Verif.Props.C82_violated", "Verif.Props.C82_violated_unicode", "Verif.Props.C82_violated_bytes"], "note": "Only equality up to letter case holds (C82_redirect_partial); every other spelling is accepted (C82_violated), also U+212A and U+017F for k and s, and malformed bytes for each other."},
  {"property": "C83", "status": "partial", "theorems": ["Verif.Props.C83_resource_partial", "Verif.Props.C83_token_partial", "Verif.Props.C83_violated_always", "Verif.Props.C83_violated"], "note": "Holds without the X-Forwarded-Scheme header. With it, proofs for other servers are accepted (C83_violated_always, C83_violated); only the end of the URL is bound."},
  {"property": "C84", "status": "partial", "theorems": ["Verif.Props.C84_verify_partial", "Verif.Props.C84_violated"], "note": "Verify only parses and compares the algorithm with the one of the embedded key; tokens that no key verifies pass. The other methods check signatures (C53)."},
  {"property": "C85", "status": "partial", "theorems": ["Verif.Props.Rand.C85_linearizable", "Verif.Props.Rand.C85_no_race", "Verif.Props.Rand.C85_progress_partial", "Verif.Props.Rand.C85_panic_violated", "Verif.Props.Rand.C85_callback_violated"], "note": "Serial answers and absence of data races hold always. Progress holds if no call panics and no callback uses the generator; otherwise all goroutines wait forever (C85_panic_violated, C85_callback_violated)."},
  {"property": "C86", "status": "partial", "theorems": ["Verif.Props.Ser.C86_paseto", "Verif.Props.Ser.C86_cwt", "Verif.Props.Ser.C86_jwt_partial", "Verif.Props.Ser.C86_jwt_type_violated", "Verif.Props.Ser.C86_jwt_kind", "Verif.Props.Ser.C86_formats", "Verif.Props.Ser.C86_paseto_kind", "Verif.Props.Ser.C86_cwt_kind", "Verif.Props.Ser.C86_encrypted", "Verif.Props.Ser.C86_decrypted", "Verif.Props.Ser.C86_no_crash_partial", "Verif.Props.Ser.C86_cwt_crash_violated", "Verif.Props.Ser.C86_content_type"], "note": "PASETO and CWT in full. JWTs carry the bare name of the kind as type, never the media type (C86_jwt_type_violated). The CWT serializer panics without a key provider (C86_cwt_crash_violated)."},
  {"property": "C87", "status": "proved", "theorems": ["Verif.Props.C87_refines"], "note": ""},
  {"property": "C88", "status": "proved", "theorems": ["Verif.Props.C88_subject_origin", "Verif.Props.C88_tokens_speak_for", "Verif.Props.C88_introspected"], "note": ""},
  {"property": "C89", "status": "partial", "theorems": ["Verif.Props.C89_code_once", "Verif.Props.C89_code_origin", "Verif.Props.C89_overlap_violated", "Verif.Props.C89_client_violated"], "note": "Single use holds for requests served one after the other; overlapping requests violate it (C89_overlap_violated). The code is not bound to the client (C89_client_violated)."},
  {"property": "C90", "status": "proved", "theorems": ["Verif.Props.C90_revoked_for_good", "Verif.Props.C90_proof_once", "Verif.Props.C90_device_never"], "note": ""},
  {"property": "C91", "status": "proved", "theorems": ["Verif.Props.C91_flow", "Verif.Props.C91_par", "Verif.Props.C91_refresh", "Verif.Props.C91_credentials", "Verif.Props.C91_revoke", "Verif.Props.C91_spent"], "note": ""},
  {"property": "C92", "status": "partial", "theorems": ["Verif.Props.C92_reasons", "Verif.Props.C92_prescribed_partial", "Verif.Props.C92_broken", "Verif.Props.C92_violated", "Verif.Props.C92_violated_audience", "Verif.Props.C92_occurs"], "note": "The codes are wrong for nine reasons: a client that may not use the grant type is told unsupported_grant_type, a public client invalid_client, an unknown grant type, a missing grant payload and missing code parameters are told invalid_grant, unknown and foreign device codes and unusable refresh tokens invalid_request, other device states invalid_token; an unknown audience gets no code at all."},
  {"property": "C93", "status": "partial", "theorems": ["Verif.Props.C93_authorize", "Verif.Props.C93_register", "Verif.Props.C93_prescribed_partial", "Verif.Props.C93_state", "Verif.Props.C93_device", "Verif.Props.C93_violated", "Verif.Props.C93_device_violated", "Verif.Props.C93_not_sent", "Verif.Props.C93_redirect_violated", "Verif.Props.C93_occurs", "Verif.Props.C93_occurs_pushed", "Verif.Props.C93_occurs_device"], "note": "The codes are wrong for unknown response types and for clients that may not use the code grant or the response type; the device endpoint tells unknown clients, clients that may not use the grant and failures of the client store with other codes than the prescribed ones; and no error of the authorization endpoint is ever sent to the redirect URI."},
  {"property": "C94", "status": "partial", "theorems": ["Verif.Props.C94_reading", "Verif.Props.C94_host_reading", "Verif.Props.C94_target_partial", "Verif.Props.C94_exact", "Verif.Props.C94_received", "Verif.Props.C94_one_line", "Verif.Props.C94_private_scheme", "Verif.Props.C94_fragment_mode", "Verif.Props.C94_form_mode", "Verif.Props.C94_query_violated", "Verif.Props.C94_query_violated_example", "Verif.Props.C94_relative_violated", "Verif.Props.C94_fragment_violated", "Verif.Props.C94_no_authority_violated", "Verif.Props.C94_characters", "Verif.Props.C94_authority"], "note": "The query of the redirect URI is not retained; redirect URIs that are relative, have a fragment or have no authority are accepted and lead elsewhere."},
  {"property": "C95", "status": "partial", "theorems": ["Verif.Props.C95_sound_partial", "Verif.Props.C95_resource_partial", "Verif.Props.C95_token_partial", "Verif.Props.C95_url_partial", "Verif.Props.C95_roundtrip_partial", "Verif.Props.C95_prover_violated", "Verif.Props.C95_double_violated", "Verif.Props.C83_violated_exact"], "note": "Proofs of the SDK for URIs without path or with escaped characters in the path are refused; a path with an escaped percent sign is decoded twice, so that a proof for another URI is accepted; X-Forwarded-Scheme is trusted."},
  {"property": "C96", "status": "partial", "theorems": ["Verif.Props.C96_status", "Verif.Props.C96_refines", "Verif.Props.C96_challenge", "Verif.Props.C96_json", "Verif.Props.C96_page", "Verif.Props.C96_location", "Verif.Props.C96_one_line", "Verif.Props.C96_cache_violated", "Verif.Props.C96_login_violated", "Verif.Props.C96_grammar", "Verif.Props.C96_fields", "Verif.Props.C96_names", "Verif.Props.C96_quoted", "Verif.Props.C96_told_apart", "Verif.Props.C96_declared"], "note": "No answer of the endpoints for clients has Cache-Control or Pragma, so tokens may be cached; the refusal of the login lacks the security headers because the adapters are applied in the reverse order."},
  {"property": "C97", "status": "partial", "theorems": ["Verif.Props.C97_unique", "Verif.Props.C97_written", "Verif.Props.C97_reads_partial", "Verif.Props.C97_client", "Verif.Props.C97_gets_token_partial", "Verif.Props.C97_login", "Verif.Props.C97_repeated_violated", "Verif.Props.C97_malformed_violated", "Verif.Props.C97_query_violated", "Verif.Props.C97_get_violated", "Verif.Props.C97_ignored"], "note": "Repeated parameters, malformed pairs, codes in the URL and introspection or revocation by GET are accepted."},
  {"property": "C98", "status": "partial", "theorems": ["Verif.Props.C98_counting", "Verif.Props.C98_codes", "Verif.Props.C98_opaque", "Verif.Props.C98_user_codes", "Verif.Props.C98_ids", "Verif.Props.C98_refines", "Verif.Props.C98_jti_violated"], "note": "Identifiers of DPoP proofs have 62^16 < 2^96 values, those of assertions and tokens 62^8 < 2^48."},
  {"property": "C99", "status": "partial", "theorems": ["Verif.Props.C99_private_key", "Verif.Props.C99_prescribed_partial", "Verif.Props.C99_attestation", "Verif.Props.C99_http", "Verif.Props.C99_violated", "Verif.Props.C99_attestation_violated", "Verif.Props.C99_http_violated"], "note": "Malformed, incomplete and expired assertions are told invalid_request; refused attestations unauthorized_client, also when the store failed; unacceptable proofs of possession get no code; over HTTP a request without credentials is told invalid_request."},
  {"property": "C100", "status": "partial", "theorems": ["Verif.Props.C100_told", "Verif.Props.C100_refines", "Verif.Props.C100_dpop_violated", "Verif.Props.C100_no_credentials_violated", "Verif.Props.C100_forbidden_violated", "Verif.Props.C100_plain"], "note": "DPoP requests are challenged for bearer tokens, a 403 carries no challenge, and a request without credentials is told an error code."},
  {"property": "C101", "status": "partial", "theorems": ["Verif.Props.C101_signed", "Verif.Props.C101_binding", "Verif.Props.C101_metadata", "Verif.Props.C101_boundary_violated", "Verif.Props.C101_metadata_violated"], "note": "The payload has no mark between issuer and nonce, so readers who do not check the nonce's length accept a second reading; the metadata has empty arrays, a misnamed scope member, and another resource than the issuer."},
  {"property": "C102", "status": "proved", "theorems": ["Verif.Props.C102_noninterference", "Verif.Props.C102_untouched", "Verif.Props.C102_http_noninterference", "Verif.Props.C102_http_untouched", "Verif.Props.C102_code", "Verif.Props.C102_token"], "note": ""},
  {"property": "C103", "status": "proved", "theorems": ["Verif.Props.C103_authenticateRequest", "Verif.Props.C103_error", "Verif.Props.C103_client", "Verif.Props.C103_authenticateResponse", "Verif.Props.C103_registerResponse", "Verif.Props.C103_softwareStatement", "Verif.Props.C103_protectedResourceMetadata", "Verif.Props.C103_mTLSEndpoints", "Verif.Props.C103_serverMetadata", "Verif.Props.C103_authorizationRequest", "Verif.Props.C103_authorizeRequest", "Verif.Props.C103_authorizeResponse", "Verif.Props.C103_tokenConfirmation", "Verif.Props.C103_registrationRequest", "Verif.Props.C103_registrationResponse", "Verif.Props.C103_tokenMeta", "Verif.Props.C103_actor", "Verif.Props.C103_token", "Verif.Props.C103_tokenResponse", "Verif.Props.C103_deviceAuthorizationRequest", "Verif.Props.C103_deviceAuthorizationResponse", "Verif.Props.C103_deviceCodeValidationRequest", "Verif.Props.C103_deviceCodeValidationResponse", "Verif.Props.C103_grantAuthorizationCode", "Verif.Props.C103_grantRefreshToken", "Verif.Props.C103_grantDeviceCode", "Verif.Props.C103_grantClientCredentials", "Verif.Props.C103_grantTokenExchange", "Verif.Props.C103_resource", "Verif.Props.C103_authorizationCodeSession", "Verif.Props.C103_deviceCodeSession", "Verif.Props.C103_introspectRequest", "Verif.Props.C103_introspectResponse", "Verif.Props.C103_revokeRequest", "Verif.Props.C103_revokeResponse", "Verif.Props.C103_oAuthTokenResponse", "Verif.Props.C103_tokenRequest", "Verif.Props.C103_clientMeta", "Verif.Props.C103_registerRequest"], "note": "All 39 message types of api/oidc."},
  {"property": "C104", "status": "proved", "theorems": ["Verif.Props.C104_end_to_end", "Verif.Props.C104_revoked"], "note": "The client is any that reports what the server answered; the shipped one crashes on the answer instead (C51_shipped_never_passes), so with it nothing is handed on at all."},
  {"property": "C105", "status": "proved", "theorems": ["Verif.Props.C105_tokens", "Verif.Props.C105_answers", "Verif.Props.C105_authorize", "Verif.Props.C105_attested", "Verif.Props.C105_resource", "Verif.Props.C105_open_introspection", "Verif.Props.C105_codes", "Verif.Props.C105_named"], "note": "The registry is transcribed from client.go (Model/Registry.lean)."},
  {"property": "C106", "status": "partial", "theorems": ["Verif.Props.C106_unambiguous", "Verif.Props.C106_said_once", "Verif.Props.C106_error_partial", "Verif.Props.C106_error_violated", "Verif.Props.C106_answers_partial", "Verif.Props.C106_thumb_violated", "Verif.Props.C106_faithful_partial", "Verif.Props.C106_faithful_violated", "Verif.Props.C106_no_markup_partial", "Verif.Props.C106_error_markup_violated", "Verif.Props.C106_metadata"], "note": "Violated for strings that are not UTF-8 (an error with such a state and an active token with such a thumbprint are answered with an empty body; two such scopes have the same text), and error answers repeat markup in the state."},
  {"property": "C107", "status": "partial", "theorems": ["Verif.Props.C107_published", "Verif.Props.C107_only_public", "Verif.Props.C107_read", "Verif.Props.C107_secret", "Verif.Props.C107_shipped", "Verif.Props.C107_verifies", "Verif.Props.C107_registered", "Verif.Props.C107_clients", "Verif.Props.C107_separate", "Verif.Props.C107_shared_violated", "Verif.Props.C107_sound", "Verif.Props.C107_set_sound", "Verif.Props.C107_told_apart"], "note": "All but the last sentence. The attestation server and the resource server generate their Ed25519 keys from texts whose first 32 bytes are the same, so they have the same key; the registered clients have different ones."},
  {"property": "C108", "status": "proved", "theorems": ["Verif.Props.C108_authenticateRequest", "Verif.Props.C108_error", "Verif.Props.C108_client", "Verif.Props.C108_authenticateResponse", "Verif.Props.C108_registerResponse", "Verif.Props.C108_softwareStatement", "Verif.Props.C108_protectedResourceMetadata", "Verif.Props.C108_mTLSEndpoints", "Verif.Props.C108_serverMetadata", "Verif.Props.C108_authorizationRequest", "Verif.Props.C108_authorizeRequest", "Verif.Props.C108_authorizeResponse", "Verif.Props.C108_tokenConfirmation", "Verif.Props.C108_registrationRequest", "Verif.Props.C108_registrationResponse", "Verif.Props.C108_tokenMeta", "Verif.Props.C108_actor", "Verif.Props.C108_token", "Verif.Props.C108_tokenResponse", "Verif.Props.C108_deviceAuthorizationRequest", "Verif.Props.C108_deviceAuthorizationResponse", "Verif.Props.C108_deviceCodeValidationRequest", "Verif.Props.C108_deviceCodeValidationResponse", "Verif.Props.C108_grantAuthorizationCode", "Verif.Props.C108_grantRefreshToken", "Verif.Props.C108_grantDeviceCode", "Verif.Props.C108_grantClientCredentials", "Verif.Props.C108_grantTokenExchange", "Verif.Props.C108_resource", "Verif.Props.C108_authorizationCodeSession", "Verif.Props.C108_deviceCodeSession", "Verif.Props.C108_introspectRequest", "Verif.Props.C108_introspectResponse", "Verif.Props.C108_revokeRequest", "Verif.Props.C108_revokeResponse", "Verif.Props.C108_oAuthTokenResponse", "Verif.Props.C108_tokenRequest", "Verif.Props.C108_clientMeta", "Verif.Props.C108_registerRequest", "Verif.Props.C108_written"], "note": ""},
  {"property": "C109", "status": "partial", "theorems": ["Verif.Props.C109_tokens", "Verif.Props.C109_codes", "Verif.Props.C109_devices", "Verif.Props.C109_introspection", "Verif.Props.C109_method_violated", "Verif.Props.C109_shipped_violated"], "note": "All but the last sentence. The registered method of authentication is not looked at, so a web application gets a token of a service by attesting itself (C109_method_violated), and none of the clients of the in-memory storage is registered for private_key_jwt (C109_shipped_violated)."},
  {"property": "C110", "status": "partial", "theorems": ["Verif.Props.C110_derived_partial", "Verif.Props.C110_chain_partial", "Verif.Props.C110_forever_violated", "Verif.Props.C110_revoke_violated"], "note": "All but the last clause, which is false: a client with the exchange grant renews an access token for as long as it likes, and revocation does not reach what was made from the revoked token. What holds instead is a bound: each step adds at most the lifetime of the new token and the duration of the request. The theorems assume empty stores at the beginning, no key clash and generators that do not repeat themselves."},
  {"property": "C111", "status": "partial", "theorems": ["Verif.Props.C111_registered_partial", "Verif.Props.C111_shipped_partial", "Verif.Props.C111_identifier_partial", "Verif.Props.C111_name", "Verif.Props.C111_alias_violated", "Verif.Props.C111_name_violated"], "note": "Register writes the identifier into the object of the caller and stores the pointer, so registering one object twice changes the client registered first; nothing refuses an identifier that is drawn again; and a name does not determine a client, two of the shipped ones have the same. The partial theorems assume that objects are registered once and identifiers not drawn again; C111_name says exactly which clients GetByName can return."},
  {"property": "C112", "status": "partial", "theorems": ["Verif.Props.C112_authenticateRequest", "Verif.Props.C112_error", "Verif.Props.C112_client", "Verif.Props.C112_authenticateResponse", "Verif.Props.C112_registerResponse", "Verif.Props.C112_softwareStatement", "Verif.Props.C112_protectedResourceMetadata", "Verif.Props.C112_mTLSEndpoints", "Verif.Props.C112_serverMetadata", "Verif.Props.C112_authorizationRequest", "Verif.Props.C112_authorizeRequest", "Verif.Props.C112_authorizeResponse", "Verif.Props.C112_tokenConfirmation", "Verif.Props.C112_registrationRequest", "Verif.Props.C112_registrationResponse", "Verif.Props.C112_tokenMeta", "Verif.Props.C112_actor", "Verif.Props.C112_token", "Verif.Props.C112_tokenResponse", "Verif.Props.C112_deviceAuthorizationRequest", "Verif.Props.C112_deviceAuthorizationResponse", "Verif.Props.C112_deviceCodeValidationRequest", "Verif.Props.C112_deviceCodeValidationResponse", "Verif.Props.C112_grantAuthorizationCode", "Verif.Props.C112_grantRefreshToken", "Verif.Props.C112_grantDeviceCode", "Verif.Props.C112_grantClientCredentials", "Verif.Props.C112_grantTokenExchange", "Verif.Props.C112_resource", "Verif.Props.C112_authorizationCodeSession", "Verif.Props.C112_deviceCodeSession", "Verif.Props.C112_introspectRequest", "Verif.Props.C112_introspectResponse", "Verif.Props.C112_revokeRequest", "Verif.Props.C112_revokeResponse", "Verif.Props.C112_oAuthTokenResponse", "Verif.Props.C112_tokenRequest", "Verif.Props.C112_clientMeta", "Verif.Props.C112_registerRequest", "Verif.Props.C112_number_violated"], "note": "Proved as stated for numbers below 2^29, the numbers a field can have. C112_number_violated: greater numbers should be refused, but the decoders keep only 32 bits of the number, so 2^32 + 1 is taken for field 1, and 2^29 is kept as unknown."},
  {"property": "C113", "status": "proved", "theorems": ["Verif.Props.C113_authenticateRequest", "Verif.Props.C113_error", "Verif.Props.C113_client", "Verif.Props.C113_authenticateResponse", "Verif.Props.C113_registerResponse", "Verif.Props.C113_softwareStatement", "Verif.Props.C113_protectedResourceMetadata", "Verif.Props.C113_mTLSEndpoints", "Verif.Props.C113_serverMetadata", "Verif.Props.C113_authorizationRequest", "Verif.Props.C113_authorizeRequest", "Verif.Props.C113_authorizeResponse", "Verif.Props.C113_tokenConfirmation", "Verif.Props.C113_registrationRequest", "Verif.Props.C113_registrationResponse", "Verif.Props.C113_tokenMeta", "Verif.Props.C113_actor", "Verif.Props.C113_token", "Verif.Props.C113_tokenResponse", "Verif.Props.C113_deviceAuthorizationRequest", "Verif.Props.C113_deviceAuthorizationResponse", "Verif.Props.C113_deviceCodeValidationRequest", "Verif.Props.C113_deviceCodeValidationResponse", "Verif.Props.C113_grantAuthorizationCode", "Verif.Props.C113_grantRefreshToken", "Verif.Props.C113_grantDeviceCode", "Verif.Props.C113_grantClientCredentials", "Verif.Props.C113_grantTokenExchange", "Verif.Props.C113_resource", "Verif.Props.C113_authorizationCodeSession", "Verif.Props.C113_deviceCodeSession", "Verif.Props.C113_introspectRequest", "Verif.Props.C113_introspectResponse", "Verif.Props.C113_revokeRequest", "Verif.Props.C113_revokeResponse", "Verif.Props.C113_oAuthTokenResponse", "Verif.Props.C113_tokenRequest", "Verif.Props.C113_clientMeta", "Verif.Props.C113_registerRequest", "Verif.Props.C113_concatenated", "Verif.Props.C113_map"], "note": ""},
  {"property": "C114", "status": "proved", "theorems": ["Verif.Props.C114_assumptions", "Verif.Props.C114_pkce", "Verif.Props.C114_tokens", "Verif.Props.C114_store_keys", "Verif.Props.C114_clash_iff", "Verif.Props.C114_collisions", "Verif.Props.C114_pairwise"], "note": "The hash functions are written out in Go/Sha256.lean and Go/Blake2b.lean and agree with test vectors (Replay/Hash.lean)."},
  {"property": "C115", "status": "proved", "theorems": ["Verif.Props.C115_one_step", "Verif.Props.C115_revoked", "Verif.Props.C115_services", "Verif.Props.C115_get_violated", "Verif.Props.C115_race"], "note": "Accesses are sequentially consistent in the model; the unsynchronised assignment of the status is a data race in Go (C115_race). Delete is called by nothing and not modelled."}
]}
