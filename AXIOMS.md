# Axioms of the claimed theorems

Output of `#print axioms` for every theorem named in `MANIFEST.json`.

| theorem | axioms |
|---|---|
| `Verif.Props.C01_code_only_for_wellformed` | propext, Classical.choice, Quot.sound |
| `Verif.Props.C02_client_registered` | propext, Classical.choice, Quot.sound |
| `Verif.Props.C03_code_bound_to_session` | propext, Classical.choice, Quot.sound |
| `Verif.Props.C03_no_code_no_session` | propext, Classical.choice, Quot.sound |
| `Verif.Props.C03_session_justified` | propext, Classical.choice, Quot.sound |
| `Verif.Props.C04_redeemed_once` | propext, Classical.choice, Quot.sound |
| `Verif.Props.C04_unique_code_single_use` | propext, Classical.choice, Quot.sound |
| `Verif.Props.C05_violated` | propext, Quot.sound |
| `Verif.Props.C05_double_redemption_overlaps_partial` | propext, Classical.choice, Quot.sound |
| `Verif.Props.C06_consumed_code_is_dead` | propext, Classical.choice, Quot.sound |
| `Verif.Props.C07_code_expires` | propext, Classical.choice, Quot.sound |
| `Verif.Props.C07_announced_lifetime` | propext, Classical.choice, Quot.sound |
| `Verif.Props.C08_pkce` | propext, Classical.choice, Quot.sound |
| `Verif.Props.C09_redirect_uri` | propext, Classical.choice, Quot.sound |
| `Verif.Props.C10_violated` | propext, Classical.choice, Quot.sound |
| `Verif.Props.C10_client_binding_partial` | propext, Classical.choice, Quot.sound |
| `Verif.Props.C11_attempt_consumes_code` | propext, Classical.choice, Quot.sound |
| `Verif.Props.C12_code_token_claims` | propext, Classical.choice, Quot.sound |
| `Verif.Props.C13_tokens_iff_scope` | propext, Classical.choice, Quot.sound |
| `Verif.Props.code_success` | propext, Classical.choice, Quot.sound |
| `Verif.Props.C14_violated` | propext, Classical.choice, Quot.sound |
| `Verif.Props.C14_offline_needs_consent_partial` | propext, Classical.choice, Quot.sound |
| `Verif.Props.C15_pushed_verbatim` | propext, Classical.choice, Quot.sound |
| `Verif.Props.C15_pushed_once` | propext, Classical.choice, Quot.sound |
| `Verif.Props.C16_push_by_owner` | propext, Classical.choice, Quot.sound |
| `Verif.Props.C16_pushed_request_justified` | propext, Classical.choice, Quot.sound |
| `Verif.Props.C16_key_violated` | propext, Quot.sound |
| `Verif.Props.C17_violated` | propext, Quot.sound |
| `Verif.Props.C17_push_flow_dead` | propext, Classical.choice, Quot.sound |
| `Verif.Props.C17_with_prefix_partial` | propext, Classical.choice, Quot.sound |
| `Verif.Props.C17_check` | propext, Classical.choice, Quot.sound |
| `Verif.Props.C18_response_mode` | propext, Classical.choice, Quot.sound |
| `Verif.Props.C19_grant_registered` | propext, Classical.choice, Quot.sound |
| `Verif.Props.C20_client_credentials` | propext, Classical.choice, Quot.sound |
| `Verif.Props.C21_stored_lifetimes` | propext, Classical.choice, Quot.sound |
| `Verif.Props.C21_created_lifetimes` | propext, Classical.choice, Quot.sound |
| `Verif.Props.C22_stored_before_returned` | propext, Classical.choice, Quot.sound |
| `Verif.Props.C22_stored_under_request_issuer` | propext, Classical.choice, Quot.sound |
| `Verif.Props.C23_fail_closed` | propext, Classical.choice, Quot.sound |
| `Verif.Props.C23_orphan_access_token` | propext |
| `Verif.Props.C24_refresh_owner` | propext, Classical.choice, Quot.sound |
| `Verif.Props.C25_refresh_step` | propext, Classical.choice, Quot.sound |
| `Verif.Props.C25_refresh_chain` | propext, Classical.choice, Quot.sound |
| `Verif.Props.C26_rotation_step` | propext, Classical.choice, Quot.sound |
| `Verif.Props.C26_rotated_token_is_dead` | propext, Classical.choice, Quot.sound |
| `Verif.Props.C26_reuse_without_rotation` | propext, Quot.sound |
| `Verif.Props.C27_revocation_is_final` | propext, Classical.choice, Quot.sound |
| `Verif.Props.C27_sequential` | propext, Classical.choice, Quot.sound |
| `Verif.Props.C28_revokes_presented_partial` | propext, Classical.choice, Quot.sound |
| `Verif.Props.C28_violated` | propext, Quot.sound |
| `Verif.Props.C29_exchange` | propext, Classical.choice, Quot.sound |
| `Verif.Props.C30_exchange_scope_partial` | propext, Classical.choice, Quot.sound |
| `Verif.Props.C30_scope_widening` | propext, Quot.sound |
| `Verif.Props.C31_exchange_audience_partial` | propext, Classical.choice, Quot.sound |
| `Verif.Props.C31_unknown_audience_no_oauth_error` | propext |
| `Verif.Props.C31_audience_failure_crashes` | propext, Quot.sound |
| `Verif.Props.C31_shipped` | propext, Classical.choice, Quot.sound |
| `Verif.Props.C32_signed` | propext, Quot.sound |
| `Verif.Props.C32_endpoint` | propext, Quot.sound |
| `Verif.Props.C32_service` | propext, Quot.sound |
| `Verif.Props.C33_issuers_isolated_partial` | propext, Classical.choice, Quot.sound |
| `Verif.Props.C33_violated` | propext, Quot.sound |
| `Verif.Props.C33_exchange_violated` | propext, Quot.sound |
| `Verif.Props.C34_device_tokens` | propext, Classical.choice, Quot.sound |
| `Verif.Props.C34_approved_by_user` | propext, Classical.choice, Quot.sound |
| `Verif.Props.C34_audience_violated` | propext, Classical.choice, Quot.sound |
| `Verif.Props.C35_never_completes` | propext, Classical.choice, Quot.sound |
| `Verif.Props.C35_first_poll_violated` | propext, Classical.choice, Quot.sound |
| `Verif.Props.C35_pending_completes_partial` | propext, Quot.sound |
| `Verif.Props.C36_approved_session_is_final` | propext, Classical.choice, Quot.sound |
| `Verif.Props.C36_approved_once` | propext, Classical.choice, Quot.sound |
| `Verif.Props.C36_answers` | propext, Classical.choice, Quot.sound |
| `Verif.Props.C36_violated_concurrently` | propext, Quot.sound |
| `Verif.Props.C37_violated` | propext, Quot.sound |
| `Verif.Props.C37_window_partial` | propext, Classical.choice, Quot.sound |
| `Verif.Props.C38_accepted_proof` | propext, Quot.sound |
| `Verif.Props.C38_accepted_proof_remembered` | propext, Quot.sound |
| `Verif.Props.C38_valid_proof_accepted` | propext, Quot.sound |
| `Verif.Props.C38_confirmation_needs_token_value` | propext |
| `Verif.Props.C39_no_replay` | propext, Classical.choice, Quot.sound |
| `Verif.Props.C39_slow_replay` | propext |
| `Verif.Props.C40_replay_needs_overlap_partial` | propext, Classical.choice, Quot.sound |
| `Verif.Props.C40_violated` | propext, Quot.sound |
| `Verif.Props.C41_roundtrip_partial` | propext, Quot.sound |
| `Verif.Props.C41_violated` | propext, Quot.sound |
| `Verif.Props.C41_authentic` | propext, Quot.sound |
| `Verif.Props.C41_error_unbound_violated` | propext, Quot.sound |
| `Verif.Props.C42_private_key_jwt` | propext, Quot.sound |
| `Verif.Props.C42_refused_no_client` | propext, Quot.sound |
| `Verif.Props.C42_holder_accepted` | propext, Quot.sound |
| `Verif.Props.C43_attestation_partial` | propext, Quot.sound |
| `Verif.Props.C43_violated` | propext, Quot.sound |
| `Verif.Props.C44_contains` | propext, Quot.sound |
| `Verif.Props.C44_hasOneOf` | propext, Quot.sound |
| `Verif.Props.C44_hasAll_partial` | propext, Quot.sound |
| `Verif.Props.C44_hasAll_violated` | propext, Quot.sound |
| `Verif.Props.C44_addIfNotContains` | propext, Quot.sound |
| `Verif.Props.C44_remove_partial` | propext, Quot.sound |
| `Verif.Props.C44_remove_violated` | propext, Quot.sound |
| `Verif.Props.C44_blank` | propext, Classical.choice, Quot.sound |
| `Verif.Props.C45_secureCompare` | propext, Classical.choice, Quot.sound |
| `Verif.Props.C46_roundtrip` | propext, Classical.choice, Quot.sound |
| `Verif.Props.C46_token_types` | propext, Classical.choice, Quot.sound |
| `Verif.Props.C46_token_marks` | propext, Quot.sound |
| `Verif.Props.C46_form` | propext, Quot.sound |
| `Verif.Props.C47_accepted_iff` | propext, Classical.choice, Quot.sound |
| `Verif.Props.C47_protected_injective` | propext |
| `Verif.Props.C47_type_confusion` | propext, Classical.choice, Quot.sound |
| `Verif.Props.C47_crash_iff` | propext, Quot.sound |
| `Verif.Props.C47_violated_crash` | propext, Quot.sound |
| `Verif.Props.C47_violated_malleable` | propext, Classical.choice, Quot.sound |
| `Verif.Props.C48_pair_accepted` | propext, Quot.sound |
| `Verif.Props.C48_validate_violated` | propext, Classical.choice, Quot.sound |
| `Verif.Props.C48_validate_plain` | propext, Classical.choice, Quot.sound |
| `Verif.Props.C48_alphabet` | propext, Quot.sound |
| `Verif.Props.C49_separates_partial` | propext, Classical.choice, Quot.sound |
| `Verif.Props.C49_subjects` | propext, Classical.choice, Quot.sound |
| `Verif.Props.C49_violated` | propext, Quot.sound |
| `Verif.Props.C49_blanks` | propext, Classical.choice, Quot.sound |
| `Verif.Props.C50_access_token` | propext, Quot.sound |
| `Verif.Props.C50_access_token_complete` | propext, Quot.sound |
| `Verif.Props.C50_refresh_token` | propext, Quot.sound |
| `Verif.Props.C50_refresh_token_complete` | propext, Quot.sound |
| `Verif.Props.C50_client_assertion_partial` | propext, Quot.sound |
| `Verif.Props.C50_assertion_nbf_violated` | propext |
| `Verif.Props.C51_accepted` | propext, Classical.choice, Quot.sound |
| `Verif.Props.C51_proof_of_possession` | propext, Classical.choice, Quot.sound |
| `Verif.Props.C51_bearer_passes` | propext, Classical.choice, Quot.sound |
| `Verif.Props.C51_crash_partial` | propext, Classical.choice, Quot.sound |
| `Verif.Props.C51_violated_crash` | propext, Classical.choice, Quot.sound |
| `Verif.Props.C51_shipped_never_passes` | propext, Classical.choice, Quot.sound |
| `Verif.Props.C51_stepup_needs_report` | propext, Quot.sound |
| `Verif.Props.C52_authenticateRequest` | propext, Classical.choice, Quot.sound |
| `Verif.Props.C52_error` | propext, Classical.choice, Quot.sound |
| `Verif.Props.C52_client` | propext, Classical.choice, Quot.sound |
| `Verif.Props.C52_authenticateResponse` | propext, Classical.choice, Quot.sound |
| `Verif.Props.C52_registerResponse` | propext, Classical.choice, Quot.sound |
| `Verif.Props.C52_softwareStatement` | propext, Classical.choice, Quot.sound |
| `Verif.Props.C52_protectedResourceMetadata` | propext, Classical.choice, Quot.sound |
| `Verif.Props.C52_mTLSEndpoints` | propext, Classical.choice, Quot.sound |
| `Verif.Props.C52_serverMetadata` | propext, Classical.choice, Quot.sound |
| `Verif.Props.C52_authorizationRequest` | propext, Classical.choice, Quot.sound |
| `Verif.Props.C52_authorizeRequest` | propext, Classical.choice, Quot.sound |
| `Verif.Props.C52_authorizeResponse` | propext, Classical.choice, Quot.sound |
| `Verif.Props.C52_tokenConfirmation` | propext, Classical.choice, Quot.sound |
| `Verif.Props.C52_registrationRequest` | propext, Classical.choice, Quot.sound |
| `Verif.Props.C52_registrationResponse` | propext, Classical.choice, Quot.sound |
| `Verif.Props.C52_tokenMeta` | propext, Classical.choice, Quot.sound |
| `Verif.Props.C52_actor` | propext, Classical.choice, Quot.sound |
| `Verif.Props.C52_token` | propext, Classical.choice, Quot.sound |
| `Verif.Props.C52_tokenResponse` | propext, Classical.choice, Quot.sound |
| `Verif.Props.C52_deviceAuthorizationRequest` | propext, Classical.choice, Quot.sound |
| `Verif.Props.C52_deviceAuthorizationResponse` | propext, Classical.choice, Quot.sound |
| `Verif.Props.C52_deviceCodeValidationRequest` | propext, Classical.choice, Quot.sound |
| `Verif.Props.C52_deviceCodeValidationResponse` | propext, Classical.choice, Quot.sound |
| `Verif.Props.C52_grantAuthorizationCode` | propext, Classical.choice, Quot.sound |
| `Verif.Props.C52_grantRefreshToken` | propext, Classical.choice, Quot.sound |
| `Verif.Props.C52_grantDeviceCode` | propext, Classical.choice, Quot.sound |
| `Verif.Props.C52_grantClientCredentials` | propext, Classical.choice, Quot.sound |
| `Verif.Props.C52_grantTokenExchange` | propext, Classical.choice, Quot.sound |
| `Verif.Props.C52_resource` | propext, Classical.choice, Quot.sound |
| `Verif.Props.C52_authorizationCodeSession` | propext, Classical.choice, Quot.sound |
| `Verif.Props.C52_deviceCodeSession` | propext, Classical.choice, Quot.sound |
| `Verif.Props.C52_introspectRequest` | propext, Classical.choice, Quot.sound |
| `Verif.Props.C52_introspectResponse` | propext, Classical.choice, Quot.sound |
| `Verif.Props.C52_revokeRequest` | propext, Classical.choice, Quot.sound |
| `Verif.Props.C52_revokeResponse` | propext, Classical.choice, Quot.sound |
| `Verif.Props.C52_oAuthTokenResponse` | propext, Classical.choice, Quot.sound |
| `Verif.Props.C52_tokenRequest` | propext, Classical.choice, Quot.sound |
| `Verif.Props.C52_injective` | none |
| `Verif.Props.C52_actor_depth` | propext, Classical.choice, Quot.sound |
| `Verif.Props.C52_clientMeta` | propext, Classical.choice, Quot.sound |
| `Verif.Props.C52_registerRequest` | propext, Classical.choice, Quot.sound |
| `Verif.Props.C52_any_order` | propext, Classical.choice, Quot.sound |
| `Verif.Props.C52_entry_overrun` | propext |
| `Verif.Props.C53_validateToken` | propext, Quot.sound |
| `Verif.Props.C53_validateSignature` | propext, Quot.sound |
| `Verif.Props.C53_defaultVerifier` | propext, Quot.sound |
| `Verif.Props.C53_embeddedVerifier` | propext, Quot.sound |
| `Verif.Props.C54_errors_carry_nothing` | propext, Classical.choice, Quot.sound |
| `Verif.Props.C54_token_error_reported_partial` | propext, Classical.choice, Quot.sound |
| `Verif.Props.C54_exchange_bare_error` | propext |
| `Verif.Props.C54_revoke_bare_error` | propext |
| `Verif.Props.C55_no_crash_partial` | propext, Classical.choice, Quot.sound |
| `Verif.Props.C55_working` | propext, Classical.choice, Quot.sound |
| `Verif.Props.C56_alpha` | propext, Quot.sound |
| `Verif.Props.C56_num` | propext, Quot.sound |
| `Verif.Props.C56_injective` | propext, Quot.sound |
| `Verif.Props.C57_authorize` | propext, Classical.choice, Quot.sound |
| `Verif.Props.C57_redeem` | propext, Classical.choice, Quot.sound |
| `Verif.Props.C57_refresh` | propext, Quot.sound |
| `Verif.Props.C57_exchange` | propext, Classical.choice, Quot.sound |
| `Verif.Props.C58_codes_accepted` | propext, Classical.choice, Quot.sound |
| `Verif.Props.C58_check` | propext, Classical.choice, Quot.sound |
| `Verif.Props.C59_audience_violated` | propext, Quot.sound |
| `Verif.Props.C59_replay_violated` | propext, Quot.sound |
| `Verif.Props.C60_private_key_jwt` | Quot.sound |
| `Verif.Props.C60_attestation_partial` | propext, Quot.sound |
| `Verif.Props.C60_violated` | propext |
| `Verif.Props.C61_accepted_partial` | propext, Classical.choice, Quot.sound |
| `Verif.Props.C61_violated` | propext, Quot.sound |
| `Verif.Props.C62_roundtrip_partial` | propext, Quot.sound |
| `Verif.Props.C62_violated` | propext, Quot.sound |
| `Verif.Props.C62_other_url_refused` | propext, Quot.sound |
| `Verif.Props.C62_embedded` | propext |
| `Verif.Props.C63_client_required` | propext, Quot.sound |
| `Verif.Props.C63_user_required` | propext |
| `Verif.Props.C63_tokens_for_client` | propext, Classical.choice, Quot.sound |
| `Verif.Props.C64_binding` | propext, Classical.choice, Quot.sound |
| `Verif.Props.C64_refresh_keeps` | propext, Classical.choice, Quot.sound |
| `Verif.Props.C64_violated_no_proof` | propext, Classical.choice, Quot.sound |
| `Verif.Props.C64_violated_unbound` | propext, Classical.choice, Quot.sound |
| `Verif.Props.C65_no_crash_partial` | propext, Classical.choice, Quot.sound |
| `Verif.Props.C65_violated_token` | propext, Quot.sound |
| `Verif.Props.C65_violated_revoke` | propext, Quot.sound |
| `Verif.Props.C66_device_client_partial` | propext, Quot.sound |
| `Verif.Props.C66_violated` | propext, Quot.sound |
| `Verif.Props.C67_signed` | propext, Classical.choice, Quot.sound |
| `Verif.Props.C67_violated` | propext, Quot.sound |
| `Verif.Props.C68_content` | propext, Classical.choice, Quot.sound |
| `Verif.Props.C68_violated` | propext, Classical.choice, Quot.sound |
| `Verif.Props.C69_grants` | propext, Classical.choice, Quot.sound |
| `Verif.Props.C69_violated` | propext, Classical.choice, Quot.sound |
| `Verif.Props.C70_device_authorization` | propext, Quot.sound |
| `Verif.Props.C70_sessions_registered` | propext, Classical.choice, Quot.sound |
| `Verif.Props.C71_revoked_by_holder_partial` | propext, Classical.choice, Quot.sound |
| `Verif.Props.C71_violated` | propext, Quot.sound |
| `Verif.Props.C72_exact` | propext, Classical.choice, Quot.sound |
| `Verif.Props.C72_unknown_refused` | propext, Classical.choice, Quot.sound |
| `Verif.Props.C72_unambiguous` | propext, Classical.choice, Quot.sound |
| `Verif.Props.C72_roundtrip` | propext, Classical.choice, Quot.sound |
| `Verif.Props.C72_server` | propext, Classical.choice, Quot.sound |
| `Verif.Props.C73_gets_token_partial` | propext, Classical.choice, Quot.sound |
| `Verif.Props.C73_introspects` | propext, Quot.sound |
| `Verif.Props.C73_violated` | propext, Quot.sound |
| `Verif.Props.C73_shipped_violated` | propext, Quot.sound |
| `Verif.Props.C73_expiry_violated` | propext, Quot.sound |
| `Verif.Props.C74_history` | propext, Classical.choice, Quot.sound |
| `Verif.Props.C74_available` | propext, Classical.choice, Quot.sound |
| `Verif.Props.C74_never_cached` | propext, Classical.choice, Quot.sound |
| `Verif.Props.C74_violated` | propext |
| `Verif.Props.C74_no_crash_partial` | propext, Classical.choice, Quot.sound |
| `Verif.Props.C75_gets_token_partial` | propext, Quot.sound |
| `Verif.Props.C75_shipped_violated` | propext |
| `Verif.Props.C75_anyone_violated` | propext, Quot.sound |
| `Verif.Props.C75_crash_violated` | none |
| `Verif.Props.C76_violated` | propext, Quot.sound |
| `Verif.Props.C76_partial` | propext, Quot.sound |
| `Verif.Props.C77_client_reads` | propext |
| `Verif.Props.C77_codes_partial` | propext |
| `Verif.Props.C77_codes_violated` | propext, Quot.sound |
| `Verif.Props.C77_member_violated` | propext, Quot.sound |
| `Verif.Props.C78_undisturbed` | propext, Quot.sound |
| `Verif.Props.C78_overlapping_partial` | propext, Quot.sound |
| `Verif.Props.C78_absent_violated` | propext, Quot.sound |
| `Verif.Props.C78_nested_violated` | propext, Quot.sound |
| `Verif.Props.C78_iss_violated` | propext, Quot.sound |
| `Verif.Props.C79_endpoints` | propext, Quot.sound |
| `Verif.Props.C79_urls` | propext, Quot.sound |
| `Verif.Props.C79_device_page` | propext, Quot.sound |
| `Verif.Props.C79_algs` | propext |
| `Verif.Props.C79_proofs_violated` | propext |
| `Verif.Props.C79_empty_violated` | propext |
| `Verif.Props.C79_accepted` | propext, Classical.choice, Quot.sound |
| `Verif.Props.C79_advertised` | propext, Classical.choice, Quot.sound |
| `Verif.Props.C79_response_type_violated` | propext |
| `Verif.Props.C79_assertions` | propext, Quot.sound |
| `Verif.Props.C79_assertion_violated` | propext |
| `Verif.Props.C80_connects` | propext, Quot.sound |
| `Verif.Props.C80_holds_partial` | propext, Classical.choice, Quot.sound |
| `Verif.Props.C80_issuer_violated` | propext, Quot.sound |
| `Verif.Props.C80_mixup_violated` | propext, Classical.choice, Quot.sound |
| `Verif.Props.C80_null_violated` | propext |
| `Verif.Props.C81_code` | propext, Classical.choice, Quot.sound |
| `Verif.Props.C81_device` | propext, Classical.choice, Quot.sound |
| `Verif.Props.C81_refresh` | propext, Classical.choice, Quot.sound |
| `Verif.Props.C81_lifetime` | propext, Classical.choice, Quot.sound |
| `Verif.Props.C81_par` | propext, Classical.choice, Quot.sound |
| `Verif.Props.C81_codes` | propext, Quot.sound |
| `Verif.Props.C81_approval` | propext, Quot.sound |
| `Verif.Props.C82_redirect_partial` | propext, Classical.choice, Quot.sound |
| `Verif.Props.C82_violated_always` | propext, Classical.choice, Quot.sound |
| `Verif.Props.C82_violated` | propext, Classical.choice, Quot.sound |
| `Verif.Props.C82_violated_unicode` | propext, Quot.sound |
| `Verif.Props.C82_violated_bytes` | propext, Quot.sound |
| `Verif.Props.C83_resource_partial` | propext, Classical.choice, Quot.sound |
| `Verif.Props.C83_token_partial` | propext, Classical.choice, Quot.sound |
| `Verif.Props.C83_violated_always` | propext, Quot.sound |
| `Verif.Props.C83_violated` | propext, Quot.sound |
| `Verif.Props.C84_verify_partial` | propext, Quot.sound |
| `Verif.Props.C84_violated` | propext |
| `Verif.Props.Rand.C85_linearizable` | propext, Quot.sound |
| `Verif.Props.Rand.C85_no_race` | propext, Quot.sound |
| `Verif.Props.Rand.C85_progress_partial` | propext, Quot.sound |
| `Verif.Props.Rand.C85_panic_violated` | propext, Quot.sound |
| `Verif.Props.Rand.C85_callback_violated` | propext, Quot.sound |
| `Verif.Props.Ser.C86_paseto` | propext, Quot.sound |
| `Verif.Props.Ser.C86_cwt` | propext, Classical.choice, Quot.sound |
| `Verif.Props.Ser.C86_jwt_partial` | none |
| `Verif.Props.Ser.C86_jwt_type_violated` | none |
| `Verif.Props.Ser.C86_jwt_kind` | propext |
| `Verif.Props.Ser.C86_formats` | propext, Classical.choice, Quot.sound |
| `Verif.Props.Ser.C86_paseto_kind` | propext, Quot.sound |
| `Verif.Props.Ser.C86_cwt_kind` | propext, Classical.choice, Quot.sound |
| `Verif.Props.Ser.C86_encrypted` | propext |
| `Verif.Props.Ser.C86_decrypted` | propext, Quot.sound |
| `Verif.Props.Ser.C86_no_crash_partial` | none |
| `Verif.Props.Ser.C86_cwt_crash_violated` | none |
| `Verif.Props.Ser.C86_content_type` | propext |
| `Verif.Props.C87_refines` | propext, Classical.choice, Quot.sound |
| `Verif.Props.C88_subject_origin` | propext, Classical.choice, Quot.sound |
| `Verif.Props.C88_tokens_speak_for` | propext, Classical.choice, Quot.sound |
| `Verif.Props.C88_introspected` | propext, Classical.choice, Quot.sound |
| `Verif.Props.C89_code_once` | propext, Classical.choice, Quot.sound |
| `Verif.Props.C89_code_origin` | propext, Classical.choice, Quot.sound |
| `Verif.Props.C89_overlap_violated` | propext, Quot.sound |
| `Verif.Props.C89_client_violated` | propext, Quot.sound |
| `Verif.Props.C90_revoked_for_good` | propext, Classical.choice, Quot.sound |
| `Verif.Props.C90_proof_once` | propext, Classical.choice, Quot.sound |
| `Verif.Props.C90_device_never` | propext, Classical.choice, Quot.sound |
| `Verif.Props.C91_flow` | propext, Classical.choice, Quot.sound |
| `Verif.Props.C91_par` | propext, Classical.choice, Quot.sound |
| `Verif.Props.C91_refresh` | propext, Classical.choice, Quot.sound |
| `Verif.Props.C91_credentials` | propext, Classical.choice, Quot.sound |
| `Verif.Props.C91_revoke` | propext, Classical.choice, Quot.sound |
| `Verif.Props.C91_spent` | propext, Classical.choice, Quot.sound |
| `Verif.Props.C92_reasons` | propext, Quot.sound |
| `Verif.Props.C92_prescribed_partial` | propext, Quot.sound |
| `Verif.Props.C92_broken` | propext, Quot.sound |
| `Verif.Props.C92_violated` | propext, Quot.sound |
| `Verif.Props.C92_violated_audience` | propext, Quot.sound |
| `Verif.Props.C92_occurs` | propext, Classical.choice, Quot.sound |
| `Verif.Props.C93_authorize` | propext, Classical.choice, Quot.sound |
| `Verif.Props.C93_register` | propext, Classical.choice, Quot.sound |
| `Verif.Props.C93_prescribed_partial` | propext, Classical.choice, Quot.sound |
| `Verif.Props.C93_state` | propext, Classical.choice, Quot.sound |
| `Verif.Props.C93_device` | propext, Quot.sound |
| `Verif.Props.C93_violated` | propext, Classical.choice, Quot.sound |
| `Verif.Props.C93_device_violated` | propext, Quot.sound |
| `Verif.Props.C93_not_sent` | propext, Classical.choice, Quot.sound |
| `Verif.Props.C93_redirect_violated` | propext, Quot.sound |
| `Verif.Props.C93_occurs` | propext, Classical.choice, Quot.sound |
| `Verif.Props.C93_occurs_pushed` | propext, Classical.choice, Quot.sound |
| `Verif.Props.C93_occurs_device` | propext, Quot.sound |
| `Verif.Props.C94_reading` | propext, Quot.sound |
| `Verif.Props.C94_host_reading` | propext |
| `Verif.Props.C94_target_partial` | propext, Classical.choice, Quot.sound |
| `Verif.Props.C94_exact` | propext, Classical.choice, Quot.sound |
| `Verif.Props.C94_received` | propext, Classical.choice, Quot.sound |
| `Verif.Props.C94_one_line` | propext, Quot.sound |
| `Verif.Props.C94_private_scheme` | propext, Classical.choice, Quot.sound |
| `Verif.Props.C94_fragment_mode` | propext, Classical.choice, Quot.sound |
| `Verif.Props.C94_form_mode` | propext, Classical.choice, Quot.sound |
| `Verif.Props.C94_query_violated` | propext, Classical.choice, Quot.sound |
| `Verif.Props.C94_query_violated_example` | propext |
| `Verif.Props.C94_relative_violated` | propext |
| `Verif.Props.C94_fragment_violated` | propext |
| `Verif.Props.C94_no_authority_violated` | propext, Quot.sound |
| `Verif.Props.C94_characters` | propext, Classical.choice, Quot.sound |
| `Verif.Props.C94_authority` | propext, Classical.choice, Quot.sound |
| `Verif.Props.C95_sound_partial` | propext, Classical.choice, Quot.sound |
| `Verif.Props.C95_resource_partial` | propext, Classical.choice, Quot.sound |
| `Verif.Props.C95_token_partial` | propext, Classical.choice, Quot.sound |
| `Verif.Props.C95_url_partial` | propext, Classical.choice, Quot.sound |
| `Verif.Props.C95_roundtrip_partial` | propext, Classical.choice, Quot.sound |
| `Verif.Props.C95_prover_violated` | propext, Classical.choice, Quot.sound |
| `Verif.Props.C95_double_violated` | propext |
| `Verif.Props.C83_violated_exact` | propext, Quot.sound |
| `Verif.Props.C96_status` | propext, Classical.choice, Quot.sound |
| `Verif.Props.C96_refines` | propext |
| `Verif.Props.C96_challenge` | propext, Classical.choice, Quot.sound |
| `Verif.Props.C96_json` | propext, Classical.choice, Quot.sound |
| `Verif.Props.C96_page` | propext, Classical.choice, Quot.sound |
| `Verif.Props.C96_location` | propext, Classical.choice, Quot.sound |
| `Verif.Props.C96_one_line` | propext, Classical.choice, Quot.sound |
| `Verif.Props.C96_cache_violated` | propext, Classical.choice, Quot.sound |
| `Verif.Props.C96_login_violated` | propext |
| `Verif.Props.C96_grammar` | propext, Classical.choice, Quot.sound |
| `Verif.Props.C96_fields` | propext, Classical.choice, Quot.sound |
| `Verif.Props.C96_names` | propext, Quot.sound |
| `Verif.Props.C96_quoted` | propext, Quot.sound |
| `Verif.Props.C96_told_apart` | propext, Classical.choice, Quot.sound |
| `Verif.Props.C96_declared` | propext, Classical.choice, Quot.sound |
| `Verif.Props.C97_unique` | propext, Quot.sound |
| `Verif.Props.C97_written` | propext, Classical.choice, Quot.sound |
| `Verif.Props.C97_reads_partial` | propext, Classical.choice, Quot.sound |
| `Verif.Props.C97_client` | propext, Classical.choice, Quot.sound |
| `Verif.Props.C97_gets_token_partial` | propext, Classical.choice, Quot.sound |
| `Verif.Props.C97_login` | propext, Classical.choice, Quot.sound |
| `Verif.Props.C97_repeated_violated` | propext, Quot.sound |
| `Verif.Props.C97_malformed_violated` | propext, Quot.sound |
| `Verif.Props.C97_query_violated` | propext, Quot.sound |
| `Verif.Props.C97_get_violated` | propext, Quot.sound |
| `Verif.Props.C97_ignored` | propext, Classical.choice, Quot.sound |
| `Verif.Props.C98_counting` | propext, Classical.choice, Quot.sound |
| `Verif.Props.C98_codes` | propext, Classical.choice, Quot.sound |
| `Verif.Props.C98_opaque` | propext, Classical.choice, Quot.sound |
| `Verif.Props.C98_user_codes` | propext, Classical.choice, Quot.sound |
| `Verif.Props.C98_ids` | propext, Classical.choice, Quot.sound |
| `Verif.Props.C98_refines` | propext, Classical.choice, Quot.sound |
| `Verif.Props.C98_jti_violated` | propext, Classical.choice, Quot.sound |
| `Verif.Props.C99_private_key` | propext, Classical.choice, Quot.sound |
| `Verif.Props.C99_prescribed_partial` | propext, Classical.choice, Quot.sound |
| `Verif.Props.C99_attestation` | propext, Quot.sound |
| `Verif.Props.C99_http` | propext, Classical.choice, Quot.sound |
| `Verif.Props.C99_violated` | propext, Classical.choice, Quot.sound |
| `Verif.Props.C99_attestation_violated` | propext |
| `Verif.Props.C99_http_violated` | propext, Classical.choice, Quot.sound |
| `Verif.Props.C100_told` | propext, Classical.choice, Quot.sound |
| `Verif.Props.C100_refines` | propext, Quot.sound |
| `Verif.Props.C100_dpop_violated` | propext, Classical.choice, Quot.sound |
| `Verif.Props.C100_no_credentials_violated` | propext, Classical.choice, Quot.sound |
| `Verif.Props.C100_forbidden_violated` | propext, Quot.sound |
| `Verif.Props.C100_plain` | propext, Classical.choice, Quot.sound |
| `Verif.Props.C101_signed` | propext, Quot.sound |
| `Verif.Props.C101_binding` | propext, Quot.sound |
| `Verif.Props.C101_metadata` | propext, Quot.sound |
| `Verif.Props.C101_boundary_violated` | propext, Quot.sound |
| `Verif.Props.C101_metadata_violated` | propext |
| `Verif.Props.C102_noninterference` | propext, Quot.sound |
| `Verif.Props.C102_untouched` | propext, Quot.sound |
| `Verif.Props.C102_http_noninterference` | propext, Quot.sound |
| `Verif.Props.C102_http_untouched` | propext, Quot.sound |
| `Verif.Props.C102_code` | propext, Quot.sound |
| `Verif.Props.C102_token` | propext, Quot.sound |
| `Verif.Props.C103_authenticateRequest` | propext, Classical.choice, Quot.sound |
| `Verif.Props.C103_error` | propext, Classical.choice, Quot.sound |
| `Verif.Props.C103_client` | propext, Classical.choice, Quot.sound |
| `Verif.Props.C103_authenticateResponse` | propext, Classical.choice, Quot.sound |
| `Verif.Props.C103_registerResponse` | propext, Classical.choice, Quot.sound |
| `Verif.Props.C103_softwareStatement` | propext, Classical.choice, Quot.sound |
| `Verif.Props.C103_protectedResourceMetadata` | propext, Classical.choice, Quot.sound |
| `Verif.Props.C103_mTLSEndpoints` | propext, Classical.choice, Quot.sound |
| `Verif.Props.C103_serverMetadata` | propext, Classical.choice, Quot.sound |
| `Verif.Props.C103_authorizationRequest` | propext, Classical.choice, Quot.sound |
| `Verif.Props.C103_authorizeRequest` | propext, Classical.choice, Quot.sound |
| `Verif.Props.C103_authorizeResponse` | propext, Classical.choice, Quot.sound |
| `Verif.Props.C103_tokenConfirmation` | propext, Classical.choice, Quot.sound |
| `Verif.Props.C103_registrationRequest` | propext, Classical.choice, Quot.sound |
| `Verif.Props.C103_registrationResponse` | propext, Classical.choice, Quot.sound |
| `Verif.Props.C103_tokenMeta` | propext, Classical.choice, Quot.sound |
| `Verif.Props.C103_actor` | propext, Classical.choice, Quot.sound |
| `Verif.Props.C103_token` | propext, Classical.choice, Quot.sound |
| `Verif.Props.C103_tokenResponse` | propext, Classical.choice, Quot.sound |
| `Verif.Props.C103_deviceAuthorizationRequest` | propext, Classical.choice, Quot.sound |
| `Verif.Props.C103_deviceAuthorizationResponse` | propext, Classical.choice, Quot.sound |
| `Verif.Props.C103_deviceCodeValidationRequest` | propext, Classical.choice, Quot.sound |
| `Verif.Props.C103_deviceCodeValidationResponse` | propext, Classical.choice, Quot.sound |
| `Verif.Props.C103_grantAuthorizationCode` | propext, Classical.choice, Quot.sound |
| `Verif.Props.C103_grantRefreshToken` | propext, Classical.choice, Quot.sound |
| `Verif.Props.C103_grantDeviceCode` | propext, Classical.choice, Quot.sound |
| `Verif.Props.C103_grantClientCredentials` | propext, Quot.sound |
| `Verif.Props.C103_grantTokenExchange` | propext, Classical.choice, Quot.sound |
| `Verif.Props.C103_resource` | propext, Classical.choice, Quot.sound |
| `Verif.Props.C103_authorizationCodeSession` | propext, Classical.choice, Quot.sound |
| `Verif.Props.C103_deviceCodeSession` | propext, Classical.choice, Quot.sound |
| `Verif.Props.C103_introspectRequest` | propext, Classical.choice, Quot.sound |
| `Verif.Props.C103_introspectResponse` | propext, Classical.choice, Quot.sound |
| `Verif.Props.C103_revokeRequest` | propext, Classical.choice, Quot.sound |
| `Verif.Props.C103_revokeResponse` | propext, Classical.choice, Quot.sound |
| `Verif.Props.C103_oAuthTokenResponse` | propext, Classical.choice, Quot.sound |
| `Verif.Props.C103_tokenRequest` | propext, Classical.choice, Quot.sound |
| `Verif.Props.C103_clientMeta` | propext, Classical.choice, Quot.sound |
| `Verif.Props.C103_registerRequest` | propext, Classical.choice, Quot.sound |
| `Verif.Props.C104_end_to_end` | propext, Classical.choice, Quot.sound |
| `Verif.Props.C104_revoked` | propext, Classical.choice, Quot.sound |
| `Verif.Props.C105_tokens` | propext, Classical.choice, Quot.sound |
| `Verif.Props.C105_answers` | propext, Classical.choice, Quot.sound |
| `Verif.Props.C105_authorize` | propext, Classical.choice, Quot.sound |
| `Verif.Props.C105_attested` | propext, Quot.sound |
| `Verif.Props.C105_resource` | propext, Classical.choice, Quot.sound |
| `Verif.Props.C105_open_introspection` | propext, Quot.sound |
| `Verif.Props.C105_codes` | propext, Classical.choice, Quot.sound |
| `Verif.Props.C105_named` | propext, Quot.sound |
| `Verif.Props.C106_unambiguous` | propext, Classical.choice, Quot.sound |
| `Verif.Props.C106_said_once` | propext, Classical.choice, Quot.sound |
| `Verif.Props.C106_error_partial` | propext, Classical.choice, Quot.sound |
| `Verif.Props.C106_error_violated` | propext, Classical.choice, Quot.sound |
| `Verif.Props.C106_answers_partial` | propext, Classical.choice, Quot.sound |
| `Verif.Props.C106_thumb_violated` | propext, Classical.choice, Quot.sound |
| `Verif.Props.C106_faithful_partial` | propext, Classical.choice, Quot.sound |
| `Verif.Props.C106_faithful_violated` | propext |
| `Verif.Props.C106_no_markup_partial` | propext, Classical.choice, Quot.sound |
| `Verif.Props.C106_error_markup_violated` | propext, Quot.sound |
| `Verif.Props.C106_metadata` | propext, Classical.choice, Quot.sound |
| `Verif.Props.C107_published` | propext, Classical.choice, Quot.sound |
| `Verif.Props.C107_only_public` | propext, Classical.choice, Quot.sound |
| `Verif.Props.C107_read` | propext, Classical.choice, Quot.sound |
| `Verif.Props.C107_secret` | propext |
| `Verif.Props.C107_shipped` | propext, Classical.choice, Quot.sound |
| `Verif.Props.C107_verifies` | propext, Classical.choice, Quot.sound |
| `Verif.Props.C107_registered` | propext, Classical.choice, Quot.sound |
| `Verif.Props.C107_clients` | propext, Quot.sound |
| `Verif.Props.C107_separate` | propext, Classical.choice, Quot.sound |
| `Verif.Props.C107_shared_violated` | none |
| `Verif.Props.C107_sound` | propext |
| `Verif.Props.C107_set_sound` | propext, Quot.sound |
| `Verif.Props.C107_told_apart` | propext, Quot.sound |
| `Verif.Props.C108_authenticateRequest` | propext, Classical.choice, Quot.sound |
| `Verif.Props.C108_error` | propext, Classical.choice, Quot.sound |
| `Verif.Props.C108_client` | propext, Classical.choice, Quot.sound |
| `Verif.Props.C108_authenticateResponse` | propext, Classical.choice, Quot.sound |
| `Verif.Props.C108_registerResponse` | propext, Classical.choice, Quot.sound |
| `Verif.Props.C108_softwareStatement` | propext, Classical.choice, Quot.sound |
| `Verif.Props.C108_protectedResourceMetadata` | propext, Classical.choice, Quot.sound |
| `Verif.Props.C108_mTLSEndpoints` | propext, Classical.choice, Quot.sound |
| `Verif.Props.C108_serverMetadata` | propext, Classical.choice, Quot.sound |
| `Verif.Props.C108_authorizationRequest` | propext, Classical.choice, Quot.sound |
| `Verif.Props.C108_authorizeRequest` | propext, Classical.choice, Quot.sound |
| `Verif.Props.C108_authorizeResponse` | propext, Classical.choice, Quot.sound |
| `Verif.Props.C108_tokenConfirmation` | propext, Classical.choice, Quot.sound |
| `Verif.Props.C108_registrationRequest` | propext, Classical.choice, Quot.sound |
| `Verif.Props.C108_registrationResponse` | propext, Classical.choice, Quot.sound |
| `Verif.Props.C108_tokenMeta` | propext, Classical.choice, Quot.sound |
| `Verif.Props.C108_actor` | propext, Classical.choice, Quot.sound |
| `Verif.Props.C108_token` | propext, Classical.choice, Quot.sound |
| `Verif.Props.C108_tokenResponse` | propext, Classical.choice, Quot.sound |
| `Verif.Props.C108_deviceAuthorizationRequest` | propext, Classical.choice, Quot.sound |
| `Verif.Props.C108_deviceAuthorizationResponse` | propext, Classical.choice, Quot.sound |
| `Verif.Props.C108_deviceCodeValidationRequest` | propext, Classical.choice, Quot.sound |
| `Verif.Props.C108_deviceCodeValidationResponse` | propext, Classical.choice, Quot.sound |
| `Verif.Props.C108_grantAuthorizationCode` | propext, Classical.choice, Quot.sound |
| `Verif.Props.C108_grantRefreshToken` | propext, Classical.choice, Quot.sound |
| `Verif.Props.C108_grantDeviceCode` | propext, Classical.choice, Quot.sound |
| `Verif.Props.C108_grantClientCredentials` | propext, Classical.choice, Quot.sound |
| `Verif.Props.C108_grantTokenExchange` | propext, Classical.choice, Quot.sound |
| `Verif.Props.C108_resource` | propext, Classical.choice, Quot.sound |
| `Verif.Props.C108_authorizationCodeSession` | propext, Classical.choice, Quot.sound |
| `Verif.Props.C108_deviceCodeSession` | propext, Classical.choice, Quot.sound |
| `Verif.Props.C108_introspectRequest` | propext, Classical.choice, Quot.sound |
| `Verif.Props.C108_introspectResponse` | propext, Classical.choice, Quot.sound |
| `Verif.Props.C108_revokeRequest` | propext, Classical.choice, Quot.sound |
| `Verif.Props.C108_revokeResponse` | propext, Classical.choice, Quot.sound |
| `Verif.Props.C108_oAuthTokenResponse` | propext, Classical.choice, Quot.sound |
| `Verif.Props.C108_tokenRequest` | propext, Classical.choice, Quot.sound |
| `Verif.Props.C108_clientMeta` | propext, Classical.choice, Quot.sound |
| `Verif.Props.C108_registerRequest` | propext, Classical.choice, Quot.sound |
| `Verif.Props.C108_written` | propext, Quot.sound |
| `Verif.Props.C109_tokens` | propext, Classical.choice, Quot.sound |
| `Verif.Props.C109_codes` | propext, Classical.choice, Quot.sound |
| `Verif.Props.C109_devices` | propext, Classical.choice, Quot.sound |
| `Verif.Props.C109_introspection` | propext, Classical.choice, Quot.sound |
| `Verif.Props.C109_method_violated` | propext, Quot.sound |
| `Verif.Props.C109_shipped_violated` | propext, Quot.sound |
| `Verif.Props.C110_derived_partial` | propext, Classical.choice, Quot.sound |
| `Verif.Props.C110_chain_partial` | propext, Classical.choice, Quot.sound |
| `Verif.Props.C110_forever_violated` | propext, Classical.choice, Quot.sound |
| `Verif.Props.C110_revoke_violated` | propext, Quot.sound |
| `Verif.Props.C111_registered_partial` | propext, Classical.choice, Quot.sound |
| `Verif.Props.C111_shipped_partial` | propext, Classical.choice, Quot.sound |
| `Verif.Props.C111_identifier_partial` | propext, Classical.choice, Quot.sound |
| `Verif.Props.C111_name` | propext, Classical.choice, Quot.sound |
| `Verif.Props.C111_alias_violated` | propext, Classical.choice, Quot.sound |
| `Verif.Props.C111_name_violated` | propext, Classical.choice, Quot.sound |
| `Verif.Props.C112_authenticateRequest` | propext, Classical.choice, Quot.sound |
| `Verif.Props.C112_error` | propext, Classical.choice, Quot.sound |
| `Verif.Props.C112_client` | propext, Classical.choice, Quot.sound |
| `Verif.Props.C112_authenticateResponse` | propext, Classical.choice, Quot.sound |
| `Verif.Props.C112_registerResponse` | propext, Classical.choice, Quot.sound |
| `Verif.Props.C112_softwareStatement` | propext, Classical.choice, Quot.sound |
| `Verif.Props.C112_protectedResourceMetadata` | propext, Classical.choice, Quot.sound |
| `Verif.Props.C112_mTLSEndpoints` | propext, Classical.choice, Quot.sound |
| `Verif.Props.C112_serverMetadata` | propext, Classical.choice, Quot.sound |
| `Verif.Props.C112_authorizationRequest` | propext, Classical.choice, Quot.sound |
| `Verif.Props.C112_authorizeRequest` | propext, Classical.choice, Quot.sound |
| `Verif.Props.C112_authorizeResponse` | propext, Classical.choice, Quot.sound |
| `Verif.Props.C112_tokenConfirmation` | propext, Classical.choice, Quot.sound |
| `Verif.Props.C112_registrationRequest` | propext, Classical.choice, Quot.sound |
| `Verif.Props.C112_registrationResponse` | propext, Classical.choice, Quot.sound |
| `Verif.Props.C112_tokenMeta` | propext, Classical.choice, Quot.sound |
| `Verif.Props.C112_actor` | propext, Classical.choice, Quot.sound |
| `Verif.Props.C112_token` | propext, Classical.choice, Quot.sound |
| `Verif.Props.C112_tokenResponse` | propext, Classical.choice, Quot.sound |
| `Verif.Props.C112_deviceAuthorizationRequest` | propext, Classical.choice, Quot.sound |
| `Verif.Props.C112_deviceAuthorizationResponse` | propext, Classical.choice, Quot.sound |
| `Verif.Props.C112_deviceCodeValidationRequest` | propext, Classical.choice, Quot.sound |
| `Verif.Props.C112_deviceCodeValidationResponse` | propext, Classical.choice, Quot.sound |
| `Verif.Props.C112_grantAuthorizationCode` | propext, Classical.choice, Quot.sound |
| `Verif.Props.C112_grantRefreshToken` | propext, Classical.choice, Quot.sound |
| `Verif.Props.C112_grantDeviceCode` | propext, Classical.choice, Quot.sound |
| `Verif.Props.C112_grantClientCredentials` | propext, Classical.choice, Quot.sound |
| `Verif.Props.C112_grantTokenExchange` | propext, Classical.choice, Quot.sound |
| `Verif.Props.C112_resource` | propext, Classical.choice, Quot.sound |
| `Verif.Props.C112_authorizationCodeSession` | propext, Classical.choice, Quot.sound |
| `Verif.Props.C112_deviceCodeSession` | propext, Classical.choice, Quot.sound |
| `Verif.Props.C112_introspectRequest` | propext, Classical.choice, Quot.sound |
| `Verif.Props.C112_introspectResponse` | propext, Classical.choice, Quot.sound |
| `Verif.Props.C112_revokeRequest` | propext, Classical.choice, Quot.sound |
| `Verif.Props.C112_revokeResponse` | propext, Classical.choice, Quot.sound |
| `Verif.Props.C112_oAuthTokenResponse` | propext, Classical.choice, Quot.sound |
| `Verif.Props.C112_tokenRequest` | propext, Classical.choice, Quot.sound |
| `Verif.Props.C112_clientMeta` | propext, Classical.choice, Quot.sound |
| `Verif.Props.C112_registerRequest` | propext, Classical.choice, Quot.sound |
| `Verif.Props.C112_number_violated` | propext, Classical.choice, Quot.sound |
| `Verif.Props.C113_authenticateRequest` | propext, Classical.choice, Quot.sound |
| `Verif.Props.C113_error` | propext, Classical.choice, Quot.sound |
| `Verif.Props.C113_client` | propext, Classical.choice, Quot.sound |
| `Verif.Props.C113_authenticateResponse` | propext, Classical.choice, Quot.sound |
| `Verif.Props.C113_registerResponse` | propext, Classical.choice, Quot.sound |
| `Verif.Props.C113_softwareStatement` | propext, Classical.choice, Quot.sound |
| `Verif.Props.C113_protectedResourceMetadata` | propext, Classical.choice, Quot.sound |
| `Verif.Props.C113_mTLSEndpoints` | propext, Classical.choice, Quot.sound |
| `Verif.Props.C113_serverMetadata` | propext, Classical.choice, Quot.sound |
| `Verif.Props.C113_authorizationRequest` | propext, Classical.choice, Quot.sound |
| `Verif.Props.C113_authorizeRequest` | propext, Classical.choice, Quot.sound |
| `Verif.Props.C113_authorizeResponse` | propext, Classical.choice, Quot.sound |
| `Verif.Props.C113_tokenConfirmation` | propext, Classical.choice, Quot.sound |
| `Verif.Props.C113_registrationRequest` | propext, Classical.choice, Quot.sound |
| `Verif.Props.C113_registrationResponse` | propext, Classical.choice, Quot.sound |
| `Verif.Props.C113_tokenMeta` | propext, Classical.choice, Quot.sound |
| `Verif.Props.C113_actor` | propext, Classical.choice, Quot.sound |
| `Verif.Props.C113_token` | propext, Classical.choice, Quot.sound |
| `Verif.Props.C113_tokenResponse` | propext, Classical.choice, Quot.sound |
| `Verif.Props.C113_deviceAuthorizationRequest` | propext, Classical.choice, Quot.sound |
| `Verif.Props.C113_deviceAuthorizationResponse` | propext, Classical.choice, Quot.sound |
| `Verif.Props.C113_deviceCodeValidationRequest` | propext, Classical.choice, Quot.sound |
| `Verif.Props.C113_deviceCodeValidationResponse` | propext, Classical.choice, Quot.sound |
| `Verif.Props.C113_grantAuthorizationCode` | propext, Classical.choice, Quot.sound |
| `Verif.Props.C113_grantRefreshToken` | propext, Classical.choice, Quot.sound |
| `Verif.Props.C113_grantDeviceCode` | propext, Classical.choice, Quot.sound |
| `Verif.Props.C113_grantClientCredentials` | propext, Classical.choice, Quot.sound |
| `Verif.Props.C113_grantTokenExchange` | propext, Classical.choice, Quot.sound |
| `Verif.Props.C113_resource` | propext, Classical.choice, Quot.sound |
| `Verif.Props.C113_authorizationCodeSession` | propext, Classical.choice, Quot.sound |
| `Verif.Props.C113_deviceCodeSession` | propext, Classical.choice, Quot.sound |
| `Verif.Props.C113_introspectRequest` | propext, Classical.choice, Quot.sound |
| `Verif.Props.C113_introspectResponse` | propext, Classical.choice, Quot.sound |
| `Verif.Props.C113_revokeRequest` | propext, Classical.choice, Quot.sound |
| `Verif.Props.C113_revokeResponse` | propext, Classical.choice, Quot.sound |
| `Verif.Props.C113_oAuthTokenResponse` | propext, Classical.choice, Quot.sound |
| `Verif.Props.C113_tokenRequest` | propext, Classical.choice, Quot.sound |
| `Verif.Props.C113_clientMeta` | propext, Classical.choice, Quot.sound |
| `Verif.Props.C113_registerRequest` | propext, Classical.choice, Quot.sound |
| `Verif.Props.C113_concatenated` | none |
| `Verif.Props.C113_map` | propext, Classical.choice, Quot.sound |
| `Verif.Props.C114_assumptions` | propext, Quot.sound |
| `Verif.Props.C114_pkce` | propext, Quot.sound |
| `Verif.Props.C114_tokens` | propext, Classical.choice, Quot.sound |
| `Verif.Props.C114_store_keys` | propext, Quot.sound |
| `Verif.Props.C114_clash_iff` | propext |
| `Verif.Props.C114_collisions` | propext, Classical.choice, Quot.sound |
| `Verif.Props.C114_pairwise` | propext, Classical.choice, Quot.sound |
| `Verif.Props.C115_one_step` | propext, Classical.choice, Quot.sound |
| `Verif.Props.C115_revoked` | propext, Classical.choice, Quot.sound |
| `Verif.Props.C115_services` | propext, Quot.sound |
| `Verif.Props.C115_get_violated` | propext, Classical.choice, Quot.sound |
| `Verif.Props.C115_race` | propext, Quot.sound |
