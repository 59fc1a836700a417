CLAIMS=[
("C01","proved",["C01_honest_proof_accepted"],"all logs, all indices, all hash functions"),
("C02","proved",["C02_accepted_is_leaf","C02_accepted_is_member","C02_no_equivocation"],"hypothesis: no collision among the finitely many strings hashed; fixed digest length"),
("C03","proved",["C03_exact_length","C03_wrong_length_rejected"],"for index < size"),
("C04","partial",["C04_position_not_checked","C04_path_matches_claimed_position_partial"],"the full claim is false of the code (refuted by a concrete entry); the partial theorem says what the proof check does guarantee about the position"),
("C05","proved",["C05_checkpoint_sound","C05_unambiguous"],"for all texts, keyrings, log ids"),
("C06","partial",["C06_malformed_leaks_other_errors","C06_non_ascii_root_leaks","C06_failures_classified_partial","C06_clean_partial"],"the full claim is false of the code (refuted); partial: complete classification of the errors that can occur, and a condition under which only VerificationError occurs"),
("C07","proved",["C07_roundtrip","C07_honest_checkpoint_iff","C07_no_hint_rejected"],"hypothesis: the integer parser reads back decimal numerals"),
("C08","proved",["C08_set_payload_iff","C08_set_payload_injective","C08_set_payload_defined","C08_verified_set_is_a_signed_entry"],""),
("C10","proved",["C10_keyring_total","C10_keyring_iff","C10_known_id","C10_unknown_id","C10_sound","C10_failure_is_verification_error"],""),
("C11","proved",["C11_loads_iff","C11_loaded_key_usable","C11_load_failure","C11_bad_key_skipped"],""),
("C12","proved",["C12_usable_iff","C12_sign_usable_implies_verify_usable","C12_log_keys_iff","C12_log_keys_order","C12_verify_usability_monotone","C12_rekor_keyring","C12_ct_keyring","C12_fulcio_certs_iff","C12_fulcio_certs_error"],""),
("C21","proved",["C21_allOf_iff","C21_allOf_error_iff","C21_anyOf_exact","C21_anyOf_iff","C21_empty_rejects"],""),
("C22","proved",["C22_identity_iff","C22_mismatch","C22_empty_issuer_is_no_issuer"],""),
("C23","proved",["C23_oid_table","C23_oids_distinct","C23_ext_iff","C23_value_unique","C23_ext_errors"],""),
("C24","partial",["C24_anyOf_can_abort","C24_anyOf_accepts_partial"],"the full claim is false of the code (refuted by a concrete policy): a child raising anything but VerificationError aborts AnyOf"),
("C25","proved",["C25_github_iff","C25_github_requires_identity_or_repository"],""),
("C26","proved",["C26_is_rfc6962","C26_encode_injective","C26_pack_injective","C26_large_rejected"],"the timestamp field is the one computed by the code, see C29"),
("C27","proved",["C27_verify_sct_iff","C27_signed_by_trusted_ct_key"],""),
("C28","partial",["C28_non_ca_issuer_accepted","C28_issuer_consistent_partial"],"the full claim is false of the code (refuted by a concrete chain): the result of cert_is_ca is ignored"),
("C29","partial",["C29_millis_not_exact","C29_exact_partial","C29_within_one_partial"],"the full claim is false of the code (refuted by a concrete timestamp in 2038); exact between 2004 and January 2038, never off by more than 1 ms"),
("C33","proved",["C33_pae_injective","C33_no_shift"],""),
("C34","proved",["C34_envelope_iff","C34_verify_iff","C34_sign_verify","C34_builder"],""),
("C53","proved",["C53_matches_iff","C53_attestation_iff","C53_mismatch"],""),
("C61","partial",["C61_non_ascii_mismatch","C61_spec_iff","C61_ascii_partial"],"the full claim is false of the code for non-ASCII payload types; exact characterisation proved"),
("C30","proved",["C30_ca_iff","C30_not_ca_iff","C30_ca_error_iff","C30_leaf_iff","C30_ca_leaf_exclusive","C30_root_iff"],""),
("C51","proved",["C51_stream_digest","C51_chunking_irrelevant","C51_hashed_unchanged","C51_no_collision"],""),
("C52","proved",["C52_selection_iff","C52_unsupported","C52_prehash","C52_registry_functional"],""),
("C60","partial",["C60_keyCertSign_leaf","C60_leaf_not_keyCertSign_partial"],"the full claim is false of the code (refuted by a concrete certificate without BasicConstraints)"),
("C54","proved",["C54_base64_roundtrip","C54_base64_injective","C54_base64_length","C54_hex_roundtrip","C54_hex_injective","C54_hex_shape","C54_utf8_exact","C54_utf8_injective"],""),
("C57","proved",["C57_entry_verifies_iff","C57_missing_proof","C57_verified_entry_is_logged"],"composes C02, C05, C10"),
("C59","partial",["C59_curve_not_checked","C59_ec_family_partial"],"the full claim is false of the code (refuted by a concrete key); only the key family is checked"),
("C13","proved",["C13_verify_artifact_iff"],"hypothesis: the trusted root's timestamp authorities carry a validity window"),
("C14","proved",["C14_verify_dsse_iff"],"hypothesis: the trusted root's timestamp authorities carry a validity window"),
("C16","proved",["C16_timestamp_iff","C16_timestamp_sound","C16_tsa_times_iff","C16_rejected","C16_establish_time_iff"],""),
("C31","proved",["C31_bundle_iff","C31_bundle_invariant"],""),
("C32","partial",["C32_upgrade_loses_timestamps","C32_upgrade_can_fail","C32_upgrade_iff_partial","C32_reassemble_partial"],"the full claim is false of the code (refuted by concrete bundles): --upgrade-version drops the signed timestamps"),
("C62","partial",["C62_not_always_invalid_bundle","C62_init_errors_partial"],"the full claim is false of the code (refuted by a concrete message); the errors that can occur are classified"),
("C63","proved",["C63_fix_bundle_iff"],""),
("C09","proved",["C09_log_time_promised","C09_no_promise_no_time"],""),
("C15","proved",["C15_valid_at_every_time","C15_expired_rejected"],"the chain validation itself (OpenSSL) is a parameter"),
("C17","proved",["C17_extra_timestamps"],""),
("C18","proved",["C18_artifact_needs_message_signature","C18_dsse_needs_envelope","C18_exclusive"],""),
("C19","partial",["C19_artifact_leaks","C19_dsse_leaks","C19_more_leaks","C19_artifact_clean_partial","C19_dsse_clean_partial"],"the full claim is false of the code (refuted by concrete inputs); conditions under which only VerificationError is raised are proved sufficient"),
("C20","proved",["C20_one_artifact","C20_same_document"],""),
("C35","proved",["C35_caching_signer","C35_construction_effects","C35_new_certificate_has_sct"],""),
("C36","partial",["C36_uncached_uses_another_key","C36_uncached_never_verifies","C36_signature_matches_partial"],"the full claim is false of the code for Signers without a cache (refuted for every such call): the certificate request and the signature use different keys; proved for caching Signers"),
("C37","proved",["C37_client_raises_timestamp_error","C37_client_returns_response","C37_timestamps","C37_no_time_source","C37_failures_tolerated"],""),
("C55","proved",["C55_artifact_entry_iff","C55_dsse_entry_iff","C55_recorded_unique","C55_recordable"],"what an honest log records is specified in Spec/Rekor"),
("C64","proved",["C64_fulcio_ok_iff","C64_fulcio_error_iff","C64_fulcio_http_iff","C64_trust_bundle_iff"],""),
("C38","partial",["C38_signed_bundle_verifies_partial","C38_signing_succeeds","C38_end_to_end_partial","C36_uncached_never_verifies"],"proved for caching Signers (the default) and SCTs from before January 2038; refuted for Signers without a cache (C36); honest services as in Spec/Honest"),
("C39","proved",["C39_services_iff","C39_failure_iff","C39_services_properties"],""),
("C40","proved",["C40_token_iff","C40_in_validity_period","C40_audience","C40_null_identity"],"a null identity claim becomes the identity text None"),
("C41","partial",["C41_first_response","C41_response_stable","C41_code_iff","C41_browser_flow","C41_out_of_band_partial","C41_out_of_band_race"],"complete for the browser flow; false of the code for the out-of-band flow (refuted by a concrete schedule), where it is proved for all schedules without the race"),
("C49","partial",["C49_oldest_partial","C49_not_found_raises","C49_search_http_iff"],"the part about HTTP 404 is false of the code (refuted for every error status)"),
("C50","partial",["C50_refuted","C50_query_partial","C50_query_iff"],"false of the code for index 0 and the empty uuid; complete description proved"),
("C56","proved",["C56_sessions_not_shared"],""),
("C65","proved",["C65_signing_config_iff","C65_context_iff","C65_context_errors"],""),
("C66","partial",["C66_leaks_type_error","C66_identity_error_partial"],"the full claim is false of the code (refuted by concrete tokens)"),
("C67","partial",["C67_empty_redirect_key_error","C67_identity_error_partial","C67_foreign_identity_error","C67_out_of_band_partial"],"the full claim is false of the code (refuted by concrete requests): a missing parameter raises `KeyError`, and a request for `/` before the out-of-band flow starts raises the `IdentityError` of another package, which `main` does not handle; proved if the parameters are present and nobody asks for `/`"),
("C68","proved",["C68_roundtrip","C68_accepted","C68_json_iff","C68_json_roundtrip"],""),
("C47","partial",["C47_quote_injective","C47_quote_byte","C47_quote_unreserved","C47_embedded_names","C47_degenerate_urls","C47_dirs_partial"],"false of the code for the URLs '', '.' and '..' (refuted); proved for all others"),
("C48","partial",["C48_cache_kept","C48_offline","C48_online","C48_remembered","C48_leaks","C48_tuf_error_partial"],"proved, except for the class of exceptions online: those of get_targetinfo are not turned into TUFError (refuted)"),
("C44","proved",["C44_returns_iff","C44_exit_zero_iff","C44_exit_zero_sound"],"hypothesis: external libraries do not call sys.exit(0) themselves"),
("C45","partial",["C45_not_exact","C45_argument_iff","C45_digest_partial"],"the full claim is false of the code (refuted for every separator and for blanks between digits); exact description proved"),
("C58","proved",["C58_one_source","C58_config_iff"],""),
("C69","proved",["C69_offline"],""),
("C70","partial",["C70_config_type_ignored","C70_root_type_partial","C70_root_type_error"],"false of the code for the configuration's own type (refuted for every type); proved for the trusted root in it"),
("C42","proved",["C42_checks_sound","C42_checks_iff","C42_fails_early","C42_sign_keeps_files","C42_attest_fails_early","C42_attest_keeps_files","C42_sign_only_outputs","C42_attest_only_outputs","C42_checks_fail","C42_threads_fail"],"nobody else changes the disk meanwhile; whether a write to an opened file fails depends on the file and on how much was written"),
("C43","partial",["C43_own_bundle","C43_own_bundle_overwrite_partial","C43_output_is_input"],"complete without --overwrite, for all interleavings of the worker threads; with --overwrite the code lets an output be another input (refuted by a concrete run), excluded by a hypothesis"),
("C46","partial",["C46_own_attestation_partial","C46_shared_bundle"],"false of the code for `attest --bundle X a b` (refuted by a concrete run); proved if the outputs are different"),
("C71","partial",["C71_bundle_for_each_partial","C71_default_output_injective","C71_same_names_collide"],"false of the code for --output-directory with equal file names (refuted by a concrete run)"),
("C72","proved",["C72_identity_iff","C72_no_fallback"],""),
("C73","proved",["C73_dsse_authentic"],"trust in the services and in the signature scheme is a hypothesis (Spec.World); extension OIDs of a certificate do not repeat; the issuer text is shorter than 4 GiB"),
("C74","partial",["C74_timestamp_of_another_signature","C74_artifact_authentic_partial"],"false of the code for bundles that also hold an envelope (refuted: timestamps are checked against the envelope's signature); proved without an envelope, or with a time from the log"),
("C75","proved",["C75_promise_is_no_checkpoint","C75_promise_is_no_sct"],""),
("C76","proved",["C76_artifact_is_public","C76_dsse_is_public"],"trust in the logs and absence of collisions among the strings hashed are hypotheses"),
("C77","proved",["C77_certificate_is_public"],"trust in the CT logs is a hypothesis"),
("C78","partial",["C78_rejected_later","C78_artifact_stays_accepted_partial","C78_dsse_stays_accepted_partial"],"false of the code: when a further timestamp authority's period starts, further timestamps of the bundle count, and each has to be within the certificate's validity (refuted by a concrete run); proved when the certificate authorities had started, no timestamp is from the future, and the bundle names its logs' keys by known, unambiguous ids"),
("C79","partial",["C79_rejected_with_more_trust","C79_artifact_stays_accepted_partial","C79_dsse_stays_accepted_partial"],"false of the code for the same reason (refuted); proved when added authorities vouch for no further timestamp of the bundle, added keys have other ids, and the chain built stays the same"),
("C80","proved",["C80_error_status_raises","C80_rekor_ok_iff","C80_rekor_get_ok_iff","C80_rekor_v2_ok_iff","C80_log_info_ok_iff","C80_signed_bundle"],"pydantic, `from_dict` of Rekor v2 and the conversion of numbers by protobuf's JSON reader are parameters"),
("C81","partial",["C81_other_exceptions","C81_message_lost","C81_fulcio_error_iff_partial"],"false of the code: connection errors, non-JSON bodies, members of other types and unloadable certificates raise other exceptions, and the server's message is never in the error because an error response is falsy (refuted); proved: exactly when FulcioClientError is raised"),
("C82","proved",["C82_timestamp_ok_iff","C82_timestamp_error_only"],""),
("C83","partial",["C83_other_exceptions","C83_issuer_ok_iff","C83_issuer_error_partial"],"false of the code: other exceptions of `requests` pass (refuted); proved for the success case and for the exceptions that the code handles"),
("C84","proved",["C84_exchange_ok_iff","C84_browser_token","C84_browser_outcome"],""),
("C85","partial",["C85_other_exceptions","C85_exchange_error_partial"],"false of the code: a body that is no JSON object raises JSONDecodeError or AttributeError, and an object without `error` and `access_token` KeyError (refuted); proved if the body is an object with one of the two"),
("C86","partial",["C86_python_names","C86_unnamed_subject","C86_statement_iff_partial","C86_read_partial","C86_unambiguous","C86_dump_iff"],"false of the code: the names of the Python attributes are accepted instead of the members of the specification, and subjects need a member `name` (both refuted); an iff for the other documents"),
("C87","proved",["C87_attested_document","C87_invalid_predicate"],"that the outputs are at different places is part of the property; C46 shows what happens otherwise"),
("C88","partial",["C88_v0_2_iff_partial","C88_v1_iff_partial","C88_common_partial","C88_content_rejected","C88_loose_boolean"],"false of the code: contents of resources are always rejected, and texts and numbers are accepted as booleans (both refuted); an exact description of what is accepted, and an iff with the specification outside these two"),
("C89","proved",["C89_accepted_iff","C89_rejected","C89_sign","C89_attest","C89_verify_identity","C89_verify_github","C89_get_identity_token","C89_trust_instance","C89_fix_bundle","C89_update_trust_root","C89_given_decides","C89_total","C89_bad_version","C89_bad_predicate_type"],"about lines of options with values; how words are read as such a line is C115"),
("C90","partial",["C90_identity_variables_ignored","C90_malformed_switch","C90_empty_switch","C90_early_verbose_ignored","C90_verbosity_partial"],"false of the code in all three respects (each refuted for all environments and lines); proved: which -v count"),
("C91","partial",["C91_verify_identity_partial","C91_verify_github"],"complete for `verify github`; for `verify identity` an empty issuer on the line is not checked (C22); hypotheses: libraries do not call sys.exit(0), and the extension OIDs of a certificate do not repeat"),
("C92","proved",["C92_no_uncaught_sigstore_error","C92_verbose_changes_nothing"],""),
("C93","partial",["C93_print_iff","C93_in_place_iff","C93_in_place_failure_partial","C93_in_place_destroys","C93_in_place_truncates","C93_only_that_file","C93_idempotent","C93_instance_ignored"],"false of the code: a text that the encoding of the locale does not have destroys the file, a write that fails truncates it, and --instance and --trust-config are ignored (all refuted); proved: everything else"),
("C94","proved",["C94_exit_zero_iff","C94_sign","C94_attest"],"that no library and no service calls sys.exit(0) is a hypothesis (Props.WorldDoesNotExit)"),
("C95","proved",["C95_sign","C95_attest","C95_verify"],"the trust configuration, the predicate and the verification materials are not themselves inputs; timing is not modelled"),
("C96","proved",["C96_token_only_to_fulcio"],"requests are what the code passes to `requests`; redirects, proxies and .netrc are not modelled; the configured Fulcio URL is http(s)://authority followed by nothing, /, ? or #"),
("C97","proved",["C97_call","C97_session","C97_refines"],"loading a certificate from a text of one character fails (hypothesis PemLoader; needed because a text is accepted where an array is expected)"),
("C98","partial",["C98_authorization_url_partial","C98_endpoint_with_query","C98_form_unique","C98_urlencode","C98_query_unique","C98_code_verifier","C98_code_challenge","C98_redirect_iff"],"false of the code for authorization endpoints with a query component, which RFC 6749 allows (refuted for all of them); proved for the others; randomness is a parameter"),
("C99","partial",["C99_fulcio_origin","C99_fulcio_iff","C99_rekor_iff","C99_issuer","C99_issuer_dots","C99_tuf_targets"],"false of the code for Fulcio URLs with a path (the path is dropped) and Rekor URLs with a trailing slash (doubled), each an iff; proved for OIDC issuers and TUF targets; the Fulcio endpoint is always at the configured origin"),
("C100","proved",["C100_verify","C100_verify_not_refused","C100_sign","C100_attest","C100_main_verify_identity","C100_main_verify_github","C100_main_sign","C100_main_attest","C100_main_trust_instance","C100_main_trust_instance_not_refused"],"status 2 for sign needs that output directories can be made, for attest that the predicate file is readable text (else OSError or UnicodeDecodeError)"),
("C101","partial",["C101_rekor_error_iff_partial","C101_malformed","C101_other_exceptions"],"false of the code for connection errors and malformed answers: RekorClientError is raised exactly for error statuses, and the exceptions of malformed answers are bounded and exhibited"),
("C102","proved",["C102_sign","C102_attest","C102_main_sign","C102_main_attest","C102_main_sign_any","C102_main_attest_any"],"hypotheses in Spec.Roundtrip: signatures made are accepted, JSON of bundles and statements is read back, the services are honest (SCTs dated between 2004 and 2038, see C38)"),
("C103","proved",["C103_sign_ends","C103_attest_ends","C103_sign_never_fails","C103_sign_succeeds","C103_attest_never_fails","C103_attest_succeeds"],"the steps of threads are those of Model.CliSign (service calls return; a call that blocks for ever is not modelled); hypotheses for success in Spec.SignReady"),
("C104","proved",["C104_artifact_bound","C104_dsse_bound","C104_policy_iff","C104_artifact_iff","C104_dsse_iff","C104_key_kind","C104_key_kind_dsse"],"exceptions of libraries are those of the model (DESIGN.md); a struct.error needs a certificate with an SCT extension of more than 65535 bytes, an OverflowError a log time of more than 63 bits, which parsers may exclude"),
("C105","proved",["C105_sign","C105_main_sign"],"hypotheses in Spec.Detached and Spec.Roundtrip: signatures made are accepted, PEM text is read back as the certificate, the services are honest, and the log search returns an entry as the log keeps it"),
("C106","proved",["C106_report", "C106_ok_sound", "C106_stdout_sound", "C106_fail_sound", "C106_not_both", "C106_success", "C106_github_not_statement"],"records below WARNING, the warning about old bundle names and the text of diagnostics are left out; the bytes literal printed by `verify github` is recorded in DESIGN.md as a disagreement with the intent"),
("C107","proved",["C107_unknown_level", "C107_same_run", "C107_all_written", "C107_errors_written", "C107_silenced", "C107_silent_failure"],"`str.upper` is a parameter that keeps INFO; the handler of the root logger is taken to write every record it gets"),
("C108","partial",["C108_sign_report", "C108_attest_report", "C108_sign_announced_partial", "C108_attest_announced_partial", "C108_announced_lost", "C108_unannounced"],"the last sentence needs that outputs lead to different places and not to inputs: `sign --output-directory out d/a e/a` announces a bundle that was replaced (`C108_announced_lost`); records of other modules than _cli.py are left out"),
("C109","proved",["C109_init_bound", "C109_artifact_bound", "C109_dsse_bound", "C109_init_iff", "C109_artifact_iff", "C109_dsse_iff", "C109_foreign"],"assumes that `session.post` raises nothing but `requests`' exceptions, that signatures are not empty, and that a timestamp response that was decoded once decodes again"),
("C110","proved",["C110_evidence_only"],""),
("C111","partial",["C111_promised_partial", "C111_unsupported", "C111_forged"],"false of the code for entries without a promise or without a time: any position and time may be stated (refuted for all such bundles); proved for entries with a promise and a time"),
("C112","partial",["C112_same_entry_partial", "C112_other_documents_partial", "C112_artifact_as_attestation", "C112_smuggled"],"false of the code for Rekor v2 entries and artifacts that are the encoding of an attestation (refuted for all of them with P-256 keys: the attestation is accepted with the artifact's evidence); proved: these are the only ones, absent collisions; the parsers of entry bodies are assumed to read the same kind and version"),
("C113","proved",["C113_prints_iff", "C113_failure", "C113_same_identity", "C113_main"],"how tokens are made from texts is assumed as in oidc.py:70-158,366 (MakesTokens)"),
("C114","proved",["C114_offline_follows", "C114_commands", "C114_update_iff", "C114_update_then_offline", "C114_torn"],"C114_torn shows the limit: an online run that fails after it has replaced the trusted root leaves a pair of files from two different updates, which offline runs use; the client library is assumed to put targets where it says; URLs without a directory of their own (C47) are excluded"),
("C115","proved",["C115_parsed_iff", "C115_accepted_iff", "C115_one_reading", "C115_main", "C115_rejected"],"argparse is that of Python 3.11; which words are negative numbers is a parameter; conversions by `type` and `choices` come after parsing"),
("C116","proved",["C116_writes", "C116_written_line", "C116_verify_identity", "C116_unprotected_name"],"the issuer must not be empty (see C22)"),
("C117","partial",["C117_verifier_partial", "C117_token_request", "C117_verifier_logged"],"false with -vv: `logging.debug(PAYLOAD=\u2026)` at oidc.py:343 writes the authorization code and the verifier to the root logger; proved for all levels of the package's logger as long as the root logger does not write debug messages"),
("C118","partial",["C118_secret_partial", "C118_secret_in_url", "C118_url_printed"],"false: `client_secret` is a parameter of the authorization URL (oauth.py:227-237), which is printed on the screen or given to whoever asks the local server; proved that it appears in that URL and in the token request only"),
("C119","proved",["C119_answers", "C119_all_answered", "C119_once"],"of responses only the status and `Location`; targets on which `urlsplit` raises are not considered"),
("C120","partial",["C120_written_iff_partial", "C120_logged", "C120_help"],"false: with -v (or SIGSTORE_LOGLEVEL=debug) `parsed arguments \u2026` is logged with both (_cli.py:639), and `--help` shows the values of the environment variables as defaults; proved when the line is written"),
("C121","partial",["C121_timestamps_partial", "C121_periods_ignored", "C121_outside_periods"],"false of logs and certificate authorities: in verification the end of their periods is not looked at and the start is compared with the clock (`is_timerange_valid(\u2026, allow_expired=True)`, _utils.py:360-379, models.py:846-849 and 883), never with the time of the evidence; proved for timestamp authorities"),
("C122","proved",["C122_artifact_result", "C122_dsse_result", "C122_artifact_bounded", "C122_dsse_bounded", "C122_hashes_exact"],"counts calls, not bytes; for indices and sizes below 2^64 (they are 64-bit fields); the timestamp responses are all decoded before they are counted"),
("C123","proved",["C123_statuses", "C123_verify_identity", "C123_verify_github", "C123_sign", "C123_attest", "C123_trust_instance", "C123_others"],"the direction from usable arguments to another status than 2 needs, for `sign`, that the files can be read and written, and for `attest` that the predicate can be read as text"),
("C124","proved",["C124_together_iff_each", "C124_order", "C124_main_verify_identity", "C124_main_verify_github"],"at the level of the whole program for `--trust-config`, where the trust configuration does not depend on the state of the TUF client"),
("C125","proved",["C125_reads", "C125_static", "C125_unchanged"],"a single read returns the content of one moment; the cached files of the TUF client are not covered by this model; digesting a file is one access although the code reads it in chunks"),
("C126","proved",["C126_artifact_rests", "C126_dsse_rests", "C126_artifact_asks", "C126_dsse_asks", "C126_trusted_answers"],"hash functions, decoders and the loading of keys are the same on both sides"),
("C127","proved",["C127_artifact", "C127_attestation"],"both programs find the same files, clock and state of the TUF client; the documented program calls `verify`, which does not exist, and `verify_artifact` is taken for it"),
("C128","proved",["C128_still", "C128_future"],"the first theorem justifies the single reading in the rest of the model; signing and its own queries of the trusted root keep the single reading"),
("C129","partial",["C129_alone", "C129_only_outputs", "C129_keeps_files_partial", "C129_own_bundle", "C129_race"],"the first part is false: outputs are checked with `exists()` before signing and opened with mode `w` after it (`_cli.py:924-938`, `733-745`), so a file that another program (or a second `sigstore sign`) makes in between is overwritten; proved for what was there before the command"),
("C130","partial",["C130_verifies_iff", "C130_returned_anyway", "C130_late", "C130_in_time_partial"],"false of the code: the end of the certificate is compared with the clock once, before signing (`sign.py:157-161`), and never with the times that the timestamp authorities and the log return; a call that takes longer than the certificate's remaining life returns a bundle that is never accepted (proved in general and for a concrete run); proved if the times are in the certificate's period"),
("C131","partial",["C131_sign_leftover_partial", "C131_attest_leftover_partial", "C131_killed_loses", "C131_full_disk", "C131_failure_mixes"],"false of the code: outputs are truncated in place and written one after the other (`_cli.py:733-745`); a killed `sign --overwrite` can leave an empty file where the previous bundle was, one that meets a full disk a beginning of the new bundle, and a failing one the new signature next to the old bundle; proved for outputs that lead to different places other than the inputs: each is as before or a beginning of what belongs to one bundle made for the input, complete once the command has succeeded, or has failed although no write failed, and the bundle is begun only after signature and certificate are complete"),
("C132","partial",["C132_cosignatures_partial", "C132_same_hint"],"false of the code for signatures that share the four-byte key hint of the log: the first one with the hint decides (`checkpoint.py:181-195`), names are not compared; proved for every list of well-formed signatures whose members with the log's hint are the same"),
("C133","partial",["C133_same_material_partial", "C133_heals","C133_offline_alone","C133_offline_fails","C133_stuck", "C133_killed", "C133_race"],"false of the code: the cache is filled from the package with `exists()` and then `write_bytes` (`tuf.py:91-94`), so a second process can overwrite a verified download before the first reads it by its path, and a process killed while filling leaves a file that offline processes never repair; proved: if the package has what the repository lists, or the files exist already, then every schedule gives every online process that succeeds exactly the listed material, and an undisturbed online process repairs any cache"),
("C134","partial",["C134_token", "C134_secret", "C134_https", "C134_number", "C134_bodies_partial", "C134_form_elsewhere"],"false of the code for what is in bodies: redirects are never turned off, so a token endpoint that redirects with 307 or 308 has the form with code and verifier sent to any URL, of any scheme; proved for the identity token and the client secret, which are in the header `Authorization`, by noninterference, and for bodies if no service redirects with 307 or 308.  How `requests` follows redirects is transcribed from release 2.32.3 of that library, which `/repo` does not pin"),
("C135","partial",["C135_put_together", "C135_end","C135_growing_partial","C135_unchanged_partial", "C135_torn"],"false of the code: a file is read in pieces without a check that it stayed the same, so a file that is rewritten in place gets the digest of the beginning of one version and the end of another (refuted for all versions and places); proved: every byte is that of some version at its place, in the order of the versions; if others only append, the digest is of a beginning of the last version that contains the first one; if nobody changes the file, it is of its content"),
("C136","partial",["C136_read_back_partial", "C136_document_iff", "C136_too_deep", "C136_read_iff","C136_one_document", "C136_written", "C136_attested","C136_attested_file","C136_read_again"],"false of the code for readers with a limit on the depth: a predicate that reaches the limit can be read and built into a statement, which is one deeper and is not read back (refuted for every limit from four on); proved: exactly the JSON texts of RFC 8259 up to the limit are read, each as its one document, what is written is such a text, and a built statement is read back iff it is not deeper than the limit, and otherwise refused, never read as another one. The reader and writer are those of pydantic, which was not available: that they behave as modelled, that there is a limit, and that the writer has no lower one, are assumptions; the text of numbers that are no integers is a parameter"),
]
