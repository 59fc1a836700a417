{
 "claims": [
  {
   "property": "C01",
   "status": "proved",
   "theorems": [
    "Sigstore.Props.C01_honest_proof_accepted"
   ],
   "note": "all logs, all indices, all hash functions"
  },
  {
   "property": "C02",
   "status": "proved",
   "theorems": [
    "Sigstore.Props.C02_accepted_is_leaf",
    "Sigstore.Props.C02_accepted_is_member",
    "Sigstore.Props.C02_no_equivocation"
   ],
   "note": "hypothesis: no collision among the finitely many strings hashed; fixed digest length"
  },
  {
   "property": "C03",
   "status": "proved",
   "theorems": [
    "Sigstore.Props.C03_exact_length",
    "Sigstore.Props.C03_wrong_length_rejected"
   ],
   "note": "for index < size"
  },
  {
   "property": "C04",
   "status": "partial",
   "theorems": [
    "Sigstore.Props.C04_position_not_checked",
    "Sigstore.Props.C04_path_matches_claimed_position_partial"
   ],
   "note": "the full claim is false of the code (refuted by a concrete entry); the partial theorem says what the proof check does guarantee about the position"
  },
  {
   "property": "C05",
   "status": "proved",
   "theorems": [
    "Sigstore.Props.C05_checkpoint_sound",
    "Sigstore.Props.C05_unambiguous"
   ],
   "note": "for all texts, keyrings, log ids"
  },
  {
   "property": "C06",
   "status": "partial",
   "theorems": [
    "Sigstore.Props.C06_malformed_leaks_other_errors",
    "Sigstore.Props.C06_non_ascii_root_leaks",
    "Sigstore.Props.C06_failures_classified_partial",
    "Sigstore.Props.C06_clean_partial"
   ],
   "note": "the full claim is false of the code (refuted); partial: complete classification of the errors that can occur, and a condition under which only VerificationError occurs"
  },
  {
   "property": "C07",
   "status": "proved",
   "theorems": [
    "Sigstore.Props.C07_roundtrip",
    "Sigstore.Props.C07_honest_checkpoint_iff",
    "Sigstore.Props.C07_no_hint_rejected"
   ],
   "note": "hypothesis: the integer parser reads back decimal numerals"
  },
  {
   "property": "C08",
   "status": "proved",
   "theorems": [
    "Sigstore.Props.C08_set_payload_iff",
    "Sigstore.Props.C08_set_payload_injective",
    "Sigstore.Props.C08_set_payload_defined",
    "Sigstore.Props.C08_verified_set_is_a_signed_entry"
   ],
   "note": ""
  },
  {
   "property": "C10",
   "status": "proved",
   "theorems": [
    "Sigstore.Props.C10_keyring_total",
    "Sigstore.Props.C10_keyring_iff",
    "Sigstore.Props.C10_known_id",
    "Sigstore.Props.C10_unknown_id",
    "Sigstore.Props.C10_sound",
    "Sigstore.Props.C10_failure_is_verification_error"
   ],
   "note": ""
  },
  {
   "property": "C11",
   "status": "proved",
   "theorems": [
    "Sigstore.Props.C11_loads_iff",
    "Sigstore.Props.C11_loaded_key_usable",
    "Sigstore.Props.C11_load_failure",
    "Sigstore.Props.C11_bad_key_skipped"
   ],
   "note": ""
  },
  {
   "property": "C12",
   "status": "proved",
   "theorems": [
    "Sigstore.Props.C12_usable_iff",
    "Sigstore.Props.C12_sign_usable_implies_verify_usable",
    "Sigstore.Props.C12_log_keys_iff",
    "Sigstore.Props.C12_log_keys_order",
    "Sigstore.Props.C12_verify_usability_monotone",
    "Sigstore.Props.C12_rekor_keyring",
    "Sigstore.Props.C12_ct_keyring",
    "Sigstore.Props.C12_fulcio_certs_iff",
    "Sigstore.Props.C12_fulcio_certs_error"
   ],
   "note": ""
  },
  {
   "property": "C21",
   "status": "proved",
   "theorems": [
    "Sigstore.Props.C21_allOf_iff",
    "Sigstore.Props.C21_allOf_error_iff",
    "Sigstore.Props.C21_anyOf_exact",
    "Sigstore.Props.C21_anyOf_iff",
    "Sigstore.Props.C21_empty_rejects"
   ],
   "note": ""
  },
  {
   "property": "C22",
   "status": "proved",
   "theorems": [
    "Sigstore.Props.C22_identity_iff",
    "Sigstore.Props.C22_mismatch",
    "Sigstore.Props.C22_empty_issuer_is_no_issuer"
   ],
   "note": ""
  },
  {
   "property": "C23",
   "status": "proved",
   "theorems": [
    "Sigstore.Props.C23_oid_table",
    "Sigstore.Props.C23_oids_distinct",
    "Sigstore.Props.C23_ext_iff",
    "Sigstore.Props.C23_value_unique",
    "Sigstore.Props.C23_ext_errors"
   ],
   "note": ""
  },
  {
   "property": "C24",
   "status": "partial",
   "theorems": [
    "Sigstore.Props.C24_anyOf_can_abort",
    "Sigstore.Props.C24_anyOf_accepts_partial"
   ],
   "note": "the full claim is false of the code (refuted by a concrete policy): a child raising anything but VerificationError aborts AnyOf"
  },
  {
   "property": "C25",
   "status": "proved",
   "theorems": [
    "Sigstore.Props.C25_github_iff",
    "Sigstore.Props.C25_github_requires_identity_or_repository"
   ],
   "note": ""
  },
  {
   "property": "C26",
   "status": "proved",
   "theorems": [
    "Sigstore.Props.C26_is_rfc6962",
    "Sigstore.Props.C26_encode_injective",
    "Sigstore.Props.C26_pack_injective",
    "Sigstore.Props.C26_large_rejected"
   ],
   "note": "the timestamp field is the one computed by the code, see C29"
  },
  {
   "property": "C27",
   "status": "proved",
   "theorems": [
    "Sigstore.Props.C27_verify_sct_iff",
    "Sigstore.Props.C27_signed_by_trusted_ct_key"
   ],
   "note": ""
  },
  {
   "property": "C28",
   "status": "partial",
   "theorems": [
    "Sigstore.Props.C28_non_ca_issuer_accepted",
    "Sigstore.Props.C28_issuer_consistent_partial"
   ],
   "note": "the full claim is false of the code (refuted by a concrete chain): the result of cert_is_ca is ignored"
  },
  {
   "property": "C29",
   "status": "partial",
   "theorems": [
    "Sigstore.Props.C29_millis_not_exact",
    "Sigstore.Props.C29_exact_partial",
    "Sigstore.Props.C29_within_one_partial"
   ],
   "note": "the full claim is false of the code (refuted by a concrete timestamp in 2038); exact between 2004 and January 2038, never off by more than 1 ms"
  },
  {
   "property": "C33",
   "status": "proved",
   "theorems": [
    "Sigstore.Props.C33_pae_injective",
    "Sigstore.Props.C33_no_shift"
   ],
   "note": ""
  },
  {
   "property": "C34",
   "status": "proved",
   "theorems": [
    "Sigstore.Props.C34_envelope_iff",
    "Sigstore.Props.C34_verify_iff",
    "Sigstore.Props.C34_sign_verify",
    "Sigstore.Props.C34_builder"
   ],
   "note": ""
  },
  {
   "property": "C53",
   "status": "proved",
   "theorems": [
    "Sigstore.Props.C53_matches_iff",
    "Sigstore.Props.C53_attestation_iff",
    "Sigstore.Props.C53_mismatch"
   ],
   "note": ""
  },
  {
   "property": "C61",
   "status": "partial",
   "theorems": [
    "Sigstore.Props.C61_non_ascii_mismatch",
    "Sigstore.Props.C61_spec_iff",
    "Sigstore.Props.C61_ascii_partial"
   ],
   "note": "the full claim is false of the code for non-ASCII payload types; exact characterisation proved"
  },
  {
   "property": "C30",
   "status": "proved",
   "theorems": [
    "Sigstore.Props.C30_ca_iff",
    "Sigstore.Props.C30_not_ca_iff",
    "Sigstore.Props.C30_ca_error_iff",
    "Sigstore.Props.C30_leaf_iff",
    "Sigstore.Props.C30_ca_leaf_exclusive",
    "Sigstore.Props.C30_root_iff"
   ],
   "note": ""
  },
  {
   "property": "C51",
   "status": "proved",
   "theorems": [
    "Sigstore.Props.C51_stream_digest",
    "Sigstore.Props.C51_chunking_irrelevant",
    "Sigstore.Props.C51_hashed_unchanged",
    "Sigstore.Props.C51_no_collision"
   ],
   "note": ""
  },
  {
   "property": "C52",
   "status": "proved",
   "theorems": [
    "Sigstore.Props.C52_selection_iff",
    "Sigstore.Props.C52_unsupported",
    "Sigstore.Props.C52_prehash",
    "Sigstore.Props.C52_registry_functional"
   ],
   "note": ""
  },
  {
   "property": "C60",
   "status": "partial",
   "theorems": [
    "Sigstore.Props.C60_keyCertSign_leaf",
    "Sigstore.Props.C60_leaf_not_keyCertSign_partial"
   ],
   "note": "the full claim is false of the code (refuted by a concrete certificate without BasicConstraints)"
  },
  {
   "property": "C54",
   "status": "proved",
   "theorems": [
    "Sigstore.Props.C54_base64_roundtrip",
    "Sigstore.Props.C54_base64_injective",
    "Sigstore.Props.C54_base64_length",
    "Sigstore.Props.C54_hex_roundtrip",
    "Sigstore.Props.C54_hex_injective",
    "Sigstore.Props.C54_hex_shape",
    "Sigstore.Props.C54_utf8_exact",
    "Sigstore.Props.C54_utf8_injective"
   ],
   "note": ""
  },
  {
   "property": "C57",
   "status": "proved",
   "theorems": [
    "Sigstore.Props.C57_entry_verifies_iff",
    "Sigstore.Props.C57_missing_proof",
    "Sigstore.Props.C57_verified_entry_is_logged"
   ],
   "note": "composes C02, C05, C10"
  },
  {
   "property": "C59",
   "status": "partial",
   "theorems": [
    "Sigstore.Props.C59_curve_not_checked",
    "Sigstore.Props.C59_ec_family_partial"
   ],
   "note": "the full claim is false of the code (refuted by a concrete key); only the key family is checked"
  },
  {
   "property": "C13",
   "status": "proved",
   "theorems": [
    "Sigstore.Props.C13_verify_artifact_iff"
   ],
   "note": "hypothesis: the trusted root's timestamp authorities carry a validity window"
  },
  {
   "property": "C14",
   "status": "proved",
   "theorems": [
    "Sigstore.Props.C14_verify_dsse_iff"
   ],
   "note": "hypothesis: the trusted root's timestamp authorities carry a validity window"
  },
  {
   "property": "C16",
   "status": "proved",
   "theorems": [
    "Sigstore.Props.C16_timestamp_iff",
    "Sigstore.Props.C16_timestamp_sound",
    "Sigstore.Props.C16_tsa_times_iff",
    "Sigstore.Props.C16_rejected",
    "Sigstore.Props.C16_establish_time_iff"
   ],
   "note": ""
  },
  {
   "property": "C31",
   "status": "proved",
   "theorems": [
    "Sigstore.Props.C31_bundle_iff",
    "Sigstore.Props.C31_bundle_invariant"
   ],
   "note": ""
  },
  {
   "property": "C32",
   "status": "partial",
   "theorems": [
    "Sigstore.Props.C32_upgrade_loses_timestamps",
    "Sigstore.Props.C32_upgrade_can_fail",
    "Sigstore.Props.C32_upgrade_iff_partial",
    "Sigstore.Props.C32_reassemble_partial"
   ],
   "note": "the full claim is false of the code (refuted by concrete bundles): --upgrade-version drops the signed timestamps"
  },
  {
   "property": "C62",
   "status": "partial",
   "theorems": [
    "Sigstore.Props.C62_not_always_invalid_bundle",
    "Sigstore.Props.C62_init_errors_partial"
   ],
   "note": "the full claim is false of the code (refuted by a concrete message); the errors that can occur are classified"
  },
  {
   "property": "C63",
   "status": "proved",
   "theorems": [
    "Sigstore.Props.C63_fix_bundle_iff"
   ],
   "note": ""
  },
  {
   "property": "C09",
   "status": "proved",
   "theorems": [
    "Sigstore.Props.C09_log_time_promised",
    "Sigstore.Props.C09_no_promise_no_time"
   ],
   "note": ""
  },
  {
   "property": "C15",
   "status": "proved",
   "theorems": [
    "Sigstore.Props.C15_valid_at_every_time",
    "Sigstore.Props.C15_expired_rejected"
   ],
   "note": "the chain validation itself (OpenSSL) is a parameter"
  },
  {
   "property": "C17",
   "status": "proved",
   "theorems": [
    "Sigstore.Props.C17_extra_timestamps"
   ],
   "note": ""
  },
  {
   "property": "C18",
   "status": "proved",
   "theorems": [
    "Sigstore.Props.C18_artifact_needs_message_signature",
    "Sigstore.Props.C18_dsse_needs_envelope",
    "Sigstore.Props.C18_exclusive"
   ],
   "note": ""
  },
  {
   "property": "C19",
   "status": "partial",
   "theorems": [
    "Sigstore.Props.C19_artifact_leaks",
    "Sigstore.Props.C19_dsse_leaks",
    "Sigstore.Props.C19_more_leaks",
    "Sigstore.Props.C19_artifact_clean_partial",
    "Sigstore.Props.C19_dsse_clean_partial"
   ],
   "note": "the full claim is false of the code (refuted by concrete inputs); conditions under which only VerificationError is raised are proved sufficient"
  },
  {
   "property": "C20",
   "status": "proved",
   "theorems": [
    "Sigstore.Props.C20_one_artifact",
    "Sigstore.Props.C20_same_document"
   ],
   "note": ""
  },
  {
   "property": "C35",
   "status": "proved",
   "theorems": [
    "Sigstore.Props.C35_caching_signer",
    "Sigstore.Props.C35_construction_effects",
    "Sigstore.Props.C35_new_certificate_has_sct"
   ],
   "note": ""
  },
  {
   "property": "C36",
   "status": "partial",
   "theorems": [
    "Sigstore.Props.C36_uncached_uses_another_key",
    "Sigstore.Props.C36_uncached_never_verifies",
    "Sigstore.Props.C36_signature_matches_partial"
   ],
   "note": "the full claim is false of the code for Signers without a cache (refuted for every such call): the certificate request and the signature use different keys; proved for caching Signers"
  },
  {
   "property": "C37",
   "status": "proved",
   "theorems": [
    "Sigstore.Props.C37_client_raises_timestamp_error",
    "Sigstore.Props.C37_client_returns_response",
    "Sigstore.Props.C37_timestamps",
    "Sigstore.Props.C37_no_time_source",
    "Sigstore.Props.C37_failures_tolerated"
   ],
   "note": ""
  },
  {
   "property": "C55",
   "status": "proved",
   "theorems": [
    "Sigstore.Props.C55_artifact_entry_iff",
    "Sigstore.Props.C55_dsse_entry_iff",
    "Sigstore.Props.C55_recorded_unique",
    "Sigstore.Props.C55_recordable"
   ],
   "note": "what an honest log records is specified in Spec/Rekor"
  },
  {
   "property": "C64",
   "status": "proved",
   "theorems": [
    "Sigstore.Props.C64_fulcio_ok_iff",
    "Sigstore.Props.C64_fulcio_error_iff",
    "Sigstore.Props.C64_fulcio_http_iff",
    "Sigstore.Props.C64_trust_bundle_iff"
   ],
   "note": ""
  },
  {
   "property": "C38",
   "status": "partial",
   "theorems": [
    "Sigstore.Props.C38_signed_bundle_verifies_partial",
    "Sigstore.Props.C38_signing_succeeds",
    "Sigstore.Props.C38_end_to_end_partial",
    "Sigstore.Props.C36_uncached_never_verifies"
   ],
   "note": "proved for caching Signers (the default) and SCTs from before January 2038; refuted for Signers without a cache (C36); honest services as in Spec/Honest"
  },
  {
   "property": "C39",
   "status": "proved",
   "theorems": [
    "Sigstore.Props.C39_services_iff",
    "Sigstore.Props.C39_failure_iff",
    "Sigstore.Props.C39_services_properties"
   ],
   "note": ""
  },
  {
   "property": "C40",
   "status": "proved",
   "theorems": [
    "Sigstore.Props.C40_token_iff",
    "Sigstore.Props.C40_in_validity_period",
    "Sigstore.Props.C40_audience",
    "Sigstore.Props.C40_null_identity"
   ],
   "note": "a null identity claim becomes the identity text None"
  },
  {
   "property": "C41",
   "status": "partial",
   "theorems": [
    "Sigstore.Props.C41_first_response",
    "Sigstore.Props.C41_response_stable",
    "Sigstore.Props.C41_code_iff",
    "Sigstore.Props.C41_browser_flow",
    "Sigstore.Props.C41_out_of_band_partial",
    "Sigstore.Props.C41_out_of_band_race"
   ],
   "note": "complete for the browser flow; false of the code for the out-of-band flow (refuted by a concrete schedule), where it is proved for all schedules without the race"
  },
  {
   "property": "C49",
   "status": "partial",
   "theorems": [
    "Sigstore.Props.C49_oldest_partial",
    "Sigstore.Props.C49_not_found_raises",
    "Sigstore.Props.C49_search_http_iff"
   ],
   "note": "the part about HTTP 404 is false of the code (refuted for every error status)"
  },
  {
   "property": "C50",
   "status": "partial",
   "theorems": [
    "Sigstore.Props.C50_refuted",
    "Sigstore.Props.C50_query_partial",
    "Sigstore.Props.C50_query_iff"
   ],
   "note": "false of the code for index 0 and the empty uuid; complete description proved"
  },
  {
   "property": "C56",
   "status": "proved",
   "theorems": [
    "Sigstore.Props.C56_sessions_not_shared"
   ],
   "note": ""
  },
  {
   "property": "C65",
   "status": "proved",
   "theorems": [
    "Sigstore.Props.C65_signing_config_iff",
    "Sigstore.Props.C65_context_iff",
    "Sigstore.Props.C65_context_errors"
   ],
   "note": ""
  },
  {
   "property": "C66",
   "status": "partial",
   "theorems": [
    "Sigstore.Props.C66_leaks_type_error",
    "Sigstore.Props.C66_identity_error_partial"
   ],
   "note": "the full claim is false of the code (refuted by concrete tokens)"
  },
  {
   "property": "C67",
   "status": "partial",
   "theorems": [
    "Sigstore.Props.C67_empty_redirect_key_error",
    "Sigstore.Props.C67_identity_error_partial",
    "Sigstore.Props.C67_foreign_identity_error",
    "Sigstore.Props.C67_out_of_band_partial"
   ],
   "note": "the full claim is false of the code (refuted by concrete requests): a missing parameter raises `KeyError`, and a request for `/` before the out-of-band flow starts raises the `IdentityError` of another package, which `main` does not handle; proved if the parameters are present and nobody asks for `/`"
  },
  {
   "property": "C68",
   "status": "proved",
   "theorems": [
    "Sigstore.Props.C68_roundtrip",
    "Sigstore.Props.C68_accepted",
    "Sigstore.Props.C68_json_iff",
    "Sigstore.Props.C68_json_roundtrip"
   ],
   "note": ""
  },
  {
   "property": "C47",
   "status": "partial",
   "theorems": [
    "Sigstore.Props.C47_quote_injective",
    "Sigstore.Props.C47_quote_byte",
    "Sigstore.Props.C47_quote_unreserved",
    "Sigstore.Props.C47_embedded_names",
    "Sigstore.Props.C47_degenerate_urls",
    "Sigstore.Props.C47_dirs_partial"
   ],
   "note": "false of the code for the URLs '', '.' and '..' (refuted); proved for all others"
  },
  {
   "property": "C48",
   "status": "partial",
   "theorems": [
    "Sigstore.Props.C48_cache_kept",
    "Sigstore.Props.C48_offline",
    "Sigstore.Props.C48_online",
    "Sigstore.Props.C48_remembered",
    "Sigstore.Props.C48_leaks",
    "Sigstore.Props.C48_tuf_error_partial"
   ],
   "note": "proved, except for the class of exceptions online: those of get_targetinfo are not turned into TUFError (refuted)"
  },
  {
   "property": "C44",
   "status": "proved",
   "theorems": [
    "Sigstore.Props.C44_returns_iff",
    "Sigstore.Props.C44_exit_zero_iff",
    "Sigstore.Props.C44_exit_zero_sound"
   ],
   "note": "hypothesis: external libraries do not call sys.exit(0) themselves"
  },
  {
   "property": "C45",
   "status": "partial",
   "theorems": [
    "Sigstore.Props.C45_not_exact",
    "Sigstore.Props.C45_argument_iff",
    "Sigstore.Props.C45_digest_partial"
   ],
   "note": "the full claim is false of the code (refuted for every separator and for blanks between digits); exact description proved"
  },
  {
   "property": "C58",
   "status": "proved",
   "theorems": [
    "Sigstore.Props.C58_one_source",
    "Sigstore.Props.C58_config_iff"
   ],
   "note": ""
  },
  {
   "property": "C69",
   "status": "proved",
   "theorems": [
    "Sigstore.Props.C69_offline"
   ],
   "note": ""
  },
  {
   "property": "C70",
   "status": "partial",
   "theorems": [
    "Sigstore.Props.C70_config_type_ignored",
    "Sigstore.Props.C70_root_type_partial",
    "Sigstore.Props.C70_root_type_error"
   ],
   "note": "false of the code for the configuration's own type (refuted for every type); proved for the trusted root in it"
  },
  {
   "property": "C42",
   "status": "proved",
   "theorems": [
    "Sigstore.Props.C42_checks_sound",
    "Sigstore.Props.C42_checks_iff",
    "Sigstore.Props.C42_fails_early",
    "Sigstore.Props.C42_sign_keeps_files",
    "Sigstore.Props.C42_attest_fails_early",
    "Sigstore.Props.C42_attest_keeps_files",
    "Sigstore.Props.C42_sign_only_outputs",
    "Sigstore.Props.C42_attest_only_outputs",
    "Sigstore.Props.C42_checks_fail",
    "Sigstore.Props.C42_threads_fail"
   ],
   "note": "nobody else changes the disk meanwhile; whether a write to an opened file fails depends on the file and on how much was written"
  },
  {
   "property": "C43",
   "status": "partial",
   "theorems": [
    "Sigstore.Props.C43_own_bundle",
    "Sigstore.Props.C43_own_bundle_overwrite_partial",
    "Sigstore.Props.C43_output_is_input"
   ],
   "note": "complete without --overwrite, for all interleavings of the worker threads; with --overwrite the code lets an output be another input (refuted by a concrete run), excluded by a hypothesis"
  },
  {
   "property": "C46",
   "status": "partial",
   "theorems": [
    "Sigstore.Props.C46_own_attestation_partial",
    "Sigstore.Props.C46_shared_bundle"
   ],
   "note": "false of the code for `attest --bundle X a b` (refuted by a concrete run); proved if the outputs are different"
  },
  {
   "property": "C71",
   "status": "partial",
   "theorems": [
    "Sigstore.Props.C71_bundle_for_each_partial",
    "Sigstore.Props.C71_default_output_injective",
    "Sigstore.Props.C71_same_names_collide"
   ],
   "note": "false of the code for --output-directory with equal file names (refuted by a concrete run)"
  },
  {
   "property": "C72",
   "status": "proved",
   "theorems": [
    "Sigstore.Props.C72_identity_iff",
    "Sigstore.Props.C72_no_fallback"
   ],
   "note": ""
  },
  {
   "property": "C73",
   "status": "proved",
   "theorems": [
    "Sigstore.Props.C73_dsse_authentic"
   ],
   "note": "trust in the services and in the signature scheme is a hypothesis (Spec.World); extension OIDs of a certificate do not repeat; the issuer text is shorter than 4 GiB"
  },
  {
   "property": "C74",
   "status": "partial",
   "theorems": [
    "Sigstore.Props.C74_timestamp_of_another_signature",
    "Sigstore.Props.C74_artifact_authentic_partial"
   ],
   "note": "false of the code for bundles that also hold an envelope (refuted: timestamps are checked against the envelope's signature); proved without an envelope, or with a time from the log"
  },
  {
   "property": "C75",
   "status": "proved",
   "theorems": [
    "Sigstore.Props.C75_promise_is_no_checkpoint",
    "Sigstore.Props.C75_promise_is_no_sct"
   ],
   "note": ""
  },
  {
   "property": "C76",
   "status": "proved",
   "theorems": [
    "Sigstore.Props.C76_artifact_is_public",
    "Sigstore.Props.C76_dsse_is_public"
   ],
   "note": "trust in the logs and absence of collisions among the strings hashed are hypotheses"
  },
  {
   "property": "C77",
   "status": "proved",
   "theorems": [
    "Sigstore.Props.C77_certificate_is_public"
   ],
   "note": "trust in the CT logs is a hypothesis"
  },
  {
   "property": "C78",
   "status": "partial",
   "theorems": [
    "Sigstore.Props.C78_rejected_later",
    "Sigstore.Props.C78_artifact_stays_accepted_partial",
    "Sigstore.Props.C78_dsse_stays_accepted_partial"
   ],
   "note": "false of the code: when a further timestamp authority's period starts, further timestamps of the bundle count, and each has to be within the certificate's validity (refuted by a concrete run); proved when the certificate authorities had started, no timestamp is from the future, and the bundle names its logs' keys by known, unambiguous ids"
  },
  {
   "property": "C79",
   "status": "partial",
   "theorems": [
    "Sigstore.Props.C79_rejected_with_more_trust",
    "Sigstore.Props.C79_artifact_stays_accepted_partial",
    "Sigstore.Props.C79_dsse_stays_accepted_partial"
   ],
   "note": "false of the code for the same reason (refuted); proved when added authorities vouch for no further timestamp of the bundle, added keys have other ids, and the chain built stays the same"
  },
  {
   "property": "C80",
   "status": "proved",
   "theorems": [
    "Sigstore.Props.C80_error_status_raises",
    "Sigstore.Props.C80_rekor_ok_iff",
    "Sigstore.Props.C80_rekor_get_ok_iff",
    "Sigstore.Props.C80_rekor_v2_ok_iff",
    "Sigstore.Props.C80_log_info_ok_iff",
    "Sigstore.Props.C80_signed_bundle"
   ],
   "note": "pydantic, `from_dict` of Rekor v2 and the conversion of numbers by protobuf's JSON reader are parameters"
  },
  {
   "property": "C81",
   "status": "partial",
   "theorems": [
    "Sigstore.Props.C81_other_exceptions",
    "Sigstore.Props.C81_message_lost",
    "Sigstore.Props.C81_fulcio_error_iff_partial"
   ],
   "note": "false of the code: connection errors, non-JSON bodies, members of other types and unloadable certificates raise other exceptions, and the server's message is never in the error because an error response is falsy (refuted); proved: exactly when FulcioClientError is raised"
  },
  {
   "property": "C82",
   "status": "proved",
   "theorems": [
    "Sigstore.Props.C82_timestamp_ok_iff",
    "Sigstore.Props.C82_timestamp_error_only"
   ],
   "note": ""
  },
  {
   "property": "C83",
   "status": "partial",
   "theorems": [
    "Sigstore.Props.C83_other_exceptions",
    "Sigstore.Props.C83_issuer_ok_iff",
    "Sigstore.Props.C83_issuer_error_partial"
   ],
   "note": "false of the code: other exceptions of `requests` pass (refuted); proved for the success case and for the exceptions that the code handles"
  },
  {
   "property": "C84",
   "status": "proved",
   "theorems": [
    "Sigstore.Props.C84_exchange_ok_iff",
    "Sigstore.Props.C84_browser_token",
    "Sigstore.Props.C84_browser_outcome"
   ],
   "note": ""
  },
  {
   "property": "C85",
   "status": "partial",
   "theorems": [
    "Sigstore.Props.C85_other_exceptions",
    "Sigstore.Props.C85_exchange_error_partial"
   ],
   "note": "false of the code: a body that is no JSON object raises JSONDecodeError or AttributeError, and an object without `error` and `access_token` KeyError (refuted); proved if the body is an object with one of the two"
  },
  {
   "property": "C86",
   "status": "partial",
   "theorems": [
    "Sigstore.Props.C86_python_names",
    "Sigstore.Props.C86_unnamed_subject",
    "Sigstore.Props.C86_statement_iff_partial",
    "Sigstore.Props.C86_read_partial",
    "Sigstore.Props.C86_unambiguous",
    "Sigstore.Props.C86_dump_iff"
   ],
   "note": "false of the code: the names of the Python attributes are accepted instead of the members of the specification, and subjects need a member `name` (both refuted); an iff for the other documents"
  },
  {
   "property": "C87",
   "status": "proved",
   "theorems": [
    "Sigstore.Props.C87_attested_document",
    "Sigstore.Props.C87_invalid_predicate"
   ],
   "note": "that the outputs are at different places is part of the property; C46 shows what happens otherwise"
  },
  {
   "property": "C88",
   "status": "partial",
   "theorems": [
    "Sigstore.Props.C88_v0_2_iff_partial",
    "Sigstore.Props.C88_v1_iff_partial",
    "Sigstore.Props.C88_common_partial",
    "Sigstore.Props.C88_content_rejected",
    "Sigstore.Props.C88_loose_boolean"
   ],
   "note": "false of the code: contents of resources are always rejected, and texts and numbers are accepted as booleans (both refuted); an exact description of what is accepted, and an iff with the specification outside these two"
  },
  {
   "property": "C89",
   "status": "proved",
   "theorems": [
    "Sigstore.Props.C89_accepted_iff",
    "Sigstore.Props.C89_rejected",
    "Sigstore.Props.C89_sign",
    "Sigstore.Props.C89_attest",
    "Sigstore.Props.C89_verify_identity",
    "Sigstore.Props.C89_verify_github",
    "Sigstore.Props.C89_get_identity_token",
    "Sigstore.Props.C89_trust_instance",
    "Sigstore.Props.C89_fix_bundle",
    "Sigstore.Props.C89_update_trust_root",
    "Sigstore.Props.C89_given_decides",
    "Sigstore.Props.C89_total",
    "Sigstore.Props.C89_bad_version",
    "Sigstore.Props.C89_bad_predicate_type"
   ],
   "note": "about lines of options with values; how words are read as such a line is C115"
  },
  {
   "property": "C90",
   "status": "partial",
   "theorems": [
    "Sigstore.Props.C90_identity_variables_ignored",
    "Sigstore.Props.C90_malformed_switch",
    "Sigstore.Props.C90_empty_switch",
    "Sigstore.Props.C90_early_verbose_ignored",
    "Sigstore.Props.C90_verbosity_partial"
   ],
   "note": "false of the code in all three respects (each refuted for all environments and lines); proved: which -v count"
  },
  {
   "property": "C91",
   "status": "partial",
   "theorems": [
    "Sigstore.Props.C91_verify_identity_partial",
    "Sigstore.Props.C91_verify_github"
   ],
   "note": "complete for `verify github`; for `verify identity` an empty issuer on the line is not checked (C22); hypotheses: libraries do not call sys.exit(0), and the extension OIDs of a certificate do not repeat"
  },
  {
   "property": "C92",
   "status": "proved",
   "theorems": [
    "Sigstore.Props.C92_no_uncaught_sigstore_error",
    "Sigstore.Props.C92_verbose_changes_nothing"
   ],
   "note": ""
  },
  {
   "property": "C93",
   "status": "partial",
   "theorems": [
    "Sigstore.Props.C93_print_iff",
    "Sigstore.Props.C93_in_place_iff",
    "Sigstore.Props.C93_in_place_failure_partial",
    "Sigstore.Props.C93_in_place_destroys",
    "Sigstore.Props.C93_in_place_truncates",
    "Sigstore.Props.C93_only_that_file",
    "Sigstore.Props.C93_idempotent",
    "Sigstore.Props.C93_instance_ignored"
   ],
   "note": "false of the code: a text that the encoding of the locale does not have destroys the file, a write that fails truncates it, and --instance and --trust-config are ignored (all refuted); proved: everything else"
  },
  {
   "property": "C94",
   "status": "proved",
   "theorems": [
    "Sigstore.Props.C94_exit_zero_iff",
    "Sigstore.Props.C94_sign",
    "Sigstore.Props.C94_attest"
   ],
   "note": "that no library and no service calls sys.exit(0) is a hypothesis (Props.WorldDoesNotExit)"
  },
  {
   "property": "C95",
   "status": "proved",
   "theorems": [
    "Sigstore.Props.C95_sign",
    "Sigstore.Props.C95_attest",
    "Sigstore.Props.C95_verify"
   ],
   "note": "the trust configuration, the predicate and the verification materials are not themselves inputs; timing is not modelled"
  },
  {
   "property": "C96",
   "status": "proved",
   "theorems": [
    "Sigstore.Props.C96_token_only_to_fulcio"
   ],
   "note": "requests are what the code passes to `requests`; redirects, proxies and .netrc are not modelled; the configured Fulcio URL is http(s)://authority followed by nothing, /, ? or #"
  },
  {
   "property": "C97",
   "status": "proved",
   "theorems": [
    "Sigstore.Props.C97_call",
    "Sigstore.Props.C97_session",
    "Sigstore.Props.C97_refines"
   ],
   "note": "loading a certificate from a text of one character fails (hypothesis PemLoader; needed because a text is accepted where an array is expected)"
  },
  {
   "property": "C98",
   "status": "partial",
   "theorems": [
    "Sigstore.Props.C98_authorization_url_partial",
    "Sigstore.Props.C98_endpoint_with_query",
    "Sigstore.Props.C98_form_unique",
    "Sigstore.Props.C98_urlencode",
    "Sigstore.Props.C98_query_unique",
    "Sigstore.Props.C98_code_verifier",
    "Sigstore.Props.C98_code_challenge",
    "Sigstore.Props.C98_redirect_iff"
   ],
   "note": "false of the code for authorization endpoints with a query component, which RFC 6749 allows (refuted for all of them); proved for the others; randomness is a parameter"
  },
  {
   "property": "C99",
   "status": "partial",
   "theorems": [
    "Sigstore.Props.C99_fulcio_origin",
    "Sigstore.Props.C99_fulcio_iff",
    "Sigstore.Props.C99_rekor_iff",
    "Sigstore.Props.C99_issuer",
    "Sigstore.Props.C99_issuer_dots",
    "Sigstore.Props.C99_tuf_targets"
   ],
   "note": "false of the code for Fulcio URLs with a path (the path is dropped) and Rekor URLs with a trailing slash (doubled), each an iff; proved for OIDC issuers and TUF targets; the Fulcio endpoint is always at the configured origin"
  },
  {
   "property": "C100",
   "status": "proved",
   "theorems": [
    "Sigstore.Props.C100_verify",
    "Sigstore.Props.C100_verify_not_refused",
    "Sigstore.Props.C100_sign",
    "Sigstore.Props.C100_attest",
    "Sigstore.Props.C100_main_verify_identity",
    "Sigstore.Props.C100_main_verify_github",
    "Sigstore.Props.C100_main_sign",
    "Sigstore.Props.C100_main_attest",
    "Sigstore.Props.C100_main_trust_instance",
    "Sigstore.Props.C100_main_trust_instance_not_refused"
   ],
   "note": "status 2 for sign needs that output directories can be made, for attest that the predicate file is readable text (else OSError or UnicodeDecodeError)"
  },
  {
   "property": "C101",
   "status": "partial",
   "theorems": [
    "Sigstore.Props.C101_rekor_error_iff_partial",
    "Sigstore.Props.C101_malformed",
    "Sigstore.Props.C101_other_exceptions"
   ],
   "note": "false of the code for connection errors and malformed answers: RekorClientError is raised exactly for error statuses, and the exceptions of malformed answers are bounded and exhibited"
  },
  {
   "property": "C102",
   "status": "proved",
   "theorems": [
    "Sigstore.Props.C102_sign",
    "Sigstore.Props.C102_attest",
    "Sigstore.Props.C102_main_sign",
    "Sigstore.Props.C102_main_attest",
    "Sigstore.Props.C102_main_sign_any",
    "Sigstore.Props.C102_main_attest_any"
   ],
   "note": "hypotheses in Spec.Roundtrip: signatures made are accepted, JSON of bundles and statements is read back, the services are honest (SCTs dated between 2004 and 2038, see C38)"
  },
  {
   "property": "C103",
   "status": "proved",
   "theorems": [
    "Sigstore.Props.C103_sign_ends",
    "Sigstore.Props.C103_attest_ends",
    "Sigstore.Props.C103_sign_never_fails",
    "Sigstore.Props.C103_sign_succeeds",
    "Sigstore.Props.C103_attest_never_fails",
    "Sigstore.Props.C103_attest_succeeds"
   ],
   "note": "the steps of threads are those of Model.CliSign (service calls return; a call that blocks for ever is not modelled); hypotheses for success in Spec.SignReady"
  },
  {
   "property": "C104",
   "status": "proved",
   "theorems": [
    "Sigstore.Props.C104_artifact_bound",
    "Sigstore.Props.C104_dsse_bound",
    "Sigstore.Props.C104_policy_iff",
    "Sigstore.Props.C104_artifact_iff",
    "Sigstore.Props.C104_dsse_iff",
    "Sigstore.Props.C104_key_kind",
    "Sigstore.Props.C104_key_kind_dsse"
   ],
   "note": "exceptions of libraries are those of the model (DESIGN.md); a struct.error needs a certificate with an SCT extension of more than 65535 bytes, an OverflowError a log time of more than 63 bits, which parsers may exclude"
  },
  {
   "property": "C105",
   "status": "proved",
   "theorems": [
    "Sigstore.Props.C105_sign",
    "Sigstore.Props.C105_main_sign"
   ],
   "note": "hypotheses in Spec.Detached and Spec.Roundtrip: signatures made are accepted, PEM text is read back as the certificate, the services are honest, and the log search returns an entry as the log keeps it"
  },
  {
   "property": "C106",
   "status": "proved",
   "theorems": [
    "Sigstore.Props.C106_report",
    "Sigstore.Props.C106_ok_sound",
    "Sigstore.Props.C106_stdout_sound",
    "Sigstore.Props.C106_fail_sound",
    "Sigstore.Props.C106_not_both",
    "Sigstore.Props.C106_success",
    "Sigstore.Props.C106_github_not_statement"
   ],
   "note": "records below WARNING, the warning about old bundle names and the text of diagnostics are left out; the bytes literal printed by `verify github` is recorded in DESIGN.md as a disagreement with the intent"
  },
  {
   "property": "C107",
   "status": "proved",
   "theorems": [
    "Sigstore.Props.C107_unknown_level",
    "Sigstore.Props.C107_same_run",
    "Sigstore.Props.C107_all_written",
    "Sigstore.Props.C107_errors_written",
    "Sigstore.Props.C107_silenced",
    "Sigstore.Props.C107_silent_failure"
   ],
   "note": "`str.upper` is a parameter that keeps INFO; the handler of the root logger is taken to write every record it gets"
  },
  {
   "property": "C108",
   "status": "partial",
   "theorems": [
    "Sigstore.Props.C108_sign_report",
    "Sigstore.Props.C108_attest_report",
    "Sigstore.Props.C108_sign_announced_partial",
    "Sigstore.Props.C108_attest_announced_partial",
    "Sigstore.Props.C108_announced_lost",
    "Sigstore.Props.C108_unannounced"
   ],
   "note": "the last sentence needs that outputs lead to different places and not to inputs: `sign --output-directory out d/a e/a` announces a bundle that was replaced (`C108_announced_lost`); records of other modules than _cli.py are left out"
  },
  {
   "property": "C109",
   "status": "proved",
   "theorems": [
    "Sigstore.Props.C109_init_bound",
    "Sigstore.Props.C109_artifact_bound",
    "Sigstore.Props.C109_dsse_bound",
    "Sigstore.Props.C109_init_iff",
    "Sigstore.Props.C109_artifact_iff",
    "Sigstore.Props.C109_dsse_iff",
    "Sigstore.Props.C109_foreign"
   ],
   "note": "assumes that `session.post` raises nothing but `requests`' exceptions, that signatures are not empty, and that a timestamp response that was decoded once decodes again"
  },
  {
   "property": "C110",
   "status": "proved",
   "theorems": [
    "Sigstore.Props.C110_evidence_only"
   ],
   "note": ""
  },
  {
   "property": "C111",
   "status": "partial",
   "theorems": [
    "Sigstore.Props.C111_promised_partial",
    "Sigstore.Props.C111_unsupported",
    "Sigstore.Props.C111_forged"
   ],
   "note": "false of the code for entries without a promise or without a time: any position and time may be stated (refuted for all such bundles); proved for entries with a promise and a time"
  },
  {
   "property": "C112",
   "status": "partial",
   "theorems": [
    "Sigstore.Props.C112_same_entry_partial",
    "Sigstore.Props.C112_other_documents_partial",
    "Sigstore.Props.C112_artifact_as_attestation",
    "Sigstore.Props.C112_smuggled"
   ],
   "note": "false of the code for Rekor v2 entries and artifacts that are the encoding of an attestation (refuted for all of them with P-256 keys: the attestation is accepted with the artifact's evidence); proved: these are the only ones, absent collisions; the parsers of entry bodies are assumed to read the same kind and version"
  },
  {
   "property": "C113",
   "status": "proved",
   "theorems": [
    "Sigstore.Props.C113_prints_iff",
    "Sigstore.Props.C113_failure",
    "Sigstore.Props.C113_same_identity",
    "Sigstore.Props.C113_main"
   ],
   "note": "how tokens are made from texts is assumed as in oidc.py:70-158,366 (MakesTokens)"
  },
  {
   "property": "C114",
   "status": "proved",
   "theorems": [
    "Sigstore.Props.C114_offline_follows",
    "Sigstore.Props.C114_commands",
    "Sigstore.Props.C114_update_iff",
    "Sigstore.Props.C114_update_then_offline",
    "Sigstore.Props.C114_torn"
   ],
   "note": "C114_torn shows the limit: an online run that fails after it has replaced the trusted root leaves a pair of files from two different updates, which offline runs use; the client library is assumed to put targets where it says; URLs without a directory of their own (C47) are excluded"
  },
  {
   "property": "C115",
   "status": "proved",
   "theorems": [
    "Sigstore.Props.C115_parsed_iff",
    "Sigstore.Props.C115_accepted_iff",
    "Sigstore.Props.C115_one_reading",
    "Sigstore.Props.C115_main",
    "Sigstore.Props.C115_rejected"
   ],
   "note": "argparse is that of Python 3.11; which words are negative numbers is a parameter; conversions by `type` and `choices` come after parsing"
  },
  {
   "property": "C116",
   "status": "proved",
   "theorems": [
    "Sigstore.Props.C116_writes",
    "Sigstore.Props.C116_written_line",
    "Sigstore.Props.C116_verify_identity",
    "Sigstore.Props.C116_unprotected_name"
   ],
   "note": "the issuer must not be empty (see C22)"
  },
  {
   "property": "C117",
   "status": "partial",
   "theorems": [
    "Sigstore.Props.C117_verifier_partial",
    "Sigstore.Props.C117_token_request",
    "Sigstore.Props.C117_verifier_logged"
   ],
   "note": "false with -vv: `logging.debug(PAYLOAD=\u2026)` at oidc.py:343 writes the authorization code and the verifier to the root logger; proved for all levels of the package's logger as long as the root logger does not write debug messages"
  },
  {
   "property": "C118",
   "status": "partial",
   "theorems": [
    "Sigstore.Props.C118_secret_partial",
    "Sigstore.Props.C118_secret_in_url",
    "Sigstore.Props.C118_url_printed"
   ],
   "note": "false: `client_secret` is a parameter of the authorization URL (oauth.py:227-237), which is printed on the screen or given to whoever asks the local server; proved that it appears in that URL and in the token request only"
  },
  {
   "property": "C119",
   "status": "proved",
   "theorems": [
    "Sigstore.Props.C119_answers",
    "Sigstore.Props.C119_all_answered",
    "Sigstore.Props.C119_once"
   ],
   "note": "of responses only the status and `Location`; targets on which `urlsplit` raises are not considered"
  },
  {
   "property": "C120",
   "status": "partial",
   "theorems": [
    "Sigstore.Props.C120_written_iff_partial",
    "Sigstore.Props.C120_logged",
    "Sigstore.Props.C120_help"
   ],
   "note": "false: with -v (or SIGSTORE_LOGLEVEL=debug) `parsed arguments \u2026` is logged with both (_cli.py:639), and `--help` shows the values of the environment variables as defaults; proved when the line is written"
  },
  {
   "property": "C121",
   "status": "partial",
   "theorems": [
    "Sigstore.Props.C121_timestamps_partial",
    "Sigstore.Props.C121_periods_ignored",
    "Sigstore.Props.C121_outside_periods"
   ],
   "note": "false of logs and certificate authorities: in verification the end of their periods is not looked at and the start is compared with the clock (`is_timerange_valid(\u2026, allow_expired=True)`, _utils.py:360-379, models.py:846-849 and 883), never with the time of the evidence; proved for timestamp authorities"
  },
  {
   "property": "C122",
   "status": "proved",
   "theorems": [
    "Sigstore.Props.C122_artifact_result",
    "Sigstore.Props.C122_dsse_result",
    "Sigstore.Props.C122_artifact_bounded",
    "Sigstore.Props.C122_dsse_bounded",
    "Sigstore.Props.C122_hashes_exact"
   ],
   "note": "counts calls, not bytes; for indices and sizes below 2^64 (they are 64-bit fields); the timestamp responses are all decoded before they are counted"
  },
  {
   "property": "C123",
   "status": "proved",
   "theorems": [
    "Sigstore.Props.C123_statuses",
    "Sigstore.Props.C123_verify_identity",
    "Sigstore.Props.C123_verify_github",
    "Sigstore.Props.C123_sign",
    "Sigstore.Props.C123_attest",
    "Sigstore.Props.C123_trust_instance",
    "Sigstore.Props.C123_others"
   ],
   "note": "the direction from usable arguments to another status than 2 needs, for `sign`, that the files can be read and written, and for `attest` that the predicate can be read as text"
  },
  {
   "property": "C124",
   "status": "proved",
   "theorems": [
    "Sigstore.Props.C124_together_iff_each",
    "Sigstore.Props.C124_order",
    "Sigstore.Props.C124_main_verify_identity",
    "Sigstore.Props.C124_main_verify_github"
   ],
   "note": "at the level of the whole program for `--trust-config`, where the trust configuration does not depend on the state of the TUF client"
  },
  {
   "property": "C125",
   "status": "proved",
   "theorems": [
    "Sigstore.Props.C125_reads",
    "Sigstore.Props.C125_static",
    "Sigstore.Props.C125_unchanged"
   ],
   "note": "a single read returns the content of one moment; the cached files of the TUF client are not covered by this model; digesting a file is one access although the code reads it in chunks"
  },
  {
   "property": "C126",
   "status": "proved",
   "theorems": [
    "Sigstore.Props.C126_artifact_rests",
    "Sigstore.Props.C126_dsse_rests",
    "Sigstore.Props.C126_artifact_asks",
    "Sigstore.Props.C126_dsse_asks",
    "Sigstore.Props.C126_trusted_answers"
   ],
   "note": "hash functions, decoders and the loading of keys are the same on both sides"
  },
  {
   "property": "C127",
   "status": "proved",
   "theorems": [
    "Sigstore.Props.C127_artifact",
    "Sigstore.Props.C127_attestation"
   ],
   "note": "both programs find the same files, clock and state of the TUF client; the documented program calls `verify`, which does not exist, and `verify_artifact` is taken for it"
  },
  {
   "property": "C128",
   "status": "proved",
   "theorems": [
    "Sigstore.Props.C128_still",
    "Sigstore.Props.C128_future"
   ],
   "note": "the first theorem justifies the single reading in the rest of the model; signing and its own queries of the trusted root keep the single reading"
  },
  {
   "property": "C129",
   "status": "partial",
   "theorems": [
    "Sigstore.Props.C129_alone",
    "Sigstore.Props.C129_only_outputs",
    "Sigstore.Props.C129_keeps_files_partial",
    "Sigstore.Props.C129_own_bundle",
    "Sigstore.Props.C129_race"
   ],
   "note": "the first part is false: outputs are checked with `exists()` before signing and opened with mode `w` after it (`_cli.py:924-938`, `733-745`), so a file that another program (or a second `sigstore sign`) makes in between is overwritten; proved for what was there before the command"
  },
  {
   "property": "C130",
   "status": "partial",
   "theorems": [
    "Sigstore.Props.C130_verifies_iff",
    "Sigstore.Props.C130_returned_anyway",
    "Sigstore.Props.C130_late",
    "Sigstore.Props.C130_in_time_partial"
   ],
   "note": "false of the code: the end of the certificate is compared with the clock once, before signing (`sign.py:157-161`), and never with the times that the timestamp authorities and the log return; a call that takes longer than the certificate's remaining life returns a bundle that is never accepted (proved in general and for a concrete run); proved if the times are in the certificate's period"
  },
  {
   "property": "C131",
   "status": "partial",
   "theorems": [
    "Sigstore.Props.C131_sign_leftover_partial",
    "Sigstore.Props.C131_attest_leftover_partial",
    "Sigstore.Props.C131_killed_loses",
    "Sigstore.Props.C131_full_disk",
    "Sigstore.Props.C131_failure_mixes"
   ],
   "note": "false of the code: outputs are truncated in place and written one after the other (`_cli.py:733-745`); a killed `sign --overwrite` can leave an empty file where the previous bundle was, one that meets a full disk a beginning of the new bundle, and a failing one the new signature next to the old bundle; proved for outputs that lead to different places other than the inputs: each is as before or a beginning of what belongs to one bundle made for the input, complete once the command has succeeded, or has failed although no write failed, and the bundle is begun only after signature and certificate are complete"
  },
  {
   "property": "C132",
   "status": "partial",
   "theorems": [
    "Sigstore.Props.C132_cosignatures_partial",
    "Sigstore.Props.C132_same_hint"
   ],
   "note": "false of the code for signatures that share the four-byte key hint of the log: the first one with the hint decides (`checkpoint.py:181-195`), names are not compared; proved for every list of well-formed signatures whose members with the log's hint are the same"
  },
  {
   "property": "C133",
   "status": "partial",
   "theorems": [
    "Sigstore.Props.C133_same_material_partial",
    "Sigstore.Props.C133_heals",
    "Sigstore.Props.C133_offline_alone",
    "Sigstore.Props.C133_offline_fails",
    "Sigstore.Props.C133_stuck",
    "Sigstore.Props.C133_killed",
    "Sigstore.Props.C133_race"
   ],
   "note": "false of the code: the cache is filled from the package with `exists()` and then `write_bytes` (`tuf.py:91-94`), so a second process can overwrite a verified download before the first reads it by its path, and a process killed while filling leaves a file that offline processes never repair; proved: if the package has what the repository lists, or the files exist already, then every schedule gives every online process that succeeds exactly the listed material, and an undisturbed online process repairs any cache"
  },
  {
   "property": "C134",
   "status": "partial",
   "theorems": [
    "Sigstore.Props.C134_token",
    "Sigstore.Props.C134_secret",
    "Sigstore.Props.C134_https",
    "Sigstore.Props.C134_number",
    "Sigstore.Props.C134_bodies_partial",
    "Sigstore.Props.C134_form_elsewhere"
   ],
   "note": "false of the code for what is in bodies: redirects are never turned off, so a token endpoint that redirects with 307 or 308 has the form with code and verifier sent to any URL, of any scheme; proved for the identity token and the client secret, which are in the header `Authorization`, by noninterference, and for bodies if no service redirects with 307 or 308.  How `requests` follows redirects is transcribed from release 2.32.3 of that library, which `/repo` does not pin"
  },
  {
   "property": "C135",
   "status": "partial",
   "theorems": [
    "Sigstore.Props.C135_put_together",
    "Sigstore.Props.C135_end",
    "Sigstore.Props.C135_growing_partial",
    "Sigstore.Props.C135_unchanged_partial",
    "Sigstore.Props.C135_torn"
   ],
   "note": "false of the code: a file is read in pieces without a check that it stayed the same, so a file that is rewritten in place gets the digest of the beginning of one version and the end of another (refuted for all versions and places); proved: every byte is that of some version at its place, in the order of the versions; if others only append, the digest is of a beginning of the last version that contains the first one; if nobody changes the file, it is of its content"
  },
  {
   "property": "C136",
   "status": "partial",
   "theorems": [
    "Sigstore.Props.C136_read_back_partial",
    "Sigstore.Props.C136_document_iff",
    "Sigstore.Props.C136_too_deep",
    "Sigstore.Props.C136_read_iff",
    "Sigstore.Props.C136_one_document",
    "Sigstore.Props.C136_written",
    "Sigstore.Props.C136_attested",
    "Sigstore.Props.C136_attested_file",
    "Sigstore.Props.C136_read_again"
   ],
   "note": "false of the code for readers with a limit on the depth: a predicate that reaches the limit can be read and built into a statement, which is one deeper and is not read back (refuted for every limit from four on); proved: exactly the JSON texts of RFC 8259 up to the limit are read, each as its one document, what is written is such a text, and a built statement is read back iff it is not deeper than the limit, and otherwise refused, never read as another one. The reader and writer are those of pydantic, which was not available: that they behave as modelled, that there is a limit, and that the writer has no lower one, are assumptions; the text of numbers that are no integers is a parameter"
  }
 ]
}