{
 "claims": [
  {
   "property": "C01",
   "status": "partial",
   "theorems": [
    "Httpsig.C01_signature_input_round_trip_partial",
    "Httpsig.C01_setter_history_partial",
    "Httpsig.C01_exact",
    "Httpsig.C01_new_tidy",
    "Httpsig.C01_withParam_tidy",
    "Httpsig.C01_fromStr_tidy",
    "Httpsig.C01_neg_empty_label",
    "Httpsig.C01_neg_empty_nonce",
    "Httpsig.C01_neg_unnamed_derived",
    "Httpsig.C01_neg_empty_param_name",
    "Httpsig.C01_neg_long_decimal"
   ],
   "note": "False as stated for five kinds of configuration, each refuted by a C01_neg theorem (empty label, empty nonce, derived name without @, empty parameter name, decimal with more than three fractional digits). C01_exact shows that there are no others."
  },
  {
   "property": "C02",
   "status": "proved",
   "theorems": [
    "Httpsig.C02_accepted_inputs_rerender"
   ],
   "note": "Proved for every text accepted by the reader, no exception."
  },
  {
   "property": "C03",
   "status": "proved",
   "theorems": [
    "Httpsig.C03_base_layout",
    "Httpsig.C03_same_identifiers",
    "Httpsig.C03_empty"
   ],
   "note": "Both directions: success iff every component has a value and the text is writable, and the bytes equal an independently specified layout."
  },
  {
   "property": "C04",
   "status": "proved",
   "theorems": [
    "Httpsig.C04_missing_components_exact",
    "Httpsig.C04_no_error_when_present"
   ],
   "note": ""
  },
  {
   "property": "C05",
   "status": "partial",
   "theorems": [
    "Httpsig.C05_coverage_determined",
    "Httpsig.C05_base_determines_message_partial",
    "Httpsig.C05_read_headers_partial",
    "Httpsig.C05_reqwest_partial",
    "Httpsig.C05_neg_query_params",
    "Httpsig.C05_neg_unnamed_derived",
    "Httpsig.C05_exact",
    "Httpsig.C05_unconfusable_partial",
    "Httpsig.C05_quote_free_partial"
   ],
   "note": "False when @query-params is covered twice (C05_neg_query_params) or a derived name lacks @ (C05_neg_unnamed_derived). Coverage and parameters are determined without exception (C05_coverage_determined). C05_exact says exactly when the values are determined: iff no value contains the start of the next line or of its own line; C05_unconfusable_partial and C05_quote_free_partial assume this of one message only."
  },
  {
   "property": "C06",
   "status": "partial",
   "theorems": [
    "Httpsig.C06_reqwest_to_server_partial",
    "Httpsig.C06_blocking_to_server_partial",
    "Httpsig.C06_neg_authority",
    "Httpsig.C06_signed_requests_verify_partial",
    "Httpsig.C06_exact"
   ],
   "note": "False for @authority on the server type of this repository (C06_neg_authority), for other labels (C07) and with date validation on (C08). C06_exact gives the necessary and sufficient conditions; the delivery theorems go from reqwest requests to the server type."
  },
  {
   "property": "C07",
   "status": "partial",
   "theorems": [
    "Httpsig.C07_neg_other_labels",
    "Httpsig.C07_labels_partial"
   ],
   "note": "False: Signature-Input always says sig. The negative theorem covers every other label; the partial theorem says exactly what is written."
  },
  {
   "property": "C08",
   "status": "partial",
   "theorems": [
    "Httpsig.C08_neg_default_rejects",
    "Httpsig.C08_without_date_partial"
   ],
   "note": "False: default options reject every signed request. The partial theorem has the same defaults with date validation off."
  },
  {
   "property": "C09",
   "status": "proved",
   "theorems": [
    "Httpsig.C09_soundness"
   ],
   "note": ""
  },
  {
   "property": "C10",
   "status": "proved",
   "theorems": [
    "Httpsig.C10_acceptance_iff"
   ],
   "note": ""
  },
  {
   "property": "C11",
   "status": "proved",
   "theorems": [
    "Httpsig.C11_setter",
    "Httpsig.C11_required_headers_covered"
   ],
   "note": ""
  },
  {
   "property": "C12",
   "status": "partial",
   "theorems": [
    "Httpsig.C12_neg_required_derived_never_accepted",
    "Httpsig.C12_required_headers_satisfiable_partial"
   ],
   "note": "False for every derived component (for all requests, not one witness). Holds for headers."
  },
  {
   "property": "C13",
   "status": "proved",
   "theorems": [
    "Httpsig.C13_window_enforced",
    "Httpsig.C13_window_inclusive"
   ],
   "note": ""
  },
  {
   "property": "C14",
   "status": "partial",
   "theorems": [
    "Httpsig.C14_neg_any_time",
    "Httpsig.C14_integers_never_ignored_partial"
   ],
   "note": "False for values of another type, for every request (C14_neg_any_time). Holds for integers wherever they stand."
  },
  {
   "property": "C15",
   "status": "proved",
   "theorems": [
    "Httpsig.C15_date_leeway_exact",
    "Httpsig.C15_never_panics"
   ],
   "note": ""
  },
  {
   "property": "C16",
   "status": "proved",
   "theorems": [
    "Httpsig.C16_digest_enforced",
    "Httpsig.C16_rejected",
    "Httpsig.C16_digest_iff"
   ],
   "note": ""
  },
  {
   "property": "C17",
   "status": "proved",
   "theorems": [
    "Httpsig.C17_require_digest_iff",
    "Httpsig.C17_undigested_body_rejected"
   ],
   "note": ""
  },
  {
   "property": "C18",
   "status": "partial",
   "theorems": [
    "Httpsig.C18_neg_any_body",
    "Httpsig.C18_neg_digest_not_covered",
    "Httpsig.C18_required_digest_binds_body_partial"
   ],
   "note": "False: unless the signature lists the digest header, body and digest of every accepted request can be replaced (C18_neg_any_body). Holds once digest is itself a required component."
  },
  {
   "property": "C19",
   "status": "partial",
   "theorems": [
    "Httpsig.C19_readable_iff",
    "Httpsig.C19_neg_malformed_input_panics",
    "Httpsig.C19_only_malformed_input_panics_partial",
    "Httpsig.C19_mock_total",
    "Httpsig.C19_mock_partial",
    "Httpsig.C19_exact",
    "Httpsig.C19_mock_exact"
   ],
   "note": "False: a malformed Signature-Input panics, for every request. C19_exact gives all the panics; for the server type without conditions on the request."
  },
  {
   "property": "C20",
   "status": "proved",
   "theorems": [
    "Httpsig.C20_keys_since_creation",
    "Httpsig.C20_keys_since_removal",
    "Httpsig.C20_histories"
   ],
   "note": ""
  },
  {
   "property": "C21",
   "status": "proved",
   "theorems": [
    "Httpsig.C21_no_keys_no_success",
    "Httpsig.C21_revoked",
    "Httpsig.C21_never_added"
   ],
   "note": ""
  },
  {
   "property": "C22",
   "status": "proved",
   "theorems": [
    "Httpsig.C22_order_irrelevant",
    "Httpsig.C22_monotone"
   ],
   "note": ""
  },
  {
   "property": "C23",
   "status": "partial",
   "theorems": [
    "Httpsig.C23_neg_any_algorithm",
    "Httpsig.C23_neg_key_names_ignored",
    "Httpsig.C23_alg_present_partial"
   ],
   "note": "False: key names never matter. What is enforced is that alg is present as a string."
  },
  {
   "property": "C24",
   "status": "proved",
   "theorems": [
    "Httpsig.C24_reqwest_frame",
    "Httpsig.C24_blocking_frame",
    "Httpsig.C24_mock_frame",
    "Httpsig.C24_components_frame"
   ],
   "note": ""
  },
  {
   "property": "C25",
   "status": "proved",
   "theorems": [
    "Httpsig.C25_no_signature_on_error",
    "Httpsig.C25_reqwest",
    "Httpsig.C25_convertHeader_leaves_input"
   ],
   "note": "The statement names the exception (failure to encode the Signature header value); C25_convertHeader_leaves_input shows that it is needed."
  },
  {
   "property": "C26",
   "status": "proved",
   "theorems": [
    "Httpsig.C26_skip_never_missing",
    "Httpsig.C26_missing_fails",
    "Httpsig.C26_covered"
   ],
   "note": ""
  },
  {
   "property": "C27",
   "status": "proved",
   "theorems": [
    "Httpsig.C27_times_of_success",
    "Httpsig.C27_bad_times_rejected",
    "Httpsig.C27_configured_times",
    "Httpsig.C27_relative_expiry"
   ],
   "note": ""
  },
  {
   "property": "C28",
   "status": "partial",
   "theorems": [
    "Httpsig.C28_neg_unwritable_panics",
    "Httpsig.C28_exact",
    "Httpsig.C28_no_panic_partial",
    "Httpsig.C28_plain_exact"
   ],
   "note": "False: unwritable key id, nonce, times. C28_exact gives all the panics."
  },
  {
   "property": "C29",
   "status": "proved",
   "theorems": [
    "Httpsig.C29_emitted_headers"
   ],
   "note": ""
  },
  {
   "property": "C30",
   "status": "proved",
   "theorems": [
    "Httpsig.C30_hmac_unmalleable",
    "Httpsig.C30_no_reuse"
   ],
   "note": ""
  },
  {
   "property": "C31",
   "status": "proved",
   "theorems": [
    "Httpsig.C31_rfc4648",
    "Httpsig.C31_lossless",
    "Httpsig.C31_header_safe",
    "Httpsig.C31_injective"
   ],
   "note": ""
  },
  {
   "property": "C32",
   "status": "partial",
   "theorems": [
    "Httpsig.C32_header_print_parse_partial",
    "Httpsig.C32_derived_print_parse",
    "Httpsig.C32_header_case",
    "Httpsig.C32_to_header_name",
    "Httpsig.C32_neg_unquoted_derived",
    "Httpsig.C32_neg_quoted_header"
   ],
   "note": "False for the unquoted spelling of derived names and the quoted spelling of header names; print-then-parse holds for all derived components with @ names and for all headers whose name does not begin with a double quote."
  },
  {
   "property": "C33",
   "status": "proved",
   "theorems": [
    "Httpsig.C33_reqwest",
    "Httpsig.C33_blocking",
    "Httpsig.C33_validator",
    "Httpsig.C33_derivable_reqwest",
    "Httpsig.C33_derivable_blocking",
    "Httpsig.C33_derivable_validator",
    "Httpsig.C33_authority"
   ],
   "note": ""
  },
  {
   "property": "C34",
   "status": "partial",
   "theorems": [
    "Httpsig.C34_every_query_decodes",
    "Httpsig.C34_selects",
    "Httpsig.C34_selects_blocking",
    "Httpsig.C34_selects_validator",
    "Httpsig.C34_form_round_trip",
    "Httpsig.C34_needs_name",
    "Httpsig.C34_neg_absent",
    "Httpsig.C34_neg_newline",
    "Httpsig.C34_distinguishes_partial"
   ],
   "note": "First half proved for all three request types. Second half false (C34_neg_absent, C34_neg_newline); the partial theorem says when values are distinguished. C97 has the exact condition."
  },
  {
   "property": "C35",
   "status": "partial",
   "theorems": [
    "Httpsig.C35_single_values_partial",
    "Httpsig.C35_neg_two_queries",
    "Httpsig.C35_neg_further_values",
    "Httpsig.C35_neg_any_header"
   ],
   "note": "False for any further value under a name, and, for every header and every two values, between two covered query parameters (C35_neg_any_header). Holds for first values; C98 has the exact condition."
  },
  {
   "property": "C36",
   "status": "partial",
   "theorems": [
    "Httpsig.C36_unconfusable_partial",
    "Httpsig.C36_neg_two_queries",
    "Httpsig.C36_tampering_detected_partial",
    "Httpsig.C36_mock_partial"
   ],
   "note": "False when @query-params is covered twice (C36_neg_two_queries, for every HMAC key). Holds if one of the two requests is not confusable (C36_unconfusable_partial) or at most one covered value has a newline, a collision of the tag function being an explicit alternative in the conclusion."
  },
  {
   "property": "C37",
   "status": "proved",
   "theorems": [
    "Httpsig.C37_uncovered_data_irrelevant",
    "Httpsig.C37_mock_headers_only"
   ],
   "note": ""
  },
  {
   "property": "C38",
   "status": "proved",
   "theorems": [
    "Httpsig.C38_default_provider",
    "Httpsig.C38_default_provider_unknown",
    "Httpsig.C38_first_supported",
    "Httpsig.C38_skips_unsupported"
   ],
   "note": ""
  },
  {
   "property": "C39",
   "status": "proved",
   "theorems": [
    "Httpsig.C39_entry",
    "Httpsig.C39_auto_digest_accepted"
   ],
   "note": ""
  },
  {
   "property": "C40",
   "status": "proved",
   "theorems": [
    "Httpsig.C40_signing_histories",
    "Httpsig.C40_created_histories",
    "Httpsig.C40_expires_histories",
    "Httpsig.C40_verifying_histories",
    "Httpsig.C40_new_default",
    "Httpsig.C40_required_components_set"
   ],
   "note": "Default means the default of the code; that the defaults of the component lists are not the documented ones is C53."
  },
  {
   "property": "C41",
   "status": "partial",
   "theorems": [
    "Httpsig.C41_total_order",
    "Httpsig.C41_unprintable_panics",
    "Httpsig.C41_equal_are_equal_partial",
    "Httpsig.C41_equal_compare_equal_partial",
    "Httpsig.C41_neg_rounding",
    "Httpsig.C41_derived_order_partial",
    "Httpsig.C41_derived_names",
    "Httpsig.C41_neg_derived_ignores_parameters",
    "Httpsig.C41_neg_derived_not_transitive",
    "Httpsig.C41_neg_parameter_order"
   ],
   "note": "The order laws hold for printable components. Equal but differently ordered (C41_neg_parameter_order), different but Equal (C41_neg_rounding); DerivedComponent's own ordering ignores parameters and kinds. C100 has the exact condition."
  },
  {
   "property": "C42",
   "status": "proved",
   "theorems": [
    "Httpsig.C42_extracts",
    "Httpsig.C42_no_equals",
    "Httpsig.C42_no_equals_rejected",
    "Httpsig.C42_text_is_checked"
   ],
   "note": ""
  },
  {
   "property": "C43",
   "status": "partial",
   "theorems": [
    "Httpsig.C43_first_input",
    "Httpsig.C43_first_partial",
    "Httpsig.C43_neg_not_first",
    "Httpsig.C43_neg_signature_list",
    "Httpsig.C43_first_text"
   ],
   "note": "Only the first signature counts, and a Signature header listing two is rejected by every verifier."
  },
  {
   "property": "C44",
   "status": "proved",
   "theorems": [
    "Httpsig.C44_deterministic",
    "Httpsig.C44_repeatable",
    "Httpsig.C44_reqwest"
   ],
   "note": ""
  },
  {
   "property": "C45",
   "status": "partial",
   "theorems": [
    "Httpsig.C45_halves_match",
    "Httpsig.C45_hmac_halves_match",
    "Httpsig.C45_names_partial",
    "Httpsig.C45_types_partial",
    "Httpsig.C45_distinct_names",
    "Httpsig.C45_neg_openssl_pss",
    "Httpsig.C45_neg_ring_pss256",
    "Httpsig.C45_neg_back_ends_differ"
   ],
   "note": "False for the openssl PSS types and ring RsaPssSha256. Names are right for all others."
  },
  {
   "property": "C46",
   "status": "proved",
   "theorems": [
    "Httpsig.C46_reqwest_bodies",
    "Httpsig.C46_blocking_bodies",
    "Httpsig.C46_mock_bodies",
    "Httpsig.C46_reader_buffered"
   ],
   "note": ""
  },
  {
   "property": "C47",
   "status": "proved",
   "theorems": [
    "Httpsig.C47_imf_fixdate",
    "Httpsig.C47_tick",
    "Httpsig.C47_every_year",
    "Httpsig.C47_valid_header"
   ],
   "note": ""
  },
  {
   "property": "C48",
   "status": "partial",
   "theorems": [
    "Httpsig.C48_writable_iff",
    "Httpsig.C48_round_trip_partial",
    "Httpsig.C48_reread",
    "Httpsig.C48_stable",
    "Httpsig.C48_neg_blanks",
    "Httpsig.C48_neg_repeated",
    "Httpsig.C48_neg_version",
    "Httpsig.C48_exact",
    "Httpsig.C48_neg_trace"
   ],
   "note": "False for the version, header values with blanks at the ends, repeated names, and with trace logging for binary bodies. C48_exact is an equivalence; every request read from a file is in the shape that files can express (C48_reread)."
  },
  {
   "property": "C49",
   "status": "partial",
   "theorems": [
    "Httpsig.C49_processes",
    "Httpsig.C49_exact",
    "Httpsig.C49_pipeline_partial",
    "Httpsig.C49_neg_label",
    "Httpsig.C49_neg_self_cover"
   ],
   "note": "False for labels other than sig and when the signature headers are covered. C49_exact gives the necessary and sufficient conditions and says what was signed."
  },
  {
   "property": "C50",
   "status": "partial",
   "theorems": [
    "Httpsig.C50_signing_exact",
    "Httpsig.C50_verifying_exact",
    "Httpsig.C50_canonicalize_exact",
    "Httpsig.C50_neg_nonce",
    "Httpsig.C50_rejects",
    "Httpsig.C50_no_algorithm_rejects",
    "Httpsig.C50_neg_hmac",
    "Httpsig.C50_reflected_partial"
   ],
   "note": "False for the nonce and for two listed algorithms that never sign. The configuration of each mode is characterised exactly."
  },
  {
   "property": "C51",
   "status": "partial",
   "theorems": [
    "Httpsig.C51_never_panics_partial",
    "Httpsig.C51_neg_item_conversion",
    "Httpsig.C51_panics_iff"
   ],
   "note": "False for From<Item> with an item that is not a string. C51_panics_iff is exact."
  },
  {
   "property": "C52",
   "status": "proved",
   "theorems": [
    "Httpsig.C52_automatic_headers"
   ],
   "note": ""
  },
  {
   "property": "C53",
   "status": "partial",
   "theorems": [
    "Httpsig.C53_neg_default_covers_nothing",
    "Httpsig.C53_neg_default_requires_nothing"
   ],
   "note": "False on both sides, for every history of setter calls; nothing of it holds."
  },
  {
   "property": "C54",
   "status": "proved",
   "theorems": [
    "Httpsig.C54_pem_same_as_der",
    "Httpsig.C54_layout_irrelevant"
   ],
   "note": ""
  },
  {
   "property": "C55",
   "status": "partial",
   "theorems": [
    "Httpsig.C55_neg_label_ignored",
    "Httpsig.C55_framing_partial"
   ],
   "note": "False: the label is not looked at. Holds for the framing, for equality of the two labels and for the base64 between them."
  },
  {
   "property": "C56",
   "status": "proved",
   "theorems": [
    "Httpsig.C56_spki_exact",
    "Httpsig.C56_same_as_pkcs1",
    "Httpsig.C56_no_trailing",
    "Httpsig.C56_validator_both_formats"
   ],
   "note": ""
  },
  {
   "property": "C57",
   "status": "partial",
   "theorems": [
    "Httpsig.C57_neg_pkcs1_unchecked",
    "Httpsig.C57_neg_algorithm_ignored",
    "Httpsig.C57_spki_checked_partial",
    "Httpsig.C57_neg_validator"
   ],
   "note": "False for PKCS#1 (no check at all) and for the algorithm in SPKI. Holds for the structure of SPKI files."
  },
  {
   "property": "C58",
   "status": "partial",
   "theorems": [
    "Httpsig.C58_neg_pem_rejected",
    "Httpsig.C58_neg_pem_differs"
   ],
   "note": "False: the constructor hands the PEM text to the DER parser. No file is accepted, so nothing of the claim holds; the rejection is proved for every file that begins with its PEM header, under the stated condition on the DER parser."
  },
  {
   "property": "C59",
   "status": "partial",
   "theorems": [
    "Httpsig.C59_neg_other_kind",
    "Httpsig.C59_neg_short_key",
    "Httpsig.C59_signs_partial"
   ],
   "note": "False for non-RSA keys and short keys. Holds for RSA keys long enough for the digest."
  },
  {
   "property": "C60",
   "status": "proved",
   "theorems": [
    "Httpsig.C60_reads_exactly",
    "Httpsig.C60_methods_and_values",
    "Httpsig.C60_readable_values",
    "Httpsig.C60_unambiguous",
    "Httpsig.C60_reading_panics_exactly"
   ],
   "note": "Both directions and uniqueness; the two panics are characterised exactly."
  },
  {
   "property": "C61",
   "status": "partial",
   "theorems": [
    "Httpsig.C61_output_partial",
    "Httpsig.C61_truncated_exact",
    "Httpsig.C61_neg_truncated",
    "Httpsig.C61_neg_truncated_verifies"
   ],
   "note": "False in sign mode when a header value of the request is not ASCII: the lines before it are already written, and the truncated output can verify on its own. Exactly when this happens, and with which output, is C61_truncated_exact; it is the only case (C61_output_partial)."
  },
  {
   "property": "C62",
   "status": "proved",
   "theorems": [
    "Httpsig.C62_verify_exact",
    "Httpsig.C62_canonicalize_exact",
    "Httpsig.C62_sign_exact"
   ],
   "note": ""
  },
  {
   "property": "C63",
   "status": "partial",
   "theorems": [
    "Httpsig.C63_exact",
    "Httpsig.C63_neg_unreadable",
    "Httpsig.C63_neg_signature_input"
   ],
   "note": "False: unreadable input, malformed Signature-Input and unwritable options panic. C63_exact lists all the panics."
  },
  {
   "property": "C64",
   "status": "proved",
   "theorems": [
    "Httpsig.C64_verify",
    "Httpsig.C64_canonicalize",
    "Httpsig.C64_sign"
   ],
   "note": ""
  },
  {
   "property": "C65",
   "status": "proved",
   "theorems": [
    "Httpsig.C65_getters",
    "Httpsig.C65_text"
   ],
   "note": ""
  },
  {
   "property": "C66",
   "status": "proved",
   "theorems": [
    "Httpsig.C01_exact"
   ],
   "note": ""
  },
  {
   "property": "C67",
   "status": "proved",
   "theorems": [
    "Httpsig.C06_exact"
   ],
   "note": ""
  },
  {
   "property": "C68",
   "status": "proved",
   "theorems": [
    "Httpsig.C28_exact",
    "Httpsig.C28_plain_exact"
   ],
   "note": ""
  },
  {
   "property": "C69",
   "status": "proved",
   "theorems": [
    "Httpsig.C19_exact",
    "Httpsig.C19_mock_exact",
    "Httpsig.C19_readable_iff"
   ],
   "note": ""
  },
  {
   "property": "C70",
   "status": "proved",
   "theorems": [
    "Httpsig.C49_exact",
    "Httpsig.C49_processes"
   ],
   "note": ""
  },
  {
   "property": "C71",
   "status": "proved",
   "theorems": [
    "Httpsig.C63_exact"
   ],
   "note": ""
  },
  {
   "property": "C72",
   "status": "proved",
   "theorems": [
    "Httpsig.C72_accepted",
    "Httpsig.C72_refused",
    "Httpsig.C72_panics",
    "Httpsig.C72_unambiguous"
   ],
   "note": ""
  },
  {
   "property": "C73",
   "status": "proved",
   "theorems": [
    "Httpsig.C73_component_text",
    "Httpsig.C73_refused",
    "Httpsig.C73_header_names"
   ],
   "note": ""
  },
  {
   "property": "C74",
   "status": "proved",
   "theorems": [
    "Httpsig.C74_decimals_rounded"
   ],
   "note": ""
  },
  {
   "property": "C75",
   "status": "proved",
   "theorems": [
    "Httpsig.C75_authentic_or_forged",
    "Httpsig.C75_hmac_reqwest"
   ],
   "note": ""
  },
  {
   "property": "C76",
   "status": "proved",
   "theorems": [
    "Httpsig.C76_sign_refused",
    "Httpsig.C76_verify_refused",
    "Httpsig.C76_canonicalize_refused",
    "Httpsig.C76_reported"
   ],
   "note": ""
  },
  {
   "property": "C77",
   "status": "proved",
   "theorems": [
    "Httpsig.C77_base_determines_message",
    "Httpsig.C77_reqwest",
    "Httpsig.C77_tampering_detected",
    "Httpsig.C77_authentic_or_forged"
   ],
   "note": ""
  },
  {
   "property": "C78",
   "status": "proved",
   "theorems": [
    "Httpsig.C78_base_determines_url",
    "Httpsig.C78_tampering_detected",
    "Httpsig.C78_accepted_url"
   ],
   "note": ""
  },
  {
   "property": "C79",
   "status": "partial",
   "theorems": [
    "Httpsig.C79_authority_partial",
    "Httpsig.C79_host_header_partial",
    "Httpsig.C79_blocking_host_header_partial",
    "Httpsig.C79_neg_port_unsigned",
    "Httpsig.C79_neg_port_accepted"
   ],
   "note": "False whenever the URL has a port (C79_authority_partial is an equivalence); two ports of a host cannot be told apart (C79_neg_port_unsigned, C79_neg_port_accepted)."
  },
  {
   "property": "C80",
   "status": "partial",
   "theorems": [
    "Httpsig.C80_target_uri_partial",
    "Httpsig.C80_neg_not_on_wire",
    "Httpsig.C80_neg_request_target"
   ],
   "note": "False for @request-target always, and for @target-uri exactly with user information or a fragment (C80_target_uri_partial is an equivalence)."
  },
  {
   "property": "C81",
   "status": "partial",
   "theorems": [
    "Httpsig.C81_exact",
    "Httpsig.C81_delivered_partial",
    "Httpsig.C81_neg_url",
    "Httpsig.C81_neg_port",
    "Httpsig.C81_neg_no_body"
   ],
   "note": "False when the whole URL or @scheme is covered and the server sees another URL (C81_neg_url), with a port and an automatic Host header (C81_neg_port), and without a body under require_digest (C81_neg_no_body). C81_exact is the equivalence."
  },
  {
   "property": "C82",
   "status": "proved",
   "theorems": [
    "Httpsig.C82_signing_key_exact",
    "Httpsig.C82_kinds_not_confused",
    "Httpsig.C82_key_pairs",
    "Httpsig.C82_openssl_key_pairs",
    "Httpsig.C82_validator_signing_key"
   ],
   "note": ""
  },
  {
   "property": "C83",
   "status": "proved",
   "theorems": [
    "Httpsig.C83_with_header",
    "Httpsig.C83_with_header_panics",
    "Httpsig.C83_with_body",
    "Httpsig.C83_new_panics",
    "Httpsig.C83_new"
   ],
   "note": ""
  },
  {
   "property": "C84",
   "status": "proved",
   "theorems": [
    "Httpsig.C84_signed_exact",
    "Httpsig.C84_result_is_signed"
   ],
   "note": ""
  },
  {
   "property": "C85",
   "status": "proved",
   "theorems": [
    "Httpsig.C85_accepted_again_iff",
    "Httpsig.C85_one_interval",
    "Httpsig.C85_never_expires"
   ],
   "note": ""
  },
  {
   "property": "C86",
   "status": "proved",
   "theorems": [
    "Httpsig.C86_laxer_accepts_more",
    "Httpsig.C86_checks_off"
   ],
   "note": ""
  },
  {
   "property": "C87",
   "status": "proved",
   "theorems": [
    "Httpsig.C87_only_presented_key"
   ],
   "note": ""
  },
  {
   "property": "C88",
   "status": "partial",
   "theorems": [
    "Httpsig.C88_values_exact",
    "Httpsig.C88_base_exact",
    "Httpsig.C88_computed_exact",
    "Httpsig.C88_blocking",
    "Httpsig.C88_neg_duplicates",
    "Httpsig.C88_neg_request_target",
    "Httpsig.C88_neg_query_absent"
   ],
   "note": "False for irregular requests: exactly those are listed in Regular (C88_values_exact, C88_base_exact), and repeated components (C88_computed_exact)."
  },
  {
   "property": "C89",
   "status": "partial",
   "theorems": [
    "Httpsig.C89_draft_verifier",
    "Httpsig.C89_conforms_partial",
    "Httpsig.C89_neg_label_nonce"
   ],
   "note": "False for labels other than 'sig' and with a nonce; exactly when it holds is C89_draft_verifier."
  },
  {
   "property": "C90",
   "status": "partial",
   "theorems": [
    "Httpsig.C90_draft_signatures_partial",
    "Httpsig.C90_neg_authority",
    "Httpsig.C90_exact",
    "Httpsig.C90_neg_alg",
    "Httpsig.C90_neg_two_signatures"
   ],
   "note": "False without alg, with @authority, and with two signatures in a line. Holds for one signature with alg on regular requests without @authority; C90_exact is an equivalence."
  },
  {
   "property": "C91",
   "status": "proved",
   "theorems": [
    "Httpsig.C91_spelling_and_label_unsigned",
    "Httpsig.C91_rewritten"
   ],
   "note": ""
  },
  {
   "property": "C92",
   "status": "proved",
   "theorems": [
    "Httpsig.C88_values_exact",
    "Httpsig.C88_base_exact",
    "Httpsig.C88_computed_exact",
    "Httpsig.C88_blocking"
   ],
   "note": ""
  },
  {
   "property": "C93",
   "status": "proved",
   "theorems": [
    "Httpsig.C89_draft_verifier"
   ],
   "note": ""
  },
  {
   "property": "C94",
   "status": "proved",
   "theorems": [
    "Httpsig.C90_exact"
   ],
   "note": ""
  },
  {
   "property": "C95",
   "status": "proved",
   "theorems": [
    "Httpsig.C48_exact"
   ],
   "note": ""
  },
  {
   "property": "C96",
   "status": "proved",
   "theorems": [
    "Httpsig.C96_component_text_exact"
   ],
   "note": ""
  },
  {
   "property": "C97",
   "status": "proved",
   "theorems": [
    "Httpsig.C97_query_params_exact",
    "Httpsig.C97_single_values"
   ],
   "note": ""
  },
  {
   "property": "C98",
   "status": "proved",
   "theorems": [
    "Httpsig.C98_one_line_changes",
    "Httpsig.C98_reqwest_header_exact",
    "Httpsig.C98_mock_header_exact"
   ],
   "note": ""
  },
  {
   "property": "C99",
   "status": "proved",
   "theorems": [
    "Httpsig.C99_failed_output_exact"
   ],
   "note": ""
  },
  {
   "property": "C100",
   "status": "proved",
   "theorems": [
    "Httpsig.C100_compare_exact",
    "Httpsig.C100_equal_exact",
    "Httpsig.C100_agree_exact",
    "Httpsig.C100_decimals_needed"
   ],
   "note": ""
  },
  {
   "property": "C101",
   "status": "proved",
   "theorems": [
    "Httpsig.C101_reqwest_set",
    "Httpsig.C101_blocking_set",
    "Httpsig.C101_mock_set",
    "Httpsig.C101_has_component",
    "Httpsig.C101_last_set"
   ],
   "note": ""
  },
  {
   "property": "C102",
   "status": "partial",
   "theorems": [
    "Httpsig.C102_neg_no_algorithm",
    "Httpsig.C102_some_key_partial"
   ],
   "note": "False: a request without a string alg is never accepted (C102_neg_no_algorithm), and with one every key stored under the id is tried (C102_some_key_partial is an equivalence)."
  },
  {
   "property": "C103",
   "status": "proved",
   "theorems": [
    "Httpsig.C103_digest_required_denies",
    "Httpsig.C103_options_admit"
   ],
   "note": ""
  },
  {
   "property": "C104",
   "status": "partial",
   "theorems": [
    "Httpsig.C104_neg_readme_transfer",
    "Httpsig.C53_neg_default_covers_nothing"
   ],
   "note": "False: its two headers are valid for every other request, at any time (C104_neg_readme_transfer), because nothing is covered by default (C53) and there is no created or expires."
  },
  {
   "property": "C105",
   "status": "partial",
   "theorems": [
    "Httpsig.C105_neg_authorization_untouched",
    "Httpsig.C29_emitted_headers"
   ],
   "note": "False: Authorization is never touched; Signature and Signature-Input are set (C29)."
  },
  {
   "property": "C106",
   "status": "proved",
   "theorems": [
    "Httpsig.C106_only_these",
    "Httpsig.C106_signature_headers",
    "Httpsig.C106_automatic_headers",
    "Httpsig.C106_verify_reads",
    "Httpsig.C106_verify_digest"
   ],
   "note": ""
  },
  {
   "property": "C107",
   "status": "proved",
   "theorems": [
    "Httpsig.C107_value_text",
    "Httpsig.C107_item_text",
    "Httpsig.C107_component_text",
    "Httpsig.C107_list_text",
    "Httpsig.C107_input_text",
    "Httpsig.C107_unique"
   ],
   "note": ""
  },
  {
   "property": "C108",
   "status": "proved",
   "theorems": [
    "Httpsig.C108_getters",
    "Httpsig.C108_text",
    "Httpsig.C108_equal"
   ],
   "note": ""
  },
  {
   "property": "C109",
   "status": "proved",
   "theorems": [
    "Httpsig.C109_new",
    "Httpsig.C109_get_item",
    "Httpsig.C109_list",
    "Httpsig.C109_get_param",
    "Httpsig.C109_getters",
    "Httpsig.C109_read",
    "Httpsig.C109_refused",
    "Httpsig.C109_round_trip"
   ],
   "note": ""
  },
  {
   "property": "C110",
   "status": "partial",
   "theorems": [
    "Httpsig.C110_neg_parameters_unsigned",
    "Httpsig.C110_neg_rewritten",
    "Httpsig.C111_exact"
   ],
   "note": "False: the parameters of fields are dropped on reading, so adding, changing or removing them never makes a difference (C110_neg_parameters_unsigned, for every request). Parameters of derived components are signed: C111_exact."
  },
  {
   "property": "C111",
   "status": "proved",
   "theorems": [
    "Httpsig.C111_exact"
   ],
   "note": "Completes C91 and C110: what C91 and C110 allow is, up to zeros of decimals, everything that is accepted."
  },
  {
   "property": "C112",
   "status": "proved",
   "theorems": [
    "Httpsig.C112_algorithms",
    "Httpsig.C112_result",
    "Httpsig.C112_success"
   ],
   "note": "The five results are one inductive relation; the theorem is an equivalence, so no other result is possible. Panics are classified by C28_exact."
  },
  {
   "property": "C113",
   "status": "proved",
   "theorems": [
    "Httpsig.C113_pem_contents"
   ],
   "note": ""
  },
  {
   "property": "C114",
   "status": "proved",
   "theorems": [
    "Httpsig.C114_rejected_iff",
    "Httpsig.C114_body_not_read",
    "Httpsig.C114_handed_back"
   ],
   "note": ""
  },
  {
   "property": "C115",
   "status": "proved",
   "theorems": [
    "Httpsig.C115_panics",
    "Httpsig.C115_success",
    "Httpsig.C115_result"
   ],
   "note": ""
  },
  {
   "property": "C116",
   "status": "proved",
   "theorems": [
    "Httpsig.C116_result",
    "Httpsig.C116_rejected",
    "Httpsig.C116_accepted",
    "Httpsig.C116_panic"
   ],
   "note": ""
  },
  {
   "property": "C117",
   "status": "proved",
   "theorems": [
    "Httpsig.C117_printable"
   ],
   "note": "The hypothesis Fmt.Printable is about Display of chrono's TimeDelta and Debug of rust_decimal's Decimal, which are not modelled."
  },
  {
   "property": "C118",
   "status": "proved",
   "theorems": [
    "Httpsig.C118_verify",
    "Httpsig.C118_records",
    "Httpsig.C118_accepted",
    "Httpsig.C118_sign",
    "Httpsig.C118_signed"
   ],
   "note": "Trace records may contain line breaks, since the signature base does; C117 is about level info."
  },
  {
   "property": "C119",
   "status": "proved",
   "theorems": [
    "Httpsig.C119_accepted",
    "Httpsig.C119_panics",
    "Httpsig.C119_rejected"
   ],
   "note": "Composes C10, C19, C03, C33, C34, C72 and C107 into one equivalence whose right-hand side mentions no function of the library."
  },
  {
   "property": "C120",
   "status": "proved",
   "theorems": [
    "Httpsig.C120_exact",
    "Httpsig.C120_own_headers",
    "Httpsig.C120_own_headers_hmac",
    "Httpsig.C120_pipeline"
   ],
   "note": "Generalises the single counterexample C49_neg_self_cover to all requests, keys and options, and C49_exact to options that name the signature headers."
  },
  {
   "property": "C121",
   "status": "proved",
   "theorems": [
    "Httpsig.C121_accepts",
    "Httpsig.C121_panics",
    "Httpsig.C121_fails",
    "Httpsig.C121_refuses"
   ],
   "note": "C121_accepts, C121_panics, C121_fails and C121_refuses cover all exits of verify mode; their right-hand sides use texts, the grammar of structured fields, base64 and the file grammar only."
  },
  {
   "property": "C122",
   "status": "proved",
   "theorems": [
    "Httpsig.C122_relative",
    "Httpsig.C122_read",
    "Httpsig.C122_tidy",
    "Httpsig.C122_reread",
    "Httpsig.C122_request",
    "Httpsig.C122_origin_form",
    "Httpsig.C122_blank_host",
    "Httpsig.C122_user_host",
    "Httpsig.C122_on_wire",
    "Httpsig.C122_pairs",
    "Httpsig.C122_alias_up",
    "Httpsig.C122_alias_here",
    "Httpsig.C122_alias_backslash",
    "Httpsig.C122_alias_encoded",
    "Httpsig.C122_alias_target",
    "Httpsig.C122_same_target"
   ],
   "note": "Parsing of hosts (domain to ASCII, IP addresses) and of schemes other than http, https, ws, wss and ftp are parameters of the parser's model."
  },
  {
   "property": "C123",
   "status": "proved",
   "theorems": [
    "Httpsig.C123_exit",
    "Httpsig.C123_reading",
    "Httpsig.C123_unreadable",
    "Httpsig.C123_info_quiet",
    "Httpsig.C123_info_failed",
    "Httpsig.C123_info_homeless",
    "Httpsig.C123_info_panic",
    "Httpsig.C123_info_printable",
    "Httpsig.C123_trace_canonicalize",
    "Httpsig.C123_trace_verify",
    "Httpsig.C123_signer",
    "Httpsig.C123_trace_sign",
    "Httpsig.C123_trace_signed",
    "Httpsig.C123_private_key"
   ],
   "note": "`{:#?}` of the request is a parameter; env_logger's decoration and filtering of lines is not modelled."
  },
  {
   "property": "C124",
   "status": "proved",
   "theorems": [
    "Httpsig.C124_bytes",
    "Httpsig.C124_input",
    "Httpsig.C124_component",
    "Httpsig.C124_display",
    "Httpsig.C124_debug",
    "Httpsig.C124_values",
    "Httpsig.C124_errors",
    "Httpsig.C124_missing",
    "Httpsig.C124_one_line"
   ],
   "note": "The reason that sfv gives for a parse error and the set of printable characters outside ASCII are parameters (Fmt)."
  },
  {
   "property": "C125",
   "status": "proved",
   "theorems": [
    "Httpsig.C125_errors",
    "Httpsig.C125_report",
    "Httpsig.C125_code",
    "Httpsig.C125_one_line",
    "Httpsig.C125_told",
    "Httpsig.C125_private_key"
   ],
   "note": "Debug texts of I/O errors, of the key parsers' errors and of http's ToStrError are parameters, and so is whether a key parser's error quotes its input; the message of a panic is not modelled, only that there is one and which."
  },
  {
   "property": "C126",
   "status": "proved",
   "theorems": [
    "Httpsig.C126_read",
    "Httpsig.C126_one",
    "Httpsig.C126_clean",
    "Httpsig.C126_again",
    "Httpsig.C126_domain",
    "Httpsig.C126_ipv4",
    "Httpsig.C126_ipv6",
    "Httpsig.C126_addresses",
    "Httpsig.C126_alias_case",
    "Httpsig.C126_alias_encoded",
    "Httpsig.C126_reread",
    "Httpsig.C126_on_wire",
    "Httpsig.C126_alias_authority",
    "Httpsig.C126_same_host"
   ],
   "note": "The conversion of international domain names (`idna`) is a parameter; domains of ASCII characters without `xn--` labels do not use it. The length limits of IDNA processing are off in the url crate."
  },
  {
   "property": "C127",
   "status": "proved",
   "theorems": [
    "Httpsig.C127_base_size",
    "Httpsig.C127_value_size_mock",
    "Httpsig.C127_value_size_reqwest",
    "Httpsig.C127_value_size_blocking",
    "Httpsig.C127_request_bound",
    "Httpsig.C127_repeated",
    "Httpsig.C127_superlinear"
   ],
   "note": "Sizes are in bytes of UTF-8. The body is not in the base. The verifier computes the base only if it knows the key id, so for every key id C127_superlinear gives a request whose signature is checked over a base larger than any chosen multiple of the request; that theorem is for a configuration with no required components and no date check."
  },
  {
   "property": "C128",
   "status": "proved",
   "theorems": [
    "Httpsig.C128_hmac_value",
    "Httpsig.C128_hmac_leak",
    "Httpsig.C128_verify_value",
    "Httpsig.C128_verify_leak",
    "Httpsig.C128_early_exit_leaks"
   ],
   "note": "subtle's slice comparison and digest's verify_slice are modelled from their sources as known; observed are branches and indices at the level of the source, not what a compiler or processor makes of them. The computation of the tag and of the digest, and the base64 decoder, are left out of what is observed."
  },
  {
   "property": "C129",
   "status": "proved",
   "theorems": [
    "Httpsig.C129_accepted",
    "Httpsig.C129_reqwest",
    "Httpsig.C129_revoked",
    "Httpsig.C129_replay"
   ],
   "note": "Authenticity assumes, as C75 does, that the signing clients are careful (tidy components, no empty nonce, no signed value that contains the start of a line of the base); for reqwest requests this follows when decoded query values contain no double quote. That a forgery is infeasible is not assumed: it is the second alternative."
  },
  {
   "property": "C130",
   "status": "proved",
   "theorems": [
    "Httpsig.C130_derived_dropped",
    "Httpsig.C130_request_line"
   ],
   "note": "The signature headers themselves must not be covered; automatic headers are visible ASCII unless missing components are skipped, as in C112."
  },
  {
   "property": "C131",
   "status": "proved",
   "theorems": [
    "Httpsig.C131_result",
    "Httpsig.C131_calls",
    "Httpsig.C131_one_lookup",
    "Httpsig.C131_key_before_body"
   ],
   "note": "Calls of derive, has_component and name are not recorded. User code is a function of its arguments (see DESIGN.md)."
  },
  {
   "property": "C132",
   "status": "proved",
   "theorems": [
    "Httpsig.C132_result",
    "Httpsig.C132_calls",
    "Httpsig.C132_changes",
    "Httpsig.C132_key_once",
    "Httpsig.C132_asked"
   ],
   "note": "Calls of derive, has_component and name are not recorded."
  },
  {
   "property": "C133",
   "status": "proved",
   "theorems": [
    "Httpsig.C133_canonicalize",
    "Httpsig.C133_sign",
    "Httpsig.C133_sign_missing",
    "Httpsig.C133_pipe_empty",
    "Httpsig.C133_pipe",
    "Httpsig.C133_der_key"
   ],
   "note": "The claim says what the commands do. The README's own request file has no digest field, so two of its four commands fail; this is an example beside the theorems."
  },
  {
   "property": "C134",
   "status": "proved",
   "theorems": [
    "Httpsig.C134_exact",
    "Httpsig.C134_order",
    "Httpsig.C134_refused",
    "Httpsig.C134_sayable",
    "Httpsig.C134_readme"
   ],
   "note": "clap 2 and structopt 0.3 are not in /repo; only plain command lines are modelled, and what the model refuses may be a form of clap's that is not modelled"
  },
  {
   "property": "C135",
   "status": "proved",
   "theorems": [
    "Httpsig.C135_same",
    "Httpsig.C135_zeros_and_long",
    "Httpsig.C135_binding",
    "Httpsig.C135_other_type",
    "Httpsig.C135_accepted",
    "Httpsig.C135_accepted_sha512"
   ],
   "note": "the hmac crate is modelled as RFC 2104 in Model/Hmac; SHA-256 and SHA-512 of Vectors/Sha2 meet the hypotheses (realHmac)"
  },
  {
   "property": "C136",
   "status": "proved",
   "theorems": [
    "Httpsig.C136_pair",
    "Httpsig.C136_one_signature",
    "Httpsig.C136_binding",
    "Httpsig.C136_accepted",
    "Httpsig.C136_readme"
   ],
   "note": "PKCS#1 v1.5 is modelled in Model/Rsa; the functions of Vectors/Rsa with SHA-2 meet the hypotheses (realRsa)"
  },
  {
   "property": "C137",
   "status": "proved",
   "theorems": [
    "Httpsig.C137_pair",
    "Httpsig.C137_signatures",
    "Httpsig.C137_salted",
    "Httpsig.C137_binding",
    "Httpsig.C137_accepted"
   ],
   "note": "PSS is modelled in Model/Pss, tested on a signature made with the openssl command (Vectors/Openssl); the functions of Vectors/Rsa with SHA-512 meet the hypotheses (realPss)"
  },
  {
   "property": "C138",
   "status": "proved",
   "theorems": [
    "Httpsig.C138_accepted",
    "Httpsig.C138_pair",
    "Httpsig.C138_keys",
    "Httpsig.C138_two_forms",
    "Httpsig.C138_other_form",
    "Httpsig.C138_other_key",
    "Httpsig.C138_few_keys",
    "Httpsig.C138_request"
   ],
   "note": "P-256 is modelled in Model/Ecdsa and proved to be the group of the curve in Mathlib, which has q elements (Lemmas/P256, P256Order); tested on a signature made with the openssl command (Vectors/Openssl)"
  },
  {
   "property": "C139",
   "status": "proved",
   "theorems": [
    "Httpsig.C139_one_key",
    "Httpsig.C139_every_key",
    "Httpsig.C139_accepted",
    "Httpsig.C139_pair",
    "Httpsig.C139_refused"
   ],
   "note": "ring's reader is modelled in Model/EcPkcs8 from recollection of ring 0.16 (pkcs8.rs, io/der.rs, ec/suite_b.rs), whose source was not available to compare with; tested on test_data/ecc-private.pem and on files written with the openssl command (Vectors/Openssl), not against ring"
  },
  {
   "property": "C140",
   "status": "proved",
   "theorems": [
    "Httpsig.C140_accepted",
    "Httpsig.C140_accepted_pss",
    "Httpsig.C140_keys",
    "Httpsig.C140_pair",
    "Httpsig.C140_one_encoding",
    "Httpsig.C140_kinds",
    "Httpsig.C140_wrong_format",
    "Httpsig.C140_validator",
    "Httpsig.C140_useless_files"
   ],
   "note": "Model/RsaPublic models how ring reads public keys, from recollection; the back end's calls are those of Model/Algorithm. Proved for every instance of the parameters with `RingRsa`."
  },
  {
   "property": "C141",
   "status": "proved",
   "theorems": [
    "Httpsig.C141_returns",
    "Httpsig.C141_same",
    "Httpsig.C141_panics",
    "Httpsig.C141_left_as_unwritable",
    "Httpsig.C141_left",
    "Httpsig.C141_left_input",
    "Httpsig.C141_not_accepted",
    "Httpsig.C141_openssl"
   ],
   "note": "The signing operation is an arbitrary function that may panic; under which circumstances ring's fail is not modelled. What is left of the request matters to callers that catch panics."
  },
  {
   "property": "C142",
   "status": "proved",
   "theorems": [
    "Httpsig.C142_one_padding",
    "Httpsig.C142_not_understood",
    "Httpsig.C142_own",
    "Httpsig.C142_understood",
    "Httpsig.C142_requests"
   ],
   "note": "Proved for every instance of the parameters with `RealRsa` and `RealPss`. A SHA-512 hash with 62 given bytes is not known; that there is none cannot be proved for an arbitrary hash, so it is the other part of the disjunction."
  },
  {
   "property": "C143",
   "status": "proved",
   "theorems": [
    "Httpsig.C143_one_key",
    "Httpsig.C143_taken",
    "Httpsig.C143_signatures",
    "Httpsig.C143_value",
    "Httpsig.C143_panics",
    "Httpsig.C143_fit",
    "Httpsig.C143_pair",
    "Httpsig.C143_exponent_unused",
    "Httpsig.C143_refused",
    "Httpsig.C143_requests",
    "Httpsig.C143_validator_refuses",
    "Httpsig.C143_validator_pair",
    "Httpsig.C143_readme"
   ],
   "note": "The reading of the files and the arithmetic of signing are those of ring 0.16 in Model/RsaPkcs8, written from recollection of its source (DESIGN.md, section 1); the blinding and the Montgomery arithmetic are not modelled."
  },
  {
   "property": "C144",
   "status": "proved",
   "theorems": [
    "Httpsig.C144_accepted",
    "Httpsig.C144_panics",
    "Httpsig.C144_short",
    "Httpsig.C144_pair",
    "Httpsig.C144_exponent_one",
    "Httpsig.C144_forge",
    "Httpsig.C144_requests",
    "Httpsig.C144_ring"
   ],
   "note": "Rests on the model of OpenSSL's limits in Model/OsslRsa, which was compared with the openssl command at the limits (Vectors/OsslRsa). Private keys whose numbers do not belong together are not covered; key files are in C145."
  },
  {
   "property": "C145",
   "status": "proved",
   "theorems": [
    "Httpsig.C145_spki",
    "Httpsig.C145_not_spki",
    "Httpsig.C145_kinds",
    "Httpsig.C145_pair",
    "Httpsig.C145_public",
    "Httpsig.C145_pkcs1",
    "Httpsig.C145_private",
    "Httpsig.C145_cross",
    "Httpsig.C145_same_key",
    "Httpsig.C145_servers",
    "Httpsig.C145_same_signer",
    "Httpsig.C145_clients"
   ],
   "note": "What OpenSSL reads is assumed, in Spec/OsslFiles: the files of the standards, and what tells the kinds apart. The assumptions were compared with libcrypto 3.0.13. Which other files OpenSSL reads (for example PKCS #8 with attributes, which it checks and ring does not), its PEM files, and RSASSA-PSS are not covered."
  }
 ]
}
