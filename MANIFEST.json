{
 "claims": [
  {
   "property": "C01",
   "status": "proved",
   "theorems": [
    "Tink.Props.C01_aead_encrypt_eq",
    "Tink.Props.C01_aead_round_trip",
    "Tink.Props.C01_aead_encrypt_ok"
   ],
   "note": "Proved for every keyset, registry and AEAD objects satisfying the per-key round-trip hypothesis, including randomised encryption through the seed argument."
  },
  {
   "property": "C02",
   "status": "proved",
   "theorems": [
    "Tink.Props.C02_aead_authentic",
    "Tink.Props.C02_aead_authentic'"
   ],
   "note": ""
  },
  {
   "property": "C03",
   "status": "proved",
   "theorems": [
    "Tink.Props.C03_aead_decrypt_eq",
    "Tink.Props.C03_aead_rejects_iff",
    "Tink.Props.C03_aead_other_errors"
   ],
   "note": "Exact characterisation: the wrapper raises TinkError iff every candidate does; other exceptions of a key object escape unchanged."
  },
  {
   "property": "C04",
   "status": "proved",
   "theorems": [
    "Tink.Props.C04_short_never_prefixed",
    "Tink.Props.C04_short_rejected",
    "Tink.Props.AeadExample.C04_round_trip_fails_when_empty"
   ],
   "note": "Short ciphertexts are never matched against prefixed keys. Witness: an AEAD with empty raw ciphertexts under a TINK key does not round-trip, because the length test is strict."
  },
  {
   "property": "C05",
   "status": "proved",
   "theorems": [
    "Tink.Props.C05_daead_decrypt_eq",
    "Tink.Props.C05_daead_encrypt_eq",
    "Tink.Props.C05_daead_deterministic",
    "Tink.Props.C05_daead_round_trip",
    "Tink.Props.C05_daead_authentic",
    "Tink.Props.C05_daead_rejects_iff"
   ],
   "note": ""
  },
  {
   "property": "C06",
   "status": "proved",
   "theorems": [
    "Tink.Props.C06_hybrid_decrypt_eq",
    "Tink.Props.C06_hybrid_encrypt_eq",
    "Tink.Props.C06_hybrid_encrypt_no_primary",
    "Tink.Props.C06_hybrid_round_trip",
    "Tink.Props.C06_hybrid_authentic",
    "Tink.Props.C06_hybrid_rejects_iff"
   ],
   "note": ""
  },
  {
   "property": "C07",
   "status": "proved",
   "theorems": [
    "Tink.Props.C07_mac_compute_eq",
    "Tink.Props.C07_mac_round_trip",
    "Tink.Props.MacExample.C07_short_raw_tag_fails"
   ],
   "note": "Round trip needs the tag to be longer than the five-byte prefix; witness C07_short_raw_tag_fails shows that shorter RAW tags fail."
  },
  {
   "property": "C08",
   "status": "proved",
   "theorems": [
    "Tink.Props.C08_mac_verify_eq",
    "Tink.Props.C08_mac_authentic",
    "Tink.Props.C08_mac_short_rejected",
    "Tink.Props.C08_mac_rejects_iff",
    "Tink.Props.C08_signature_verify_eq",
    "Tink.Props.C08_signature_authentic",
    "Tink.Props.C08_signature_short_rejected",
    "Tink.Props.C08_signature_rejects_iff"
   ],
   "note": ""
  },
  {
   "property": "C09",
   "status": "proved",
   "theorems": [
    "Tink.Props.C09_sign_eq",
    "Tink.Props.C09_signature_round_trip"
   ],
   "note": ""
  },
  {
   "property": "C10",
   "status": "proved",
   "theorems": [
    "Tink.Props.C10_prf_set",
    "Tink.Props.C10_prf_set_distinct",
    "Tink.Props.C10_prf_non_raw_rejected"
   ],
   "note": ""
  },
  {
   "property": "C11",
   "status": "proved",
   "theorems": [
    "Tink.Props.C11_prefix_cases",
    "Tink.Props.C11_prefix_length",
    "Tink.Props.C11_prefix_eq_iff"
   ],
   "note": ""
  },
  {
   "property": "C12",
   "status": "proved",
   "theorems": [
    "Tink.Props.C12_key_survives",
    "Tink.Props.C12_aead",
    "Tink.Props.C12_daead",
    "Tink.Props.C12_mac",
    "Tink.Props.C12_signature",
    "Tink.Props.C12_hybrid"
   ],
   "note": "Histories are arbitrary lists of keyset builder calls that do not disable or delete the key's id. For signatures and hybrid encryption the public keyset is the one derived from the private keyset."
  },
  {
   "property": "C13",
   "status": "proved",
   "theorems": [
    "Tink.Props.C13_aead_some_key_accepts",
    "Tink.Props.C13_aead_some_key_accepts'",
    "Tink.Props.AeadExample.C13_good_key_hidden",
    "Tink.Props.C13_daead_some_key_accepts",
    "Tink.Props.C13_hybrid_some_key_accepts",
    "Tink.Props.C13_mac_some_key_accepts",
    "Tink.Props.C13_signature_some_key_accepts",
    "Tink.Props.MisbehavingExample.C13_daead_good_key_hidden",
    "Tink.Props.MisbehavingExample.C13_hybrid_good_key_hidden",
    "Tink.Props.MisbehavingExample.C13_mac_good_key_hidden",
    "Tink.Props.MisbehavingExample.C13_signature_good_key_hidden"
   ],
   "note": "Positive half and a concrete counterexample for each of AEAD, deterministic AEAD, hybrid decryption, MAC and signature verification."
  },
  {
   "property": "C14",
   "status": "proved",
   "theorems": [
    "Tink.Props.C14_lookup",
    "Tink.Props.C14_primitive",
    "Tink.Props.C14_raw",
    "Tink.Props.C14_all",
    "Tink.Props.C14_all_grouped",
    "Tink.Props.C14_add_fails_iff"
   ],
   "note": ""
  },
  {
   "property": "C15",
   "status": "proved",
   "theorems": [
    "Tink.Props.C15_first_manager_stays",
    "Tink.Props.C15_registration_binds",
    "Tink.Props.C15_other_urls"
   ],
   "note": ""
  },
  {
   "property": "C16",
   "status": "proved",
   "theorems": [
    "Tink.Props.C16_forbidden_forever",
    "Tink.Props.C16_allowed_uses_manager"
   ],
   "note": ""
  },
  {
   "property": "C17",
   "status": "proved",
   "theorems": [
    "Tink.Props.C17_failed_call_changes_nothing",
    "Tink.Props.C17_register_key_manager_fails_iff",
    "Tink.Props.C17_wrapper_type_stays"
   ],
   "note": ""
  },
  {
   "property": "C18",
   "status": "proved",
   "theorems": [
    "Tink.Props.C18_primitive_iff",
    "Tink.Props.C18_primitive_rejected",
    "Tink.Props.C18_public_key_data_iff",
    "Tink.Props.C18_traced",
    "Tink.Props.C18_wrap_iff"
   ],
   "note": ""
  },
  {
   "property": "C19",
   "status": "proved",
   "theorems": [
    "Tink.Props.C19_generate_new",
    "Tink.Props.C19_generate_new_ok",
    "Tink.Props.C19_generate_new_error"
   ],
   "note": ""
  },
  {
   "property": "C20",
   "status": "proved",
   "theorems": [
    "Tink.Props.C20_validate_iff",
    "Tink.Props.C20_create_iff",
    "Tink.Props.C20_primitive_invalid",
    "Tink.Props.C20_primitive_valid"
   ],
   "note": "The English first said 'has a key'; the code requires a key that is not DESTROYED, and the statement was corrected to that. See DESIGN.md."
  },
  {
   "property": "C21",
   "status": "proved",
   "theorems": [
    "Tink.Props.C21_primitive_from_enabled",
    "Tink.Props.C21_depends_only_on_enabled",
    "Tink.Props.C21_other_key_data_irrelevant"
   ],
   "note": ""
  },
  {
   "property": "C22",
   "status": "proved",
   "theorems": [
    "Tink.Props.C22_write_no_secret",
    "Tink.Props.C22_read_no_secret",
    "Tink.Props.C22_serialize_without_secret",
    "Tink.Props.C22_parse_without_secret",
    "Tink.Props.C22_round_trip",
    "Tink.Props.C22_json_serialize_without_secret",
    "Tink.Props.C22_json_serialize_iff",
    "Tink.Props.C22_json_parse_without_secret",
    "Tink.Props.C22_json_round_trip"
   ],
   "note": "write_no_secret and read_no_secret are proved for every reader and writer; serialize_without_secret and parse_without_secret for both formats."
  },
  {
   "property": "C23",
   "status": "proved",
   "theorems": [
    "Tink.Props.C23_info_only_metadata",
    "Tink.Props.C23_info_lists_every_key",
    "Tink.Props.C23_info_hides_key_bytes",
    "Tink.Props.C23_encrypted_keyset_parts"
   ],
   "note": ""
  },
  {
   "property": "C24",
   "status": "proved",
   "theorems": [
    "Tink.Props.C24_binary_round_trip",
    "Tink.Props.C24_round_trip",
    "Tink.Props.C24_write_succeeds",
    "Tink.Props.C24_no_associated_data",
    "Tink.Props.C24_json_round_trip",
    "Tink.Props.C24_json_write_succeeds"
   ],
   "note": "Needs a non-empty ciphertext, which the English first omitted: C25_empty_ciphertext_unreadable shows that the condition cannot be dropped. C24_round_trip covers any reader/writer pair that stores the ciphertext faithfully; C24_binary_round_trip instantiates it for the binary format, C24_json_round_trip for JSON."
  },
  {
   "property": "C25",
   "status": "proved",
   "theorems": [
    "Tink.Props.C25_write_checked",
    "Tink.Props.C25_write_check_fails",
    "Tink.Props.C25_write_failure_untouched",
    "Tink.Props.C25_binary_readable",
    "Tink.Props.KeysetIOExample.C25_empty_ciphertext_unreadable",
    "Tink.Props.C25_json_readable"
   ],
   "note": "Proved for every AEAD and writer. Being observed to decrypt does not make the result readable if the ciphertext is empty: witness C25_empty_ciphertext_unreadable; C25_binary_readable carries that condition."
  },
  {
   "property": "C26",
   "status": "proved",
   "theorems": [
    "Tink.Props.C26_wrong_associated_data",
    "Tink.Props.C26_empty_ciphertext",
    "Tink.Props.C26_bad_plaintext"
   ],
   "note": ""
  },
  {
   "property": "C27",
   "status": "proved",
   "theorems": [
    "Tink.Props.C27_public_keyset",
    "Tink.Props.C27_public_keyset_no_secret",
    "Tink.Props.C27_not_private_rejected",
    "Tink.Props.C27_public_keyset_ok"
   ],
   "note": ""
  },
  {
   "property": "C28",
   "status": "proved",
   "theorems": [
    "Tink.Props.C28_token_required",
    "Tink.Props.C28_json_token_required",
    "Tink.Props.KeysetJsonExample.C28_json_type_error_escapes"
   ],
   "note": "Binary format, JSON format and proto conversion. C28_json_type_error_escapes shows why the exceptions of the JSON reader are mentioned."
  },
  {
   "property": "C29",
   "status": "proved",
   "theorems": [
    "Tink.Props.C29_keyset_round_trip",
    "Tink.Props.C29_encrypted_keyset_round_trip",
    "Tink.Props.C29_keyset_injective",
    "Tink.Props.C29_encrypted_keyset_injective",
    "Tink.Props.C29_reader_writer",
    "Tink.Props.C29_reader_writer_encrypted",
    "Tink.Props.C29_handle_round_trip"
   ],
   "note": ""
  },
  {
   "property": "C30",
   "status": "proved",
   "theorems": [
    "Tink.Props.C30_read_total",
    "Tink.Props.C30_read_encrypted_total",
    "Tink.Props.C30_parse_total",
    "Tink.Props.C30_parse_without_secret_total",
    "Tink.Props.C30_empty"
   ],
   "note": ""
  },
  {
   "property": "C31",
   "status": "proved",
   "theorems": [
    "Tink.Props.C31_round_trip",
    "Tink.Props.C31_long_dek"
   ],
   "note": ""
  },
  {
   "property": "C32",
   "status": "proved",
   "theorems": [
    "Tink.Props.C32_ciphertext_framing",
    "Tink.Props.C32_decrypt_framing"
   ],
   "note": ""
  },
  {
   "property": "C33",
   "status": "proved",
   "theorems": [
    "Tink.Props.C33_encrypt_calls",
    "Tink.Props.C33_decrypt_calls",
    "Tink.Props.C33_recording_faithful",
    "Tink.Props.C33_server_ignorant"
   ],
   "note": ""
  },
  {
   "property": "C34",
   "status": "proved",
   "theorems": [
    "Tink.Props.C34_create_ok_iff",
    "Tink.Props.C34_unsupported",
    "Tink.Props.C34_generation_fails",
    "Tink.Props.C34_create_value"
   ],
   "note": ""
  },
  {
   "property": "C35",
   "status": "proved",
   "theorems": [
    "Tink.Props.C35_selects_first",
    "Tink.Props.C35_none",
    "Tink.Props.C35_raising_client"
   ],
   "note": ""
  },
  {
   "property": "C36",
   "status": "proved",
   "theorems": [
    "Tink.Props.C36_context_injective",
    "Tink.Props.C36_context_empty",
    "Tink.Props.C36_context_entry",
    "Tink.Props.C36_context_used"
   ],
   "note": ""
  },
  {
   "property": "C37",
   "status": "proved",
   "theorems": [
    "Tink.Props.C37_aws_create",
    "Tink.Props.C37_aws_get_aead",
    "Tink.Props.C37_aws_session_get_aead",
    "Tink.Props.C37_gcp_create",
    "Tink.Props.C37_gcp_get_aead",
    "Tink.Props.C37_gcp_newline_accepted",
    "Tink.Props.C37_gcp_supported_but_refused",
    "Tink.Props.C37_gcp_call",
    "Tink.Props.C37_vault_path",
    "Tink.Props.C37_vault_surrogates",
    "Tink.Props.C37_vault_unique",
    "Tink.Props.C37_vault_quote_injective",
    "Tink.Props.C37_vault_percent_encoded"
   ],
   "note": "The English first gave the scheme prefix alone for AWS; the code requires a region as well, and the statement was corrected. Violations: C37_gcp_newline_accepted, C37_gcp_supported_but_refused, C37_vault_surrogates."
  },
  {
   "property": "C38",
   "status": "proved",
   "theorems": [
    "Tink.Props.C38_associated_data_rejected",
    "Tink.Props.C38_only_tink_errors",
    "Tink.Props.C38_round_trip"
   ],
   "note": ""
  },
  {
   "property": "C39",
   "status": "proved",
   "theorems": [
    "Tink.Props.C39_round_trip",
    "Tink.Props.C39_alphabet",
    "Tink.Props.C39_rejects",
    "Tink.Props.C39_decodes",
    "Tink.Props.C39_not_canonical"
   ],
   "note": "C39_not_canonical: distinct strings with the same bytes."
  },
  {
   "property": "C40",
   "status": "proved",
   "theorems": [
    "Tink.Props.C40_raw",
    "Tink.Props.C40_tink",
    "Tink.Props.C40_injective",
    "Tink.Props.C40_other",
    "Tink.Props.C40_out_of_range"
   ],
   "note": "C40_out_of_range: the test key_id > 2**32 lets 2^32 itself through to struct.error; key ids of keysets are below it."
  },
  {
   "property": "C41",
   "status": "proved",
   "theorems": [
    "Tink.Props.C41_mac",
    "Tink.Props.C41_mac_encodes",
    "Tink.Props.C41_mac_two_kids",
    "Tink.Props.C41_signature",
    "Tink.Props.C41_signature_encodes",
    "Tink.Props.C41_signature_two_kids",
    "Tink.Props.C41_mac_any",
    "Tink.Props.C41_signature_any_keys",
    "Tink.Props.C41_signature_any"
   ],
   "note": "Stated for two keysets and registries; the C++ MAC or signature objects are parameters of which only correctness is assumed. LawfulFloats and LawfulUpper are what is assumed of float repr/parse and of str.upper on ASCII. C43_registered shows that Tink's key managers are in the registry after any history of registrations. C41_mac_any and C41_signature_any: wherever the key is in the verifying keyset."
  },
  {
   "property": "C42",
   "status": "proved",
   "theorems": [
    "Tink.Props.C42_mac",
    "Tink.Props.C42_signature"
   ],
   "note": ""
  },
  {
   "property": "C43",
   "status": "proved",
   "theorems": [
    "Tink.Props.C43_registered",
    "Tink.Props.C43_mac",
    "Tink.Props.C43_signature",
    "Tink.Props.C43_mac_algorithm",
    "Tink.Props.C43_signature_algorithm",
    "Tink.Props.C43_alg_case_violated",
    "Tink.Props.C43_alg_unicode_violated"
   ],
   "note": "Exact equality of alg is false: witnesses C43_alg_case_violated and C43_alg_unicode_violated. For ASCII header values C43_mac_algorithm and C43_signature_algorithm give equality up to case."
  },
  {
   "property": "C44",
   "status": "proved",
   "theorems": [
    "Tink.Props.C44_mac_prefix_types",
    "Tink.Props.C44_mac_first",
    "Tink.Props.C44_mac_ok",
    "Tink.Props.C44_mac_accepts",
    "Tink.Props.C44_mac_rejects",
    "Tink.Props.C44_signature_prefix_types",
    "Tink.Props.C44_sign_prefix_types",
    "Tink.Props.C44_signature_first",
    "Tink.Props.C44_signature_ok",
    "Tink.Props.C44_signature_accepts",
    "Tink.Props.C44_signature_rejects",
    "Tink.Props.C44_other_exceptions_escape",
    "Tink.Props.C44_mac_invalid",
    "Tink.Props.C44_mac_malformed",
    "Tink.Props.C44_mac_unauthentic",
    "Tink.Props.C44_signature_invalid",
    "Tink.Props.C44_signature_malformed",
    "Tink.Props.C44_signature_unauthentic"
   ],
   "note": "The English first left out that a malformed token also gives JwtInvalidError. Other exceptions end the search: witness C44_other_exceptions_escape."
  },
  {
   "property": "C45",
   "status": "proved",
   "theorems": [
    "Tink.Props.C45_accepts_shown",
    "Tink.Props.C45_accepts",
    "Tink.Props.C45_clock",
    "Tink.Props.C45_rejects",
    "Tink.Props.C45_new_validator",
    "Tink.Props.C45_nan_violated",
    "Tink.Props.C45_overflow_violated",
    "Tink.Props.C45_zone_violated"
   ],
   "note": "Times in a token are integers, booleans or floats; of floats LawfulTimes is assumed. C45_accepts_shown covers every zone, C45_accepts the zones of fixed offset. Exceptions: C45_nan_violated, C45_overflow_violated, C45_zone_violated."
  },
  {
   "property": "C46",
   "status": "proved",
   "theorems": [
    "Tink.Props.C46_stays_expired",
    "Tink.Props.C46_no_return",
    "Tink.Props.C46_stays_valid",
    "Tink.Props.C46_zone_violated"
   ],
   "note": "Expired, interval and monotonicity statements for the clock and for fixed_now in zones of fixed offset; C46_zone_violated is the counterexample for other zones."
  },
  {
   "property": "C47",
   "status": "proved",
   "theorems": [
    "Tink.Props.C47_expiration_rule",
    "Tink.Props.C47_accepts",
    "Tink.Props.C47_rejects",
    "Tink.Props.C47_getters",
    "Tink.Props.C47_audiences",
    "Tink.Props.C47_times",
    "Tink.Props.C47_custom",
    "Tink.Props.C47_before_1970"
   ],
   "note": "Custom claims are assumed to survive a JSON round trip where arrays or objects are copied (Copyable). C47_before_1970: a time less than a second before 1970 is accepted as 1970."
  },
  {
   "property": "C48",
   "status": "proved",
   "theorems": [
    "Tink.Props.C48_created",
    "Tink.Props.C48_parsed",
    "Tink.Props.C48_error",
    "Tink.Props.C48_surrogate_violated"
   ],
   "note": "Equality is of the model's tokens, which keep the order of claims. Floats satisfy LawfulFloats. Violation: C48_surrogate_violated."
  },
  {
   "property": "C49",
   "status": "proved",
   "theorems": [
    "Tink.Props.C49_accepts",
    "Tink.Props.C49_repeated_key_rejected",
    "Tink.Props.C49_total",
    "Tink.Props.C49_total_unlimited",
    "Tink.Props.C49_total_violated",
    "Tink.Props.C49_round_trip",
    "Tink.Props.C49_round_trip_valid",
    "Tink.Props.C49_dumps_error"
   ],
   "note": "Exact characterisation of what json_loads accepts (C49_accepts), against the parse tree of the text with all pairs kept. C49_total: only JwtInvalidError is raised, or ValueError if the text has more digits in a row than the interpreter converts. Violation: C49_total_violated, with any limit a longer integer raises ValueError. The JSON scanner and printer of CPython are modelled concretely; of floats it is assumed that float(repr(x)) is x and that repr writes a JSON numeral with a fraction or exponent."
  },
  {
   "property": "C50",
   "status": "proved",
   "theorems": [
    "Tink.Props.C50_objects",
    "Tink.Props.C50_rejected",
    "Tink.Props.C50_nested_violated"
   ],
   "note": "C50_nested_violated: a string in an array of arrays, and a string at top level, may hold a lone surrogate."
  },
  {
   "property": "C51",
   "status": "proved",
   "theorems": [
    "Tink.Props.C51_exported",
    "Tink.Props.C51_exports",
    "Tink.Props.C51_round_trip",
    "Tink.Props.C51_imports",
    "Tink.Props.C51_import_succeeds",
    "Tink.Props.C51_no_enabled_key"
   ],
   "note": "The import succeeds if the keys together stay below 2 GiB and the generator draws as many different ids as there are keys. C51_no_enabled_key: a set without enabled keys is refused."
  },
  {
   "property": "C52",
   "status": "proved",
   "theorems": [
    "Tink.Props.C52_imported",
    "Tink.Props.C52_private_refused",
    "Tink.Props.C52_private_tink_error",
    "Tink.Props.C52_private_first",
    "Tink.Props.C52_ends",
    "Tink.Props.C52_type_error_escapes"
   ],
   "note": "C52_type_error_escapes: members of the wrong type raise other exceptions. C52_private_tink_error excludes keys of nearly 2 GiB, which raise EncodeError."
  },
  {
   "property": "C53",
   "status": "proved",
   "theorems": [
    "Tink.Props.C53_prefix",
    "Tink.Props.C53_read",
    "Tink.Props.C53_rewind",
    "Tink.Props.C53_content",
    "Tink.Props.C53_readall",
    "Tink.Props.C53_readall_exception_loses_bytes"
   ],
   "note": "Arbitrary sources, including None, BlockingIOError and exceptions. C53_readall covers every outcome of read(). Violation: C53_readall_exception_loses_bytes. Closing is not modelled."
  },
  {
   "property": "C54",
   "status": "proved",
   "theorems": [
    "Tink.Props.C54_single_key",
    "Tink.Props.C54_all_refuse",
    "Tink.Props.C54_read_zero",
    "Tink.Props.C54_plaintext",
    "Tink.Props.C54_keyset",
    "Tink.Props.C54_keyset_plaintext",
    "Tink.Props.C54_open_failure_hides_key",
    "Tink.Props.C54_io_error_hides_key"
   ],
   "note": "Raw decrypting streams are arbitrary step machines. C54_single_key, C54_all_refuse assume that every key's stream opens; C54_plaintext also that the source raises nothing. Violations without these: C54_open_failure_hides_key, C54_io_error_hides_key. Reading is at the level of the raw stream; the io.BufferedReader around it is not modelled."
  },
  {
   "property": "C55",
   "status": "proved",
   "theorems": [
    "Tink.Props.C55_prefix",
    "Tink.Props.C55_complete",
    "Tink.Props.C55_sticky",
    "Tink.Props.C55_lawful",
    "Tink.Props.C55_steady",
    "Tink.Props.C55_adapter_read",
    "Tink.Props.C55_content",
    "Tink.Props.C55_error_taken_for_end"
   ],
   "note": "The Python object is an arbitrary step machine with arbitrary short reads, None results and exceptions. C55_content, C55_complete: bytes in order, once each. C55_lawful, C55_adapter_read: the contract of the C++ InputStream interface and of InputStreamAdapter on top of it. Violation: C55_error_taken_for_end (an exception whose text contains EOFError ends the data silently). The buffer itself is a list of bytes; C++ memory and int overflow of the position are not modelled."
  },
  {
   "property": "C56",
   "status": "proved",
   "theorems": [
    "Tink.Props.C56_in_order",
    "Tink.Props.C56_open",
    "Tink.Props.C56_close",
    "Tink.Props.C56_close_failed",
    "Tink.Props.C56_sticky",
    "Tink.Props.C56_close_terminates",
    "Tink.Props.C56_close_hangs",
    "Tink.Props.C56_lawful",
    "Tink.Props.C56_adapter_write",
    "Tink.Props.C56_write_2GiB_undefined",
    "Tink.Props.C56_close_retried_duplicates",
    "Tink.Props.C56_raw_write",
    "Tink.Props.C56_raw_closed",
    "Tink.Props.C56_raw_close"
   ],
   "note": "The Python object is arbitrary but reports between 0 and the number of bytes it was given (Honest); otherwise the C++ code is undefined. What it accepted is what it reported. Theorems on order and position hold up to the first failing Close. Violations: C56_close_retried_duplicates, C56_close_hangs, C56_write_2GiB_undefined."
  },
  {
   "property": "C57",
   "status": "proved",
   "theorems": [
    "Tink.Props.C57_read",
    "Tink.Props.C57_readall",
    "Tink.Props.C57_read_terminates",
    "Tink.Props.C57_readall_terminates",
    "Tink.Props.C57_readinto",
    "Tink.Props.C57_read_zero_hangs",
    "Tink.Props.C57_closed"
   ],
   "note": "The C++ stream is any stream meeting the contract Lawful (C55_lawful proves it for the Python input stream). Termination uses the contract of InputStream::Next about empty buffers (Progress). Violation: C57_read_zero_hangs."
  },
  {
   "property": "C58",
   "status": "proved",
   "theorems": [
    "Tink.Props.C58_value",
    "Tink.Props.C58_no_leading_zero",
    "Tink.Props.C58_minimal",
    "Tink.Props.C58_unique",
    "Tink.Props.C58_injective",
    "Tink.Props.C58_negative"
   ],
   "note": ""
  },
  {
   "property": "C59",
   "status": "proved",
   "theorems": [
    "Tink.Props.C59_add_new_key",
    "Tink.Props.C59_add_new_key_failure",
    "Tink.Props.C59_set_primary_key",
    "Tink.Props.C59_enable_key",
    "Tink.Props.C59_disable_key",
    "Tink.Props.C59_delete_key",
    "Tink.Props.C59_failure_changes_nothing",
    "Tink.Props.C59_ids_distinct",
    "Tink.Props.C59_ids_distinct_from_empty",
    "Tink.Props.C59_keyset_handle",
    "Tink.Props.BuilderExample.C59_primary_can_be_lost",
    "Tink.Props.BuilderExample.C59_blank_key_left",
    "Tink.Props.C59_raw_template",
    "Tink.Props.C59_legacy_template"
   ],
   "note": "The two violations named in the statement are proved as C59_blank_key_left and C59_primary_can_be_lost."
  },
  {
   "property": "C60",
   "status": "proved",
   "theorems": [
    "Tink.Props.C60_kms_aead_template",
    "Tink.Props.C60_kms_envelope_template",
    "Tink.Props.C60_create_aes_eax",
    "Tink.Props.C60_create_aes_gcm",
    "Tink.Props.C60_create_aes_gcm_siv",
    "Tink.Props.C60_create_aes_ctr_hmac_aead",
    "Tink.Props.C60_create_mac_hmac",
    "Tink.Props.C60_create_mac_aes_cmac",
    "Tink.Props.C60_create_aes_siv",
    "Tink.Props.C60_create_prf_aes_cmac",
    "Tink.Props.C60_create_prf_hmac",
    "Tink.Props.C60_create_prf_hkdf",
    "Tink.Props.C60_create_streaming_aes_gcm_hkdf",
    "Tink.Props.C60_create_streaming_aes_ctr_hmac",
    "Tink.Props.C60_create_ecies",
    "Tink.Props.C60_create_hpke",
    "Tink.Props.C60_create_ecdsa",
    "Tink.Props.C60_create_rsa_ssa_pkcs1",
    "Tink.Props.C60_create_rsa_ssa_pss",
    "Tink.Props.C60_create_out_of_range",
    "Tink.Props.C60_aead",
    "Tink.Props.C60_mac",
    "Tink.Props.C60_deterministic",
    "Tink.Props.C60_prf",
    "Tink.Props.C60_streaming",
    "Tink.Props.C60_hybrid_ecies",
    "Tink.Props.C60_hybrid_hpke",
    "Tink.Props.C60_signature",
    "Tink.Props.C60_jwt"
   ],
   "note": "The predefined templates are a finite table checked by kernel evaluation against values derived from the names; creators are proved for all arguments."
  },
  {
   "property": "C61",
   "status": "proved",
   "theorems": [
    "Tink.Props.C61_kms_aead",
    "Tink.Props.C61_kms_envelope",
    "Tink.Props.C61_unsupported_dek",
    "Tink.Props.C61_malformed_key_data"
   ],
   "note": "The violation is C61_malformed_key_data."
  },
  {
   "property": "C62",
   "status": "proved",
   "theorems": [
    "Tink.Props.C62_reader_writer",
    "Tink.Props.C62_reader_writer_encrypted",
    "Tink.Props.C62_write_succeeds",
    "Tink.Props.C62_write_encrypted_succeeds",
    "Tink.Props.C62_injective",
    "Tink.Props.C62_handle_round_trip",
    "Tink.Props.C62_serialize_succeeds"
   ],
   "note": "MessageToJson and Parse of protobuf are modelled from knowledge of json_format, whose source is not at hand, over the concrete model of json. Of floats only the laws of C49 are assumed. Writing succeeds if integers of ten digits may be written and four more levels of recursion are possible (Roomy)."
  },
  {
   "property": "C63",
   "status": "proved",
   "theorems": [
    "Tink.Props.C63_read_total",
    "Tink.Props.C63_read_encrypted_total",
    "Tink.Props.C63_no_repeated_keys",
    "Tink.Props.C63_not_json",
    "Tink.Props.C63_parse_total",
    "Tink.Props.KeysetJsonExample.C63_other_exceptions_escape",
    "Tink.Props.KeysetJsonExample.C63_two_spellings",
    "Tink.Props.KeysetJsonExample.C63_enabled_spellings"
   ],
   "note": "JsonFormatEnv.wraps says whether Parse converts all exceptions to ParseError. Where it does, only TinkError is raised; where it does not, C63_other_exceptions_escape gives witnesses. C63_two_spellings, C63_enabled_spellings show what is accepted."
  },
  {
   "property": "C64",
   "status": "proved",
   "theorems": [
    "Tink.Props.C64_never_fails",
    "Tink.Props.C64_registered",
    "Tink.Props.C64_nothing_else",
    "Tink.Props.C64_templates",
    "Tink.Props.C64_new_keyset"
   ],
   "note": "LawfulConfig is what is assumed of C++ and of the Python classes: the bindings register successfully and C++ then has a key manager for each key type. JWT registration is C43_registered."
  },
  {
   "property": "C65",
   "status": "proved",
   "theorems": [
    "Tink.Props.C65_serves",
    "Tink.Props.C65_serves_private",
    "Tink.Props.C65_other_template",
    "Tink.Props.C65_oversize",
    "Tink.Props.C65_oversize_result_lost",
    "Tink.Props.C65_errors",
    "Tink.Props.C65_primitives",
    "Tink.Props.C65_unknown_type",
    "Tink.Props.C65_unknown_type_exception"
   ],
   "note": "C65_unknown_type: register() raises if C++ lacks a key type; C65_unknown_type_exception shows that the exception is PythonTinkException, not TinkError. Parsing of serialized messages in C++ is the wire model of C29. C65_oversize_result_lost: key data of 2 GiB or more made by C++ come back empty."
  },
  {
   "property": "C66",
   "status": "proved",
   "theorems": [
    "Tink.Props.C66_aead",
    "Tink.Props.C66_daead",
    "Tink.Props.C66_mac",
    "Tink.Props.C66_prf",
    "Tink.Props.C66_signature",
    "Tink.Props.C66_hybrid",
    "Tink.Props.C66_streaming_aead"
   ],
   "note": "Correctness of the C++ primitive of the single key is the hypothesis \"correct\"; for streaming AEAD (C66_streaming_aead) it is proved from LawfulLibrary."
  },
  {
   "property": "C67",
   "status": "proved",
   "theorems": [
    "Tink.Props.C67_decrypts_to",
    "Tink.Props.C67_refuses",
    "Tink.Props.C67_written",
    "Tink.Props.C67_round_trip",
    "Tink.Props.C67_keyset_round_trip",
    "Tink.Props.C67_aes_gcm_hkdf",
    "Tink.Props.C67_aes_ctr_hmac",
    "Tink.Props.C67_decrypting_stream",
    "Tink.Props.C67_encrypting_stream",
    "Tink.Props.C67_gcm_foreign",
    "Tink.Props.C67_ctr_foreign",
    "Tink.Props.C67_foreign"
   ],
   "note": "C67_aes_gcm_hkdf and C67_aes_ctr_hmac give SoundStreaming for the two kinds of keys, from LawfulLibrary; C67_round_trip and C67_keyset_round_trip take it from there. gcmLast and hmacLast in LawfulLibrary are idealisations: for the real functions they fail with negligible probability. C67_refuses says when a key refuses a ciphertext, as the keyset theorem needs. Concrete cases in Props/StreamingKeysExamples."
  },
  {
   "property": "C68",
   "status": "proved",
   "theorems": [
    "Tink.Props.C68_appended_bytes_accepted",
    "Tink.Props.C68_delivers_only",
    "Tink.Props.C68_delivers_one_of",
    "Tink.Props.C68_keyset",
    "Tink.Props.C68_aes_gcm_hkdf_segments",
    "Tink.Props.C68_aes_gcm_hkdf",
    "Tink.Props.C68_aes_ctr_hmac_segments",
    "Tink.Props.C68_aes_ctr_hmac",
    "Tink.Props.C68_appended_bytes_ignored",
    "Tink.Props.C68_authentic",
    "Tink.Props.C68_gcm_foreign",
    "Tink.Props.C68_ctr_foreign",
    "Tink.Props.C68_gcm_never_used",
    "Tink.Props.C68_ctr_never_used",
    "Tink.Props.StreamingKeysExamples.C68_appended_bytes_witness"
   ],
   "note": "GcmIdeal and CtrHmacIdeal describe decryption and verification restricted to what was encrypted, so that they do not also assume that decryption undoes encryption. C68_appended_bytes_accepted: bytes after a full last segment go unnoticed, witness C68_appended_bytes_witness."
  },
  {
   "property": "C69",
   "status": "proved",
   "theorems": [
    "Tink.Props.C69_nonces_distinct",
    "Tink.Props.C69_aes_gcm_hkdf",
    "Tink.Props.C69_aes_ctr_hmac"
   ],
   "note": "The format is Spec.StreamFormat. That different messages do not share a key and a nonce prefix is a matter of the random generator."
  },
  {
   "property": "C70",
   "status": "proved",
   "theorems": [
    "Tink.Props.C70_templates",
    "Tink.Props.StreamingEndToEndExamples.C70_gcm_large_segment_witness",
    "Tink.Props.C70_gcm_formats",
    "Tink.Props.C70_ctr_formats",
    "Tink.Props.C70_gcm_keys",
    "Tink.Props.C70_ctr_keys",
    "Tink.Props.C70_gcm_usable",
    "Tink.Props.C70_ctr_usable",
    "Tink.Props.C70_gcm_large_segment",
    "Tink.Props.C70_gcm_large_key",
    "Tink.Props.C70_ctr_large_key"
   ],
   "note": "C70_gcm_large_segment, C70_gcm_large_key, C70_ctr_large_key and the witness say where keys are made that cannot be used. A key within 1000 bytes of 2 GiB is not covered by C70_*_usable."
  },
  {
   "property": "C71",
   "status": "proved",
   "theorems": [
    "Tink.Props.C71_writer",
    "Tink.Props.C71_plain_reads",
    "Tink.Props.C71_reader",
    "Tink.Props.C71_authentic",
    "Tink.Props.C71_not_readable",
    "Tink.Props.C71_not_writable",
    "Tink.Props.C71_round_trip",
    "Tink.Props.C71_new_keyset"
   ],
   "note": "io.BufferedReader and io.BufferedWriter are modelled by relations written after the documentation of io. Pieces written to the raw stream have less than 2 GiB. Reads after one that raised: C73."
  },
  {
   "property": "C72",
   "status": "proved",
   "theorems": [
    "Tink.Props.C72_keys_close_quietly",
    "Tink.Props.C72_source_closed",
    "Tink.Props.C72_closed",
    "Tink.Props.C72_failed_close",
    "Tink.Props.C72_destination_closed",
    "Tink.Props.C72_destination_keyset",
    "Tink.Props.C72_destination_left_open"
   ],
   "note": "For decrypting streams of keys that close quietly, which C72_keys_close_quietly proves for the streams over the modelled C++. io.IOBase.__del__ of streams that were given up is the constructor collect of CloseHistory. That reading does not close the source holds by the type of the modelled code (Prog), which can only read. Violation: C72_destination_left_open."
  },
  {
   "property": "C73",
   "status": "proved",
   "theorems": [
    "Tink.Props.C73_keys",
    "Tink.Props.C73_keyset",
    "Tink.Props.C73_reader"
   ],
   "note": "For keys whose streams can be opened and do not recover from TinkError, which C73_keys proves for the streams over the modelled C++. If a buffered reader loses bytes when the raw stream raises, those it keeps are the first ones."
  },
  {
   "property": "C74",
   "status": "proved",
   "theorems": [
    "Tink.Props.C74_numbers",
    "Tink.Props.C74_binary_written",
    "Tink.Props.C74_binary_written_encrypted",
    "Tink.Props.C74_json_written",
    "Tink.Props.C74_json_written_encrypted",
    "Tink.Props.C74_binary_read",
    "Tink.Props.C74_binary_read_encrypted",
    "Tink.Props.C74_json_read",
    "Tink.Props.C74_json_read_encrypted"
   ],
   "note": "The table, varints, UTF-8 and base64 are stated in Spec/KeysetFormat independently of the model of protobuf. In JSON the integers that the texts may have are those that int() accepts (a parameter). json_format is modelled from knowledge, see C62."
  },
  {
   "property": "C75",
   "status": "proved",
   "theorems": [
    "Tink.Props.C75_create_aes_eax",
    "Tink.Props.C75_create_aes_gcm",
    "Tink.Props.C75_create_aes_gcm_siv",
    "Tink.Props.C75_create_aes_ctr_hmac_aead",
    "Tink.Props.C75_create_mac_hmac",
    "Tink.Props.C75_create_mac_aes_cmac",
    "Tink.Props.C75_create_aes_siv",
    "Tink.Props.C75_create_prf_aes_cmac",
    "Tink.Props.C75_create_prf_hmac",
    "Tink.Props.C75_create_prf_hkdf",
    "Tink.Props.C75_create_streaming_aes_gcm_hkdf",
    "Tink.Props.C75_create_streaming_aes_ctr_hmac",
    "Tink.Props.C75_create_ecies",
    "Tink.Props.C75_create_hpke",
    "Tink.Props.C75_create_ecdsa",
    "Tink.Props.C75_create_rsa_ssa_pkcs1",
    "Tink.Props.C75_create_rsa_ssa_pss",
    "Tink.Props.C75_create_jwt_hmac",
    "Tink.Props.C75_create_jwt_ecdsa",
    "Tink.Props.C75_create_jwt_rsa_ssa_pkcs1",
    "Tink.Props.C75_create_jwt_rsa_ssa_pss",
    "Tink.Props.C75_enums",
    "Tink.Props.C75_predefined_aead",
    "Tink.Props.C75_predefined_mac",
    "Tink.Props.C75_predefined_prf",
    "Tink.Props.C75_predefined_streaming",
    "Tink.Props.C75_predefined_hybrid",
    "Tink.Props.C75_predefined_signature",
    "Tink.Props.C75_predefined_jwt",
    "Tink.Props.C75_jwt_hmac",
    "Tink.Props.C75_jwt_ecdsa_public",
    "Tink.Props.C75_jwt_ecdsa_private",
    "Tink.Props.C75_jwt_rsa_ssa_pkcs1_public",
    "Tink.Props.C75_jwt_rsa_ssa_pkcs1_private",
    "Tink.Props.C75_jwt_rsa_ssa_pss_public",
    "Tink.Props.C75_jwt_rsa_ssa_pss_private",
    "Tink.Props.C75_kms_aead_key",
    "Tink.Props.C75_kms_envelope_aead_key",
    "Tink.Props.C75_streaming_aes_gcm_hkdf_key",
    "Tink.Props.C75_streaming_aes_ctr_hmac_key",
    "Tink.Props.C75_create_kms_aead",
    "Tink.Props.C75_create_kms_envelope_aead"
   ],
   "note": "The field numbers are stated in Spec/KeyFormats, apart from the generated model of the messages. Templates are covered for every parameter for which they are created; RSA exponents as big-endian bytes without leading zero."
  },
  {
   "property": "C76",
   "status": "proved",
   "theorems": [
    "Tink.Props.C76_from_json",
    "Tink.Props.C76_mac",
    "Tink.Props.C76_signature",
    "Tink.Props.C76_created",
    "Tink.Props.C76_mac_round_trip",
    "Tink.Props.C76_signature_round_trip",
    "Tink.Props.C76_validator",
    "Tink.Props.C76_issued_at_violated",
    "Tink.Props.C76_type_header_violated"
   ],
   "note": "Two parts of what the annotations of VerifiedJwt promise are false; witnesses C76_issued_at_violated and C76_type_header_violated, and TellsContent says when they hold. The set of names is a list in the model; copies are the same value."
  },
  {
   "property": "C77",
   "status": "proved",
   "theorems": [
    "Tink.Props.C77_tokens",
    "Tink.Props.C77_arguments",
    "Tink.Props.C77_create",
    "Tink.Props.C77_from_json",
    "Tink.Props.C77_methods",
    "Tink.Props.C77_header_violated"
   ],
   "note": "Violation: C77_header_violated; C77_tokens is for programs without such type headers (PlainHeader). The dict of custom claims is given by its items at the time of the call. That deepcopy keeps sharing inside the copied value is left out, as tokens have none."
  },
  {
   "property": "C78",
   "status": "proved",
   "theorems": [
    "Tink.Props.C78_handles",
    "Tink.Props.C78_functions",
    "Tink.Props.C78_from_keyset_violated",
    "Tink.Props.C78_to_proto_violated"
   ],
   "note": "Violations: C78_from_keyset_violated, C78_to_proto_violated. A message has no inner structure in the model; a program that keeps a part of it counts as keeping the message (Spec.HandsOut)."
  },
  {
   "property": "C79",
   "status": "proved",
   "theorems": [
    "Tink.Props.C79_key",
    "Tink.Props.C79_reader",
    "Tink.Props.C79_reading_ends",
    "Tink.Props.C79_like_file",
    "Tink.Props.C79_read_all",
    "Tink.Props.C79_new_keyset"
   ],
   "note": "A raw read(0) is left out: it may hang (C57_read_zero_hangs), and the buffered reader does not make it. Fuel in the model bounds the turns of loops; the theorems say that enough of it exists, and Returns that more does not change the result."
  },
  {
   "property": "C80",
   "status": "proved",
   "theorems": [
    "Tink.Props.C80_writer",
    "Tink.Props.C80_succeeds",
    "Tink.Props.C80_gcm_limit",
    "Tink.Props.C80_ctr_limit",
    "Tink.Props.C80_templates",
    "Tink.Props.C80_stuck_destination",
    "Tink.Props.C80_round_trip",
    "Tink.Props.C80_new_keyset"
   ],
   "note": "WorkingLibrary says that the C++ cryptography does not fail when it is used properly; C80_stuck_destination shows that the hypothesis on the destination is needed. The limit of the templates, 2^43 bytes, is below the exact one (C80_gcm_limit, C80_ctr_limit)."
  },
  {
   "property": "C81",
   "status": "proved",
   "theorems": [
    "Tink.Props.C81_read",
    "Tink.Props.C81_not_json",
    "Tink.Props.C81_unambiguous",
    "Tink.Props.C81_written",
    "Tink.Props.C81_plain_read",
    "Tink.Props.C81_jwk_set",
    "Tink.Props.C81_keyset_written",
    "Tink.Props.C81_keyset_written_encrypted",
    "Tink.Props.C81_keyset_read",
    "Tink.Props.C81_keyset_read_encrypted",
    "Tink.Props.C81_keyset_only"
   ],
   "note": "The grammar is Spec/JsonGrammar. What number a numeral with a fraction or an exponent stands for is left to float (assumed lawful only for what is written). Values whose strings contain a high surrogate directly followed by a low one are left out of C81_written (AllTextJoined). json.dumps of floats needs repr to be a numeral (LawfulFloats)."
  },
  {
   "property": "C82",
   "status": "proved",
   "theorems": [
    "Tink.Props.C82_part",
    "Tink.Props.C82_form_read",
    "Tink.Props.C82_form_unique",
    "Tink.Props.C82_kid",
    "Tink.Props.C82_mac_form",
    "Tink.Props.C82_mac_accepted",
    "Tink.Props.C82_mac_accepts",
    "Tink.Props.C82_signature_form",
    "Tink.Props.C82_signature_accepted",
    "Tink.Props.C82_signature_accepts",
    "Tink.Props.C82_mac_iff",
    "Tink.Props.C82_signature_iff_keys",
    "Tink.Props.C82_signature_iff"
   ],
   "note": "The form is Spec/TokenText. That the upper case of ASCII letters is as expected is assumed (LawfulUpper); RightToken uses it as the code does, so that alg is compared in upper case (C43_alg_case_violated). C82_mac_iff and C82_signature_iff are the equivalence if C++ checks raise only TinkErrors (TinkErrorsOnly); C82_mac_accepted and C82_mac_accepts together are it otherwise; what the validator agrees to is C45 and C46."
  },
  {
   "property": "C83",
   "status": "proved",
   "theorems": [
    "Tink.Props.C83_before_close",
    "Tink.Props.C83_close",
    "Tink.Props.C83_with_exception",
    "Tink.Props.C83_aes_gcm_hkdf",
    "Tink.Props.C83_aes_ctr_hmac",
    "Tink.Props.C83_aes_gcm_hkdf_close",
    "Tink.Props.C83_aes_ctr_hmac_close",
    "Tink.Props.C83_any_source_aes_gcm_hkdf",
    "Tink.Props.C83_any_source_aes_ctr_hmac",
    "Tink.Props.C83_keyset",
    "Tink.Props.InterruptedExamples.C83_with_exception_witness"
   ],
   "note": "Ideal cryptography while a message is unfinished (GcmIdealSoFar, CtrHmacIdealSoFar): whatever its last segment will be, nothing is accepted but what belongs to it or to other messages. Crash points: the record of the destination only grows, and a call that never returns is one whose destination raises at that moment instead. WithBlock is what io.IOBase does on leaving a with block."
  },
  {
   "property": "C84",
   "status": "proved",
   "theorems": [
    "Tink.Props.C84_aead",
    "Tink.Props.C84_daead",
    "Tink.Props.C84_cleartext",
    "Tink.Props.C84_cleartext_no_path",
    "Tink.Props.C84_mac_compute",
    "Tink.Props.C84_signature_sign",
    "Tink.Props.C84_mac_verify",
    "Tink.Props.C84_signature_verify",
    "Tink.Props.C84_hybrid_encrypt",
    "Tink.Props.C84_hybrid_decrypt",
    "Tink.Props.C84_generate",
    "Tink.Props.C84_keyset_file",
    "Tink.Props.C84_envelope",
    "Tink.Props.C84_gcs_encrypt",
    "Tink.Props.C84_gcs_decrypt",
    "Tink.Props.C84_hybrid_empties",
    "Tink.Props.C84_gcs_empties",
    "Tink.Props.C84_aead_round_trip",
    "Tink.Props.C84_daead_round_trip",
    "Tink.Props.C84_hybrid_round_trip",
    "Tink.Props.C84_mac_round_trip",
    "Tink.Props.C84_signature_round_trip",
    "Tink.Props.C84_generate_encrypt_decrypt",
    "Tink.Props.C84_envelope_round_trip",
    "Tink.Props.C84_gcs_round_trip"
   ],
   "note": "Vocabulary in Spec/Cli. Assumed: text files are UTF-8 and line ends are written as line feeds (a Linux system); a run draws a key id within the draws it is given. Round trips assume of the C++ library what C66 assumes. C84_hybrid_empties and C84_gcs_empties witness the violation. Not modelled: the parsing of flags, log messages, encrypted_keyset_cli (see DESIGN)."
  },
  {
   "property": "C85",
   "status": "proved",
   "theorems": [
    "Tink.Props.C85_imported_iff",
    "Tink.Props.C85_accepted_too",
    "Tink.Props.C85_accepted_before",
    "Tink.Props.C85_imported_works",
    "Tink.Props.C85_kid_not_demanded",
    "Tink.Props.C85_two_kids"
   ],
   "note": "C85_imported_iff is the exact characterization; C85_accepted_too and C85_accepted_before the two directions; C85_imported_works that the object exists. Assumed of C++: SameVerifiers, TakesKeys, TinkErrorsOnly (Spec/JwkSet, Spec/JwtKeys). C85_kid_not_demanded and C85_two_kids witness the violations."
  },
  {
   "property": "C86",
   "status": "proved",
   "theorems": [
    "Tink.Props.C86_sign",
    "Tink.Props.C86_generate",
    "Tink.Props.C86_verify",
    "Tink.Props.C86_token_file",
    "Tink.Props.C86_verify_exact",
    "Tink.Props.C86_accepts",
    "Tink.Props.C86_chain",
    "Tink.Props.C86_verified"
   ],
   "note": "Vocabulary in Spec/CliJwt and Spec/Cli; assumed as in C84 of files, and as in C85 of the C++ library. C86_chain also needs keys of a size that can be serialized and enough different draws of key ids. PublicKeyOf says that a public key belongs to a private one."
  },
  {
   "property": "C87",
   "status": "proved",
   "theorems": [
    "Tink.Props.C87_ends",
    "Tink.Props.C87_encrypt",
    "Tink.Props.C87_encrypts",
    "Tink.Props.C87_input_fails",
    "Tink.Props.C87_same_file",
    "Tink.Props.C87_decrypt",
    "Tink.Props.C87_decrypts",
    "Tink.Props.C87_round_trip",
    "Tink.Props.C87_new_keyset",
    "Tink.Props.C87_round_trip_foreign"
   ],
   "note": "Vocabulary in Spec/CliStreaming, Spec/Cli and Spec/Stream. Assumed: as in C84 of files; the input file is a regular file; a write to the output file takes all bytes or raises; keys are smaller than 2 GiB. C87_decrypt takes ideal cryptography as its hypothesis (which C68 derives from ideal AES-GCM and HMAC); the others assume that the cryptographic functions of C67 undo each other, and do not fail where success is claimed. Which exception of several is raised, and what is left if closing the output fails, is left open."
  },
  {
   "property": "C88",
   "status": "proved",
   "theorems": [
    "Tink.Props.C88_get_kms_aead",
    "Tink.Props.C88_write_encrypted",
    "Tink.Props.C88_write_succeeds",
    "Tink.Props.C88_kms_unavailable",
    "Tink.Props.C88_load_encrypted",
    "Tink.Props.C88_load_refused",
    "Tink.Props.C88_round_trip",
    "Tink.Props.C88_cleartext_round_trip",
    "Tink.Props.C88_envelope_ciphertext",
    "Tink.Props.C88_envelope_round_trip",
    "Tink.Props.C88_walkthrough",
    "Tink.Props.C88_fake_kms",
    "Tink.Props.C88_fake_kms_refuses",
    "Tink.Props.C88_fake_kms_bound",
    "Tink.Props.WalkthroughExample.C88_not_only_tink_errors"
   ],
   "note": "Vocabulary in Spec/Walkthrough. KMS clients are arbitrary functions that may raise anything (and have no state); LawfulConfig as in C64, with the KMS key types served by the package's own Python key managers. Round trips assume that the second process's KMS, and for the data its C++ library, decrypt what the first one's encrypt, and that no ciphertext is empty."
  },
  {
   "property": "C89",
   "status": "proved",
   "theorems": [
    "Tink.Props.C89_aead_types",
    "Tink.Props.C89_aead_keys",
    "Tink.Props.C89_aead_formats",
    "Tink.Props.C89_aead_new",
    "Tink.Props.C89_daead_types",
    "Tink.Props.C89_daead_keys",
    "Tink.Props.C89_daead_formats",
    "Tink.Props.C89_daead_new",
    "Tink.Props.C89_mac_types",
    "Tink.Props.C89_mac_keys",
    "Tink.Props.C89_mac_formats",
    "Tink.Props.C89_mac_new",
    "Tink.Props.C89_prf_types",
    "Tink.Props.C89_prf_keys",
    "Tink.Props.C89_prf_formats",
    "Tink.Props.C89_prf_new",
    "Tink.Props.C89_hmac_large_key",
    "Tink.Props.C89_hmac_prf_large_key"
   ],
   "note": "LawfulSsl says what is assumed of BoringSSL (lengths, open undoes seal and opens nothing else, CMAC is CMAC of its AES); Examples/ToySsl meets it. C89_hmac_large_key and C89_hmac_prf_large_key are the violation. Keys within 1000 bytes of 2 GiB, and HKDF keys whose salt is that long, are not covered by C89_*_new."
  },
  {
   "property": "C90",
   "status": "proved",
   "theorems": [
    "Tink.Props.C90_aead",
    "Tink.Props.C90_daead",
    "Tink.Props.C90_mac",
    "Tink.Props.C90_prf"
   ],
   "note": "LawfulSsl says what is assumed of BoringSSL (lengths, open undoes seal and opens nothing else, CMAC is CMAC of its AES); Examples/ToySsl meets it. Specifications ExactAead, ExactDaead, ExactMac (Spec/SymmetricKeys), ExactPrf (Spec/Hkdf)."
  },
  {
   "property": "C91",
   "status": "proved",
   "theorems": [
    "Tink.Props.C91_aead",
    "Tink.Props.C91_daead"
   ],
   "note": "LawfulSsl says what is assumed of BoringSSL (lengths, open undoes seal and opens nothing else, CMAC is CMAC of its AES); Examples/ToySsl meets it. AES-EAX, CMAC, counter mode and S2V are written down from the publications in Spec/BlockModes; AES-GCM, AES-GCM-SIV and XChaCha20-Poly1305 are BoringSSL's. In AES-EAX, Omac counts in an int, which the model takes not to overflow (data below 2 GiB)."
  },
  {
   "property": "C92",
   "status": "proved",
   "theorems": [
    "Tink.Props.C92_aes_ctr_hmac"
   ],
   "note": "LawfulSsl says what is assumed of BoringSSL (lengths, open undoes seal and opens nothing else, CMAC is CMAC of its AES); Examples/ToySsl meets it. That tags are hard to forge is not part of the statement."
  },
  {
   "property": "C93",
   "status": "proved",
   "theorems": [
    "Tink.Props.C93_hkdf_length",
    "Tink.Props.C93_hkdf_too_long"
   ],
   "note": "LawfulSsl says what is assumed of BoringSSL (lengths, open undoes seal and opens nothing else, CMAC is CMAC of its AES); Examples/ToySsl meets it. C93_hkdf_length says what happens for each length, C93_hkdf_too_long refutes the first sentence; C90_prf proves it below 2 GiB."
  },
  {
   "property": "C94",
   "status": "proved",
   "theorems": [
    "Tink.Props.C94_aead_primitive",
    "Tink.Props.C94_aead_encrypt",
    "Tink.Props.C94_aead_decrypt",
    "Tink.Props.C94_daead_primitive",
    "Tink.Props.C94_daead_encrypt",
    "Tink.Props.C94_daead_decrypt",
    "Tink.Props.C94_mac_primitive",
    "Tink.Props.C94_mac_compute",
    "Tink.Props.C94_mac_verify",
    "Tink.Props.C94_prf_primitive",
    "Tink.Props.C94_prf_set",
    "Tink.Props.C94_aead_template",
    "Tink.Props.C94_daead_template",
    "Tink.Props.C94_mac_template",
    "Tink.Props.C94_prf_template"
   ],
   "note": "LawfulSsl says what is assumed of BoringSSL (lengths, open undoes seal and opens nothing else, CMAC is CMAC of its AES); Examples/ToySsl meets it. hcc: the C++ registry that Python sees has the key managers of the model; LawfulConfig and PackageRegistered as in C64. KeysOf: enabled keys have the given types and can be serialized (below 2 GiB). Concrete keysets with several keys in Props/SymmetricTemplates."
  },
  {
   "property": "C95",
   "status": "proved",
   "theorems": [
    "Tink.Props.C95_registered",
    "Tink.Props.C95_primitive",
    "Tink.Props.C95_form",
    "Tink.Props.C95_accepted_iff",
    "Tink.Props.C95_round_trip",
    "Tink.Props.C95_formats",
    "Tink.Props.C95_templates"
   ],
   "note": "LawfulSsl is assumed of BoringSSL's HMAC, LawfulFloats and LawfulUpper of Python's float and str.upper; that tags are hard to forge is not part of the statement. RightToken, PartForm and HeaderFor are those of C82."
  },
  {
   "property": "C96",
   "status": "proved",
   "theorems": [
    "Tink.Props.C96_sign_types",
    "Tink.Props.C96_verify_types",
    "Tink.Props.C96_sign_keys",
    "Tink.Props.C96_verify_keys",
    "Tink.Props.C96_formats",
    "Tink.Props.C96_new",
    "Tink.Props.C96_verify_new",
    "Tink.Props.C96_public",
    "Tink.Props.C96_public_part",
    "Tink.Props.C96_public_usable",
    "Tink.Props.C96_pss_unusable"
   ],
   "note": "LawfulSigSsl says what is assumed of BoringSSL; Examples/ToySigSsl meets it. C96_pss_unusable is the violation. Public parts of stored keys within 1000 bytes of 2 GiB are not covered by C96_public_part and C96_public_usable."
  },
  {
   "property": "C97",
   "status": "proved",
   "theorems": [
    "Tink.Props.C97_unique",
    "Tink.Props.C97_sign",
    "Tink.Props.C97_verify",
    "Tink.Props.C97_round_trip",
    "Tink.Props.C97_new",
    "Tink.Props.C97_total",
    "Tink.Props.C97_lengths",
    "Tink.Props.C97_pss_refuses",
    "Tink.Props.C97_parts_mixed"
   ],
   "note": "LawfulSigSsl says what is assumed of BoringSSL (e.g. that a signature made with a key is accepted with its public key, and that DER is read without alternatives); Examples/ToySigSsl meets it. That signatures are hard to forge is not part of the statement. C97_parts_mixed and C97_pss_refuses are the violations. Stored (not new) RSA keys that pass the checks may fail to sign: nothing is proved about when they do."
  },
  {
   "property": "C98",
   "status": "proved",
   "theorems": [
    "Tink.Props.C98_sign_primitive",
    "Tink.Props.C98_sign",
    "Tink.Props.C98_verify_primitive",
    "Tink.Props.C98_verify",
    "Tink.Props.C98_public",
    "Tink.Props.C98_public_keys",
    "Tink.Props.C98_round_trip",
    "Tink.Props.C98_template"
   ],
   "note": "LawfulSigSsl says what is assumed of BoringSSL; Examples/ToySignatureConfig meets it together with LawfulConfig. The library is any one whose C++ key managers for the signature key types are those of Cc/SigKeyManagers. What happens if BoringSSL fails to make an RSA key is not stated."
  },
  {
   "property": "C99",
   "status": "proved",
   "theorems": [
    "Tink.Props.C99_registered",
    "Tink.Props.C99_sign_primitive",
    "Tink.Props.C99_verify_primitive",
    "Tink.Props.C99_form",
    "Tink.Props.C99_accepted_iff",
    "Tink.Props.C99_round_trip",
    "Tink.Props.C99_public",
    "Tink.Props.C99_public_keys",
    "Tink.Props.C99_public_round_trip",
    "Tink.Props.C99_formats",
    "Tink.Props.C99_no_public_keys",
    "Tink.Props.C99_templates"
   ],
   "note": "LawfulSigSsl says what is assumed of BoringSSL; the toy library of the examples meets it. The library is any one whose C++ key managers for the JWT signature key types are those of Cc/JwtSignatures. What happens if BoringSSL fails to make an RSA key for a predefined template follows from C99_formats (TinkError). That kid and algorithm of the header are right is part of RightToken (C82)."
  },
  {
   "property": "C100",
   "status": "proved",
   "theorems": [
    "Tink.Props.C100_decrypt_types",
    "Tink.Props.C100_encrypt_types",
    "Tink.Props.C100_decrypt_keys",
    "Tink.Props.C100_encrypt_keys",
    "Tink.Props.C100_formats",
    "Tink.Props.C100_new",
    "Tink.Props.C100_encrypt_new",
    "Tink.Props.C100_public",
    "Tink.Props.C100_public_part",
    "Tink.Props.C100_public_usable",
    "Tink.Props.C100_unusable"
   ],
   "note": "LawfulHyb says what is assumed of BoringSSL; Examples/ToyHybSsl meets it. C100_unusable is the violation. What new and public key data hold is not proved for keys within 1000 bytes of 2 GiB."
  },
  {
   "property": "C101",
   "status": "proved",
   "theorems": [
    "Tink.Props.C101_unique",
    "Tink.Props.C101_encrypt",
    "Tink.Props.C101_decrypt",
    "Tink.Props.C101_round_trip",
    "Tink.Props.C101_new",
    "Tink.Props.C101_total",
    "Tink.Props.C101_unusable",
    "Tink.Props.C101_lengths",
    "Tink.Props.C101_refuses",
    "Tink.Props.C101_encrypt_ends",
    "Tink.Props.C101_decrypt_ends",
    "Tink.Props.C101_overflow",
    "Tink.Props.C101_abort",
    "Tink.Props.C101_parts_mixed"
   ],
   "note": "LawfulHyb says what is assumed of BoringSSL (Diffie-Hellman, decoding of compressed points, HKDF, HPKE as a whole); Examples/ToyHybSsl meets it. Secrecy is not part of the statement. HPKE itself is not modelled below the EVP_HPKE functions. C101_refuses, C101_parts_mixed, C101_overflow and C101_abort are the violations. In C101_encrypt and C101_decrypt, other ends than a result (a status, an exception, the end of the process) are not distinguished; C101_encrypt_ends and C101_decrypt_ends are about these."
  },
  {
   "property": "C102",
   "status": "proved",
   "theorems": [
    "Tink.Props.C102_encrypt_primitive",
    "Tink.Props.C102_encrypt",
    "Tink.Props.C102_encrypt_no_primary",
    "Tink.Props.C102_decrypt_primitive",
    "Tink.Props.C102_decrypt",
    "Tink.Props.C102_public",
    "Tink.Props.C102_public_keys",
    "Tink.Props.C102_round_trip",
    "Tink.Props.C102_template"
   ],
   "note": "LawfulHyb says what is assumed of BoringSSL; Examples/ToyHybridConfig meets it together with LawfulConfig. The library is any one whose C++ key managers for the hybrid key types are those of Cc/HybridKeyManagers. The model turns std::out_of_range and the end of the process (C101_overflow, C101_abort) into an error status; the hypotheses HybPub.Ends (C102_encrypt) and NoOverflowIn (C102_decrypt, C102_round_trip) exclude these cases from what is claimed, although the proofs do not need them. That other keys do not take a ciphertext for their own (hypothesis of C102_round_trip) would be a cryptographic assumption."
  },
  {
   "property": "C103",
   "status": "proved",
   "theorems": [
    "Tink.Props.C103_aead",
    "Tink.Props.C103_daead",
    "Tink.Props.C103_mac",
    "Tink.Props.C103_signature",
    "Tink.Props.C103_hybrid"
   ],
   "note": "KnowsP256, KnowsX25519 (the library's public keys are those computed by Spec/Curves from FIPS 186-4 and RFC 7748) and RoomForKeysets (limits of the JSON parser) are hypotheses; Examples/ToyCurves meets them together with LawfulSigSsl, LawfulHyb and LawfulConfig. That the keys in the programs belong together is computed by the kernel (basicSign_point, basicHybrid_public)."
  },
  {
   "property": "C104",
   "status": "proved",
   "theorems": [
    "Tink.Props.C104_create",
    "Tink.Props.C104_encrypt",
    "Tink.Props.C104_decrypt",
    "Tink.Props.C104_decrypt_error",
    "Tink.Props.C104_round_trip",
    "Tink.Props.C104_templates",
    "Tink.Props.C104_template_ignored"
   ],
   "note": "The library is any one whose C++ key managers for AEAD keys are those of Cc/KeyManagers (hcc), and the registries any in which the AEAD package is registered. hsize, hs: sizes below which protocol buffers can be serialized. Examples: a toy server with AES128_GCM; the hypotheses hold for every predefined template (C104_templates)."
  },
  {
   "property": "C105",
   "status": "proved",
   "theorems": [
    "Tink.Props.C105_mac",
    "Tink.Props.C105_mac_names",
    "Tink.Props.C105_signature",
    "Tink.Props.C105_default_names_differ",
    "Tink.Props.C105_decrypt",
    "Tink.Props.C105_round_trip",
    "Tink.Props.C105_wrong_text",
    "Tink.Props.C105_decrypt_error",
    "Tink.Props.C105_encryption",
    "Tink.Props.C105_search_ended",
    "Tink.Props.C105_prf",
    "Tink.Props.C105_prf_negative",
    "Tink.Props.C105_prf_set",
    "Tink.Props.C105_fake_key",
    "Tink.Props.C105_testdata"
   ],
   "note": "The three kinds of fake encryption have the same code, which is modelled once (C105_encryption), as have MACs and signatures (C105_signature). Arguments of fake_key are of the right types and in range. os.path.exists is a parameter."
  },
  {
   "property": "C106",
   "status": "proved",
   "theorems": [
    "Tink.Props.C106_aws_accepted",
    "Tink.Props.C106_aws_errors",
    "Tink.Props.C106_aws_get_aead",
    "Tink.Props.C106_gcp_accepted",
    "Tink.Props.C106_gcp_errors",
    "Tink.Props.C106_gcp_get_aead",
    "Tink.Props.C106_register",
    "Tink.Props.C106_aws_first",
    "Tink.Props.C106_aws_none",
    "Tink.Props.C106_gcp_first",
    "Tink.Props.C106_gcp_none"
   ],
   "note": "The config parser after reading a file, boto3 and the Google libraries are parameters; making a boto3 client is assumed to raise no exception."
  },
  {
   "property": "C107",
   "status": "proved",
   "theorems": [
    "Tink.Props.C107_value",
    "Tink.Props.C107_destination",
    "Tink.Props.C107_slow_faithful",
    "Tink.Props.C107_slow_reads",
    "Tink.Props.C107_slow_limit",
    "Tink.Props.C107_raw_reads",
    "Tink.Props.C107_raw_too_many"
   ],
   "note": "seek and seekable are not modelled; io.BytesIO and io.RawIOBase.read of the standard library are modelled as documented."
  },
  {
   "property": "C108",
   "status": "proved",
   "theorems": [
    "Tink.Props.C108_same_serialize",
    "Tink.Props.C108_same_parse",
    "Tink.Props.C108_generate",
    "Tink.Props.C108_generate_loses",
    "Tink.Props.C108_str_refused",
    "Tink.Props.C108_only_encrypted",
    "Tink.Props.C108_use",
    "Tink.Props.C108_no_path",
    "Tink.Props.C108_generated",
    "Tink.Props.C108_generate_encrypt_decrypt"
   ],
   "note": "C108_generate and C108_use determine status and files of every run; C108_generate_loses and C108_str_refused prove the violations (with witnesses in Props/CliEncryptedKeysetExamples); C108_only_encrypted is the statement about the key; C108_generated and C108_generate_encrypt_decrypt are the round trip; C108_same_serialize and C108_same_parse relate the functions with a server state to those of C24 and C25. Log messages are not modelled."
  },
  {
   "property": "C109",
   "status": "proved",
   "theorems": [
    "Tink.Props.C109_origin",
    "Tink.Props.C109_stays",
    "Tink.Props.C109_gone",
    "Tink.Props.C109_public_keyset",
    "Tink.Props.C109_jwt_mac",
    "Tink.Props.C109_jwt_mac_names",
    "Tink.Props.C109_jwt_mac_revoked",
    "Tink.Props.C109_jwt_signature",
    "Tink.Props.C109_jwt_signature_names",
    "Tink.Props.C109_jwt_signature_revoked",
    "Tink.Props.C109_jwt_mac_works",
    "Tink.Props.C109_jwt_signature_works",
    "Tink.Props.C109_aead",
    "Tink.Props.C109_daead",
    "Tink.Props.C109_mac",
    "Tink.Props.C109_prf",
    "Tink.Props.C109_signature",
    "Tink.Props.C109_hybrid",
    "Tink.Props.C109_aead_revoked",
    "Tink.Props.C109_daead_revoked",
    "Tink.Props.C109_mac_revoked",
    "Tink.Props.C109_prf_revoked",
    "Tink.Props.C109_signature_revoked",
    "Tink.Props.C109_hybrid_revoked",
    "Tink.Props.C109_streaming",
    "Tink.Props.C109_streaming_sizes",
    "Tink.Props.C109_streaming_revoked",
    "Tink.Props.C109_streaming_works",
    "Tink.Props.C109_aead_works",
    "Tink.Props.C109_daead_works",
    "Tink.Props.C109_mac_works",
    "Tink.Props.C109_prf_works",
    "Tink.Props.C109_signature_works",
    "Tink.Props.C109_hybrid_works",
    "Tink.Props.C109_streaming_foreign"
   ],
   "note": "C12 has this for primitives given by their laws; here the primitives are those of the modelled key managers (C89-C102), so that nothing is assumed of single keys. C109_origin, C109_stays and C109_gone are about the keys; C109_<kind> is acceptance after rotation, C109_<kind>_revoked refusal after revocation (with C109_jwt_mac_names and C109_jwt_signature_names: tokens of TINK keys name the kid), C109_<kind>_works that the new keyset can be used. The conclusion of the _works theorems contains their hypothesis again, so they apply to any number of rotations one after the other. They ask that every key, also a disabled one, can be used; for AEAD, deterministic AEAD, streaming AEAD, MAC, PRF and JWT MAC, keys that are not enabled and that no call enables are excepted, for instance destroyed keys without key data. For signatures, hybrid encryption and JWT signatures they are not, as the public keyset is made of all keys. For key id 0, which the builder gives to the blank key of a failed add_new_key, nothing is said. For streaming AEAD, whose keys have no prefix, C109_streaming asks that the other enabled keys refuse the ciphertext or decrypt it to the same, C109_streaming_sizes replaces this by a condition on sizes of keys, and C109_streaming_revoked says that a stream delivers only what the remaining keys deliver; that these refuse a foreign ciphertext is cryptography (C68)."
  },
  {
   "property": "C110",
   "status": "proved",
   "theorems": [
    "Tink.Props.C110_archive",
    "Tink.Props.C110_archive_known",
    "Tink.Props.C110_patched",
    "Tink.Props.C110_patched_again",
    "Tink.Props.C110_first_decides",
    "Tink.Props.C110_lost",
    "Tink.Props.C110_lost_unnoticed",
    "Tink.Props.C110_override_ignored",
    "Tink.Props.C110_override_violated",
    "Tink.Props.C110_version",
    "Tink.Props.C110_version_error",
    "Tink.Props.C110_requirements",
    "Tink.Props.C110_protos",
    "Tink.Props.C110_protos_only",
    "Tink.Props.C110_protos_newer",
    "Tink.Props.C110_protos_missing"
   ],
   "note": "C110_archive, C110_archive_known, C110_patched and C110_patched_again are about the text, C110_first_decides, C110_lost and C110_lost_unnoticed about the file. C110_override_violated: the docstring's promise about TINK_PYTHON_SETUPTOOLS_OVERRIDE_BASE_PATH is false of the code (see DESIGN.md). Bazel, protoc and setuptools are not modelled; textwrap.dedent is modelled by its result for versions without line breaks."
  },
  {
   "property": "C111",
   "status": "proved",
   "theorems": [
    "Tink.Props.C111_accepted_iff",
    "Tink.Props.C111_rotated",
    "Tink.Props.C111_revoked",
    "Tink.Props.C111_works",
    "Tink.Props.C111_version_violated"
   ],
   "note": "C111_version_violated: the export does not look at the version of a key (see DESIGN.md). C111_works takes the size of the public keyset as a hypothesis; that it exists is C109_jwt_signature_works."
  },
  {
   "property": "C112",
   "status": "proved",
   "theorems": [
    "Tink.Props.C112_uninterrupted",
    "Tink.Props.C112_lookup",
    "Tink.Props.C112_wrapper",
    "Tink.Props.C112_stays_registered",
    "Tink.Props.C112_wrapper_stays_registered",
    "Tink.Props.C112_agreeing",
    "Tink.Props.C112_agreeing_wrappers",
    "Tink.Props.C112_settled",
    "Tink.Props.C112_replaced_violated",
    "Tink.Props.C112_permission_violated",
    "Tink.Props.C112_key_error_violated",
    "Tink.Props.C112_wrapper_replaced_violated",
    "Tink.Props.C112_uninterrupted_lookup",
    "Tink.Props.C112_uninterrupted_wrapper",
    "Tink.Props.C112_failed",
    "Tink.Props.C112_lookups",
    "Tink.Props.C112_ends"
   ],
   "note": "Violations C112_replaced_violated, C112_permission_violated, C112_wrapper_replaced_violated and C112_key_error_violated, each with a schedule (see DESIGN.md). The code that follows a lookup in primitive(), new_key_data() and wrap() does not touch the registry and is not part of the schedules."
  },
  {
   "property": "C113",
   "status": "proved",
   "theorems": [
    "Tink.Props.C113_linearizable",
    "Tink.Props.C113_stays_first",
    "Tink.Props.C113_returned",
    "Tink.Props.C113_reset_violated",
    "Tink.Props.C113_ends",
    "Tink.Props.C113_kept_busy"
   ],
   "note": "C113_reset_violated: the loop keeps its index when the list is emptied and filled again (see DESIGN.md). C35 is for calls one after another."
  },
  {
   "property": "C114",
   "status": "proved",
   "theorems": [
    "Tink.Props.C114_never_fails",
    "Tink.Props.C114_registered",
    "Tink.Props.C114_lookup",
    "Tink.Props.C114_wrapper",
    "Tink.Props.C114_jwt_calls",
    "Tink.Props.C114_jwt"
   ],
   "note": "C64 with threads. The calls of C++ and the construction of key managers are taken not to touch the Python registry and to have the outcomes they have one after another; so what is interleaved are the calls of the registry."
  }
 ]
}