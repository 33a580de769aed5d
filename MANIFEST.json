{
 "claims": [
  {
   "property": "C01",
   "status": "proved",
   "theorems": [
    "Verif.Sm3.C01_chunking",
    "Verif.Sm3.C01_cuttings"
   ],
   "note": ""
  },
  {
   "property": "C02",
   "status": "proved",
   "theorems": [
    "Verif.Sm3.C02_sumSM3_is_standard",
    "Verif.Sm3.C02_length_field",
    "Verif.Sm3.C02_padding",
    "Verif.Sm3.C02_padding_injective"
   ],
   "note": "Equality with an independent transcription of GB/T 32905 for every message; below 2^61 bytes the length field is the true bit length."
  },
  {
   "property": "C03",
   "status": "proved",
   "theorems": [
    "Verif.Sm3.C03_history",
    "Verif.Sm3.C03_sum_length"
   ],
   "note": ""
  },
  {
   "property": "C04",
   "status": "proved",
   "theorems": [
    "Verif.Sm4.C04_inverse"
   ],
   "note": ""
  },
  {
   "property": "C05",
   "status": "proved",
   "theorems": [
    "Verif.Sm4.C05_is_standard",
    "Verif.Sm4.C05_tables"
   ],
   "note": ""
  },
  {
   "property": "C06",
   "status": "proved",
   "theorems": [
    "Verif.Sm4.C06_key_size"
   ],
   "note": ""
  },
  {
   "property": "C07",
   "status": "proved",
   "theorems": [
    "Verif.Sm4.C07_ecb_enc",
    "Verif.Sm4.C07_cbc_enc",
    "Verif.Sm4.C07_ecb_roundtrip",
    "Verif.Sm4.C07_cbc_roundtrip"
   ],
   "note": ""
  },
  {
   "property": "C08",
   "status": "partial",
   "theorems": [
    "Verif.Sm4.C08_ecb_dec",
    "Verif.Sm4.C08_cbc_dec",
    "Verif.Sm4.C08_unpad_exact_partial",
    "Verif.Sm4.C08_bad_padding_not_reported_violated"
   ],
   "note": "Unpadding proved exact (C08_unpad_exact_partial); the exported helpers violate the reporting half: the negation is proved for every key (…_violated)."
  },
  {
   "property": "C09",
   "status": "partial",
   "theorems": [
    "Verif.Sm4.C09_dec_panics_iff_empty_partial",
    "Verif.Sm4.C09_unaligned_gives_empty"
   ],
   "note": "'never panics' is false of the code: proved that the helpers panic exactly on the empty input and never elsewhere."
  },
  {
   "property": "C10",
   "status": "proved",
   "theorems": [
    "Verif.Sm2.Amd64.C10_amd64",
    "Verif.Sm2.C10_signWithDigest_verifies",
    "Verif.Sm2.C10_sign_verifies",
    "Verif.Sm2.C10_generated_keys"
   ],
   "note": "C10_amd64 is over exact field arithmetic; the amd64 assembly meets it only for the nonces and keys for which no carry is lost (C115). C10_sign_verify and the other theorems hold for any lawful curve."
  },
  {
   "property": "C11",
   "status": "partial",
   "theorems": [
    "Verif.Sm2.C11_digest_partial",
    "Verif.Sm2.C11_message_partial",
    "Verif.Sm2.C11_range",
    "Verif.Sm2.C11_t_zero_violated"
   ],
   "note": "Verification decides exactly the standard's relation except that the code does not reject t = (r+s) mod n = 0: the exact acceptance set is proved, and the t = 0 acceptance is proved as a violation."
  },
  {
   "property": "C12",
   "status": "proved",
   "theorems": [
    "Verif.Sm2.C12_range",
    "Verif.Sm2.C12_onto",
    "Verif.Sm2.C12_failing_source",
    "Verif.Sm2.C12_sign_panics_on_failing_source"
   ],
   "note": ""
  },
  {
   "property": "C13",
   "status": "partial",
   "theorems": [
    "Verif.Sm2.C13_key_minus_one_violated",
    "Verif.Sm2.C13_key_minus_one_reachable",
    "Verif.Sm2.C13_exact_partial",
    "Verif.Sm2.C13_r_zero_violated"
   ],
   "note": "False of the code at d = n-1 (key generation can return it; signing then loops/yields unverifiable output) and r = 0; exact condition proved."
  },
  {
   "property": "C14",
   "status": "proved",
   "theorems": [
    "Verif.Sm2.C14_unambiguous",
    "Verif.Sm2.C14_is_standard"
   ],
   "note": ""
  },
  {
   "property": "C15",
   "status": "partial",
   "theorems": [
    "Verif.Sm2.Amd64.C15_amd64_partial",
    "Verif.Sm2.Amd64.C15_key_n_minus_6_violated",
    "Verif.Sm2.C15_roundtrip_partial",
    "Verif.Sm2.C15_diverges_iff"
   ],
   "note": "False of the code at one key: d = n-6 makes Decrypt recompute the shared point with the wrong ScalarMult (C15_key_n_minus_6_violated). Proved for every other generated key (C15_amd64_partial, real curve) and relative to any lawful curve (C15_roundtrip_partial); non-termination characterised exactly (C15_diverges_iff). The amd64 theorems are over exact field arithmetic (see C115)."
  },
  {
   "property": "C16",
   "status": "proved",
   "theorems": [
    "Verif.Sm2.C16_released_only_if_hash_ok",
    "Verif.Sm2.C16_well_formed_decided",
    "Verif.Sm2.C16_forgery_is_collision"
   ],
   "note": ""
  },
  {
   "property": "C17",
   "status": "partial",
   "theorems": [
    "Verif.Sm2.C17_panics_iff_partial",
    "Verif.Sm2.C17_violated"
   ],
   "note": "Decrypt panics exactly on inputs below the header size; the 'never panics' half is false and its negation is proved."
  },
  {
   "property": "C18",
   "status": "proved",
   "theorems": [
    "Verif.Sm2.C18_kdf",
    "Verif.Sm2.C18_other_lengths",
    "Verif.Sm2.C18_prefix"
   ],
   "note": ""
  },
  {
   "property": "C19",
   "status": "proved",
   "theorems": [
    "Verif.Sm2.C19_roundtrip",
    "Verif.Sm2.C19_strict"
   ],
   "note": ""
  },
  {
   "property": "C20",
   "status": "partial",
   "theorems": [
    "Verif.Sm2.C20_parse_encoding",
    "Verif.Sm2.C20_parse_encoding'",
    "Verif.Sm2.C20_verify_decides_pair",
    "Verif.Sm2.C20_amd64",
    "Verif.Sm2.C20_keygen_sign_verify_partial",
    "Verif.Sm2.C20_keygen_drops_error_violated"
   ],
   "note": "Parsing and the decision on (r,s) are proved outright; sign-then-verify through the exported helpers fails where r+s = n-6 mod n (ScalarMult defect) and Sm2KeyGen drops the generation error (proved violation)."
  },
  {
   "property": "C21",
   "status": "proved",
   "theorems": [
    "Verif.Keys.C21_sec1_roundtrip",
    "Verif.Keys.C21_fixed_width",
    "Verif.Keys.C21_parse_accepts_iff",
    "Verif.Keys.C21_range_checked",
    "Verif.Keys.C21_pem_roundtrip"
   ],
   "note": ""
  },
  {
   "property": "C22",
   "status": "partial",
   "theorems": [
    "Verif.Keys.C22_padding",
    "Verif.Keys.C22_unpad_accepts_iff",
    "Verif.Keys.C22_block_roundtrip_partial",
    "Verif.Keys.C22_empty_data_violated",
    "Verif.Keys.C22_key_pem_roundtrip",
    "Verif.Keys.C22_empty_password_violated"
   ],
   "note": "Round trip proved for every non-empty data and every password, cipher and randomness, and for private-key PEMs under non-empty passwords; empty data and the empty password violate it (proved)."
  },
  {
   "property": "C23",
   "status": "proved",
   "theorems": [
    "Verif.Keys.C23_pbkdf_is_rfc8018",
    "Verif.Keys.C23_length"
   ],
   "note": ""
  },
  {
   "property": "C24",
   "status": "proved",
   "theorems": [
    "Verif.Tls.C24_no_repeat",
    "Verif.Tls.C24_sequence_is_index",
    "Verif.Tls.C24_no_wrap",
    "Verif.Tls.C24_key_change"
   ],
   "note": ""
  },
  {
   "property": "C25",
   "status": "proved",
   "theorems": [
    "Verif.Tls.C25_history_round_trip",
    "Verif.Tls.C25_record_round_trip"
   ],
   "note": ""
  },
  {
   "property": "C26",
   "status": "proved",
   "theorems": [
    "Verif.Tls.C26_accept_mac",
    "Verif.Tls.C26_accept_aead",
    "Verif.Tls.C26_delivered_is_prefix"
   ],
   "note": ""
  },
  {
   "property": "C27",
   "status": "proved",
   "theorems": [
    "Verif.Tls.C27_extractPadding",
    "Verif.Tls.C27_extractPaddingSSL30"
   ],
   "note": ""
  },
  {
   "property": "C28",
   "status": "proved",
   "theorems": [
    "Verif.Tls.C28_write_succeeds",
    "Verif.Tls.C28_write",
    "Verif.Tls.C28_max_payload",
    "Verif.Tls.C28_fragmentation"
   ],
   "note": ""
  },
  {
   "property": "C29",
   "status": "proved",
   "theorems": [
    "Verif.Tls.C29_reassembly",
    "Verif.Tls.C29_fragmentation_independent",
    "Verif.Tls.C29_oversize"
   ],
   "note": ""
  },
  {
   "property": "C30",
   "status": "proved",
   "theorems": [
    "Verif.Tls.C30_malformed_fails",
    "Verif.Tls.C30_accepted",
    "Verif.Tls.C30_always_returns",
    "Verif.Tls.C30_read_sticky",
    "Verif.Tls.C30_handshake_sticky",
    "Verif.Tls.C30_error_recorded"
   ],
   "note": ""
  },
  {
   "property": "C31",
   "status": "proved",
   "theorems": [
    "Verif.Tls.Interlock.C31_one_close",
    "Verif.Tls.Interlock.C31_no_write_after_close",
    "Verif.Tls.Interlock.C31_order",
    "Verif.Tls.Interlock.C31_notify_once",
    "Verif.Tls.Interlock.C31_transport_closed",
    "Verif.Tls.Interlock.C31_close_sees_writers",
    "Verif.Tls.Interlock.C31_orderly_close",
    "Verif.Tls.Interlock.C31_no_deadlock",
    "Verif.Tls.Interlock.C31_close_interrupts"
   ],
   "note": ""
  },
  {
   "property": "C32",
   "status": "proved",
   "theorems": [
    "Verif.Tls.Wire.C32_round_trip",
    "Verif.Tls.Wire.C32_transcript_bytes",
    "Verif.Tls.Wire.C32_client_hello",
    "Verif.Tls.Wire.C32_server_hello",
    "Verif.Tls.Wire.C32_certificate",
    "Verif.Tls.Wire.C32_certificate_empty_refused",
    "Verif.Tls.Wire.C32_server_key_exchange",
    "Verif.Tls.Wire.C32_client_key_exchange",
    "Verif.Tls.Wire.C32_finished",
    "Verif.Tls.Wire.C32_certificate_status",
    "Verif.Tls.Wire.C32_empty_messages",
    "Verif.Tls.Wire.C32_next_proto",
    "Verif.Tls.Wire.C32_certificate_request",
    "Verif.Tls.Wire.C32_certificate_request_gm",
    "Verif.Tls.Wire.C32_certificate_verify",
    "Verif.Tls.Wire.C32_new_session_ticket",
    "Verif.Tls.Wire.C32_session_state"
   ],
   "note": "All fourteen message types and session states; C32_round_trip is one statement over a sum type of all messages as readHandshake decodes them. WellFormed says: every variable-length field fits its length field, lists the parser requires to be non-empty are, flag-guarded fields are absent without the flag. C32_certificate_empty_refused: a certificate list whose last certificate is empty is encoded but refused by the parser."
  },
  {
   "property": "C33",
   "status": "proved",
   "theorems": [
    "Verif.Tls.Wire.C33_read_handshake",
    "Verif.Tls.Wire.C33_client_hello",
    "Verif.Tls.Wire.C33_server_hello",
    "Verif.Tls.Wire.C33_certificate",
    "Verif.Tls.Wire.C33_server_key_exchange",
    "Verif.Tls.Wire.C33_client_key_exchange",
    "Verif.Tls.Wire.C33_finished",
    "Verif.Tls.Wire.C33_certificate_status",
    "Verif.Tls.Wire.C33_server_hello_done",
    "Verif.Tls.Wire.C33_hello_request",
    "Verif.Tls.Wire.C33_next_proto",
    "Verif.Tls.Wire.C33_certificate_request",
    "Verif.Tls.Wire.C33_certificate_request_gm",
    "Verif.Tls.Wire.C33_certificate_verify",
    "Verif.Tls.Wire.C33_new_session_ticket",
    "Verif.Tls.Wire.C33_session_state"
   ],
   "note": "Every index and slice expression is modelled as panicking when out of range; C33_read_handshake covers the dispatch over all types, for every input with at least one byte (readHandshake guarantees four)."
  },
  {
   "property": "C34",
   "status": "proved",
   "theorems": [
    "Verif.Tls.C34_state_roundtrip",
    "Verif.Tls.C34_state_canonical",
    "Verif.Tls.C34_accepts_iff",
    "Verif.Tls.C34_roundtrip",
    "Verif.Tls.C34_key_separation"
   ],
   "note": ""
  },
  {
   "property": "C35",
   "status": "proved",
   "theorems": [
    "Verif.Tls.C35_rotation_accepts",
    "Verif.Tls.C35_rotation_refuses",
    "Verif.Tls.C35_setKeys_panics_iff",
    "Verif.Tls.C35_last_call_wins"
   ],
   "note": ""
  },
  {
   "property": "C36",
   "status": "proved",
   "theorems": [
    "Verif.Tls.Lru.C36_refines_lru",
    "Verif.Tls.Lru.C36_bounded",
    "Verif.Tls.Lru.C36_retention",
    "Verif.Tls.Lru.C36_evicts_lru"
   ],
   "note": ""
  },
  {
   "property": "C37",
   "status": "partial",
   "theorems": [
    "Verif.Tls.C37_highest_mutual",
    "Verif.Tls.C37_server",
    "Verif.Tls.C37_server_refuses",
    "Verif.Tls.C37_client",
    "Verif.Tls.C37_client_accepts_higher_violated",
    "Verif.Tls.C37_inverted_range_violated"
   ],
   "note": "Proved for servers and clients whose range is not empty. False in two respects, both proved: with MinVersion > MaxVersion the code agrees to a version below the minimum, and a client clamps a ServerHello version above its offer instead of refusing it."
  },
  {
   "property": "C38",
   "status": "partial",
   "theorems": [
    "Verif.Tls.C38_always_mutual",
    "Verif.Tls.C38_gm_always_mutual",
    "Verif.Tls.C38_accepts",
    "Verif.Tls.C38_client_partial",
    "Verif.Tls.C38_client_version_violated",
    "Verif.Tls.C38_first_mutual",
    "Verif.Tls.C38_default_suites",
    "Verif.Tls.C38_gm_first_mutual"
   ],
   "note": "Proved in full for servers (standard and GM), both directions; clients do not check that the suite fits the version (violation proved)."
  },
  {
   "property": "C39",
   "status": "partial",
   "theorems": [
    "Verif.Tls.C39_mutualProtocol",
    "Verif.Tls.C39_server",
    "Verif.Tls.C39_client_partial",
    "Verif.Tls.C39_client_unoffered_violated"
   ],
   "note": "Proved for servers; a client accepts any protocol the server names (violation proved)."
  },
  {
   "property": "C40",
   "status": "partial",
   "theorems": [
    "Verif.Tls.C40_by_name",
    "Verif.Tls.C40_labels_exist",
    "Verif.Tls.C40_default",
    "Verif.Tls.C40_callback",
    "Verif.Tls.C40_built_table_partial",
    "Verif.Tls.C40_uppercase_name_violated",
    "Verif.Tls.C40_gm_ignores_name_violated"
   ],
   "note": "getCertificate proved exactly; BuildNameToCertificate does not lower-case, so names with capitals are never found, and the GM server ignores the name altogether (violations proved). strings.ToLower is a parameter."
  },
  {
   "property": "C41",
   "status": "proved",
   "theorems": [
    "Verif.Tls.C41_key_block",
    "Verif.Tls.C41_master",
    "Verif.Tls.C41_endpoints_agree"
   ],
   "note": ""
  },
  {
   "property": "C42",
   "status": "proved",
   "theorems": [
    "Verif.Tls.C42_ssl3",
    "Verif.Tls.C42_pHash_rfc",
    "Verif.Tls.C42_split",
    "Verif.Tls.C42_prf_standard",
    "Verif.Tls.C42_prefix"
   ],
   "note": ""
  },
  {
   "property": "C43",
   "status": "proved",
   "theorems": [
    "Verif.Tls.C43_reserved_refused",
    "Verif.Tls.C43_long_context_refused",
    "Verif.Tls.C43_value",
    "Verif.Tls.C43_seed_injective",
    "Verif.Tls.C43_label_separation"
   ],
   "note": ""
  },
  {
   "property": "C44",
   "status": "partial",
   "theorems": [
    "Verif.Gm.C44_premaster_agreement_partial",
    "Verif.Gm.C44_amd64_partial",
    "Verif.Gm.C44_key_n_minus_6_violated"
   ],
   "note": "The full statement fails when the encryption key's private scalar is n-6 on the generic path (C44_key_n_minus_6_violated) or when Encrypt diverges; proved for all other keys, for the generic and for the amd64 curve."
  },
  {
   "property": "C45",
   "status": "partial",
   "theorems": [
    "Verif.Gm.C45_panics_iff_partial",
    "Verif.Gm.C45_violated",
    "Verif.Gm.C45_released"
   ],
   "note": "C45_panics_iff_partial gives the exact set of bodies on which the server panics; C45_violated exhibits that the full claim is false; C45_released bounds what is released."
  },
  {
   "property": "C46",
   "status": "partial",
   "theorems": [
    "Verif.Tls.C46_handshake_partial",
    "Verif.Tls.C46_skx_omitted_violated",
    "Verif.Gm.C46_signed_bytes_injective",
    "Verif.Gm.C46_skx_sound",
    "Verif.Gm.C46_skx_needs_sm2",
    "Verif.Gm.C46_honest_skx_accepted",
    "Verif.Gm.C46_amd64",
    "Verif.Gm.C46_skx_no_panic"
   ],
   "note": "Proved: the ServerKeyExchange check (C46_skx_*) and everything else a completing GM client has checked (C46_handshake_partial). False of the code: the message is mandatory; any server with acceptable certificates may leave it out (C46_skx_omitted_violated)."
  },
  {
   "property": "C47",
   "status": "proved",
   "theorems": [
    "Verif.Tls.C47_full_handshake",
    "Verif.Tls.C47_chains_valid",
    "Verif.Tls.C47_resumed",
    "Verif.Tls.C47_gm_resumed"
   ],
   "note": "Server side, standard and GM, full handshakes and resumptions, all client message sequences; signature verification, x509 verification and hash functions are parameters of the environment."
  },
  {
   "property": "C48",
   "status": "proved",
   "theorems": [
    "Verif.X509.C48_terminates",
    "Verif.X509.C48_key_usage",
    "Verif.X509.C48_sound"
   ],
   "note": "Chain validity as an explicit specification (Spec.ValidChain), key usage as an equivalence, termination for every pool. RSA/DSA/ECDSA verification, net.ParseIP and strings.EqualFold are parameters; the SM2 branch is the modelled sm2.Verify."
  },
  {
   "property": "C49",
   "status": "proved",
   "theorems": [
    "Verif.X509.C49_lower",
    "Verif.X509.C49_match",
    "Verif.X509.C49_verify_hostname"
   ],
   "note": ""
  },
  {
   "property": "C50",
   "status": "proved",
   "theorems": [
    "Verif.X509.C50_set",
    "Verif.X509.C50_contains",
    "Verif.X509.C50_idempotent",
    "Verif.X509.C50_parents",
    "Verif.X509.C50_subjects",
    "Verif.X509.C50_append_pem"
   ],
   "note": ""
  },
  {
   "property": "C51",
   "status": "proved",
   "theorems": [
    "Verif.Tls.C51_ticket_authentic",
    "Verif.Tls.C51_gm_default_never_resumes",
    "Verif.Tls.C51_client",
    "Verif.Tls.C51_server",
    "Verif.Tls.C51_gm_server"
   ],
   "note": "Server (both kinds) as an equivalence, client, and authenticity of the ticket via C34."
  },
  {
   "property": "C52",
   "status": "partial",
   "theorems": [
    "Verif.Tls.C52_full_handshake_partial",
    "Verif.Tls.C52_no_false_alarm",
    "Verif.Tls.C52_resumption_violated"
   ],
   "note": "Holds for full handshakes; on resumption the check is skipped (violation proved)."
  },
  {
   "property": "C53",
   "status": "proved",
   "theorems": [
    "Verif.Subtle.C53_any",
    "Verif.Subtle.C53_inexact"
   ],
   "note": ""
  },
  {
   "property": "C54",
   "status": "proved",
   "theorems": [
    "Verif.Tls.C54_same_identity",
    "Verif.Tls.C54_gm_same_identity",
    "Verif.Tls.C54_policy",
    "Verif.Tls.C54_honoured",
    "Verif.Tls.C54_refused"
   ],
   "note": "Policy: the count of handshakes started in the whole life of a connection (any calls, any bytes from the peer, any handshake code) is bounded by the policy; permitted requests are honoured, refused ones kill the writing half. Identity: a renegotiation completes only with the leaf certificate of the first handshake, both clients."
  },
  {
   "property": "C55",
   "status": "partial",
   "theorems": [
    "Verif.Keys.C55_gm_pairs_partial",
    "Verif.Keys.C55_enc_key_violated",
    "Verif.Keys.C55_x509_pair_partial",
    "Verif.Keys.C55_gm_single",
    "Verif.Keys.C55_usable",
    "Verif.Keys.C55_honest_loads",
    "Verif.Keys.C55_exponent_violated"
   ],
   "note": "Proved for the signing pair of GMX509KeyPairs and for SM2 and ECDSA keys in X509KeyPair and GMX509KeyPairsSingle; honest pairs load. False for the encryption pair: the encryption key text is never examined and no encryption private key is returned (C55_enc_key_violated); for RSA only the modulus is compared, not the public exponent (C55_exponent_violated)."
  },
  {
   "property": "C56",
   "status": "partial",
   "theorems": [
    "Verif.Sm4.C56_caller_memory_partial",
    "Verif.Sm4.C56_clobbers_violated"
   ],
   "note": "The property is false of the code: the exact effect on the caller's memory is proved, with a witness that bytes are clobbered."
  },
  {
   "property": "C57",
   "status": "partial",
   "theorems": [
    "Verif.Sm2.Amd64.C57_table_partial",
    "Verif.Sm2.Amd64.C57_scalarMult_partial",
    "Verif.Sm2.Amd64.C57_scalarMult_violated"
   ],
   "note": "Go recoding, tables and loops over the assembly's point formulas on the real curve, with exact field arithmetic. The assembly's field arithmetic is exact only when no carry is lost; C115 carries the theorem over to it under that condition and gives inputs where it fails. ScalarMult is wrong exactly at k = n-6 mod n, proved as an iff and as a violation."
  },
  {
   "property": "C58",
   "status": "partial",
   "theorems": [
    "Verif.Sm2.Amd64.C58_ideal_partial",
    "Verif.Sm2.Asm.C58_real_partial",
    "Verif.Sm2.Asm.C58_one_violated"
   ],
   "note": "C58_ideal_partial: addition chain over exact arithmetic, all elements. C58_real_partial: the real arithmetic, when no carry is lost. C58_one_violated: the inverse of 1 is wrong."
  },
  {
   "property": "C59",
   "status": "partial",
   "theorems": [
    "Verif.Sm2.Amd64.C59_value_partial",
    "Verif.Sm2.Amd64.C59_inverse_violated"
   ],
   "note": "Violated: the value computed over exact multiplication modulo n is proved (C59_value_partial) and that it is not the inverse (C59_inverse_violated). The assembly's squaring is not exact either (C131): C131_inverse_violated evaluates Inverse with the routines as they are."
  },
  {
   "property": "C60",
   "status": "proved",
   "theorems": [
    "Verif.Sm2.Amd64.C60_domain_parameters"
   ],
   "note": ""
  },
  {
   "property": "C61",
   "status": "partial",
   "theorems": [
    "Verif.Sm2.Amd64.C61_encrypt_diverges_violated",
    "Verif.Sm2.C15_diverges_iff"
   ],
   "note": "Violated: exact divergence condition is C15_diverges_iff; a concrete key and nonce for which Encrypt never returns is C61_encrypt_diverges_violated."
  },
  {
   "property": "C62",
   "status": "partial",
   "theorems": [
    "Verif.Sm2.C62_accepted_form_partial",
    "Verif.Sm2.C62_trailing_data_violated"
   ],
   "note": "Exact accepted form proved; trailing data is accepted (proved violation)."
  },
  {
   "property": "C63",
   "status": "partial",
   "theorems": [
    "Verif.Sm2.C63_roundtrip_partial",
    "Verif.Sm2.C63_released_only_if_hash_ok"
   ],
   "note": "Round trip proved for every generated key except d = n-6; release only if the hash matches is proved outright."
  },
  {
   "property": "C64",
   "status": "partial",
   "theorems": [
    "Verif.Sm2.C64_decryptAsn1_panics_iff_partial",
    "Verif.Sm2.C64_decryptAsn1_panics_violated",
    "Verif.Sm2.C64_sm2Verify_panics_violated"
   ],
   "note": "Violated; the exact panic set of DecryptAsn1 is proved."
  },
  {
   "property": "C65",
   "status": "partial",
   "theorems": [
    "Verif.Sm2.C65_invalid_point_accepted_violated"
   ],
   "note": "Violated: a ciphertext with an off-curve C1 is accepted (proved)."
  },
  {
   "property": "C66",
   "status": "partial",
   "theorems": [
    "Verif.Keys.C66_decrypt_panics_iff_partial",
    "Verif.Keys.C66_decrypt_panics_violated"
   ],
   "note": "Violated; the exact panic set is proved."
  },
  {
   "property": "C67",
   "status": "partial",
   "theorems": [
    "Verif.Keys.C67_encrypt_ignores_cipher_violated",
    "Verif.Keys.C67_decrypt_ignores_cipher_violated"
   ],
   "note": "Violated on both sides (proved): the cipher choice has no effect on the bytes."
  },
  {
   "property": "C68",
   "status": "proved",
   "theorems": [
    "Verif.Keys.C68_parsed_on_curve",
    "Verif.Keys.C68_pkix_roundtrip",
    "Verif.Keys.C68_pem_roundtrip",
    "Verif.Keys.C68_generated_on_curve"
   ],
   "note": ""
  },
  {
   "property": "C69",
   "status": "partial",
   "theorems": [
    "Verif.Keys.C69_zero_key_accepted_violated",
    "Verif.Keys.C69_public_key_ignored_violated",
    "Verif.Keys.C21_range_checked"
   ],
   "note": "Violated (proved); what is guaranteed, 0 <= d < n with a recomputed point, is C21_range_checked."
  },
  {
   "property": "C70",
   "status": "partial",
   "theorems": [
    "Verif.Tls.C70_server_config_never_panics_partial",
    "Verif.Tls.C70_issue_panics_violated"
   ],
   "note": "Violated for configs returned by GetConfigForClient (C70_issue_panics_violated); proved for a server using its own config (C70_server_config_never_panics_partial)."
  },
  {
   "property": "C71",
   "status": "partial",
   "theorems": [
    "Verif.Tls.C71_returned_key_ignored_violated",
    "Verif.Tls.C71_explicit_keys_kept_partial",
    "Verif.Tls.C71_own_key_used_partial"
   ],
   "note": "A SessionTicketKey on the config returned by GetConfigForClient is ignored (proved violation); the other two cases of the documented precedence are proved."
  },
  {
   "property": "C72",
   "status": "partial",
   "theorems": [
    "Verif.Tls.C72_export_returns_partial",
    "Verif.Tls.C72_export_panics_violated"
   ],
   "note": "Proved for completed TLS 1.0-1.2/GMSSL connections and non-negative lengths; the other cases panic (proved violation)."
  },
  {
   "property": "C73",
   "status": "partial",
   "theorems": [
    "Verif.Tls.C73_gm_resumption_hash_violated",
    "Verif.Tls.C73_resumed_handshake_violated"
   ],
   "note": "Violated: the two PRF inputs are proved different for every transcript, and at the level of the two ends' handshake code (C73_resumed_handshake_violated): a GM client accepts a GM server's resumption only at a collision of the truncated PRF. The non-resumed handshake is C74."
  },
  {
   "property": "C74",
   "status": "proved",
   "theorems": [
    "Verif.Tls.C74_full_handshake",
    "Verif.Tls.C74_resumed_handshake",
    "Verif.Tls.C74_certificate_verify_hash"
   ],
   "note": ""
  },
  {
   "property": "C75",
   "status": "partial",
   "theorems": [
    "Verif.Tls.C75_restricted_partial",
    "Verif.Tls.C75_unknown_version_panics_violated"
   ],
   "note": "Holds when the configuration restricts versions to SSL 3.0-TLS 1.2; false with the default range: versions 0x0102-0x02ff are accepted and panic (violation proved)."
  },
  {
   "property": "C76",
   "status": "partial",
   "theorems": [
    "Verif.Tls.C76_unverified_session_violated"
   ],
   "note": "False of the code; the negation is proved for every configuration and every suitable unverified session. It holds when all clients that share the cache verify: C146_authentic, for every history."
  },
  {
   "property": "C77",
   "status": "proved",
   "theorems": [
    "Verif.Tls.C77_agreement",
    "Verif.Tls.C77_gm_agreement",
    "Verif.Tls.C77_offer"
   ],
   "note": ""
  },
  {
   "property": "C78",
   "status": "proved",
   "theorems": [
    "Verif.Tls.C78_keys_pair",
    "Verif.Tls.C78_session",
    "Verif.Tls.Wire.C78_message_delivery",
    "Verif.Tls.C78_handshake_delivery",
    "Verif.Tls.C78_data_delivery"
   ],
   "note": ""
  },
  {
   "property": "C79",
   "status": "partial",
   "theorems": [
    "Verif.Tls.C79_finished_under_new_keys_partial",
    "Verif.Tls.C79_ccs_skipped_violated"
   ],
   "note": "Proved for clients that do not allow renegotiation; for the others it is false: every accepted end of a handshake is also accepted without ChangeCipherSpec (C79_ccs_skipped_violated)."
  },
  {
   "property": "C80",
   "status": "partial",
   "theorems": [
    "Verif.X509.C80_complete_partial",
    "Verif.X509.C80_complete_violated"
   ],
   "note": "Proved when no certificate of the pools limits the path length and no intermediate is also a root; false in general (C80_complete_violated: a concrete pool with a valid chain that Verify rejects in one order and accepts in the other)."
  },
  {
   "property": "C81",
   "status": "partial",
   "theorems": [
    "Verif.Tls.C81_ecdhe_partial",
    "Verif.Tls.C81_sm2_tls12_violated",
    "Verif.Tls.C81_rsa"
   ],
   "note": "Proved with the laws of the curves, X25519 and RSA as hypotheses (Spec.KaLaw, Spec.RsaLaw, met in examples), for the standard key agreements. Violated (theorem) for a server with an SM2 certificate at TLS 1.2, whose ServerKeyExchange no client accepts. SSL 3.0 RSA framing is outside the RSA theorem."
  },
  {
   "property": "C82",
   "status": "partial",
   "theorems": [
    "Verif.Tls.C82_signed_params",
    "Verif.Tls.C82_gm_signed_params",
    "Verif.Tls.C82_gm_zero_share_violated"
   ],
   "note": "Proved for the standard client. For the GM ECDHE client the signature is proved to be required, but the signed value is not used when the curve id is 29: the premaster secret is then X25519 of zeros (theorem _violated). RSA/ECDSA verification are parameters."
  },
  {
   "property": "C83",
   "status": "partial",
   "theorems": [
    "Verif.Tls.C83_server_ecdhe_partial",
    "Verif.Tls.C83_server_rsa_partial",
    "Verif.Tls.C83_client_skx_partial",
    "Verif.Tls.C83_client_ckx_partial",
    "Verif.Tls.C83_client_rsa_violated",
    "Verif.Tls.C83_gm_client_violated",
    "Verif.Tls.C83_gm_server_violated"
   ],
   "note": "Proved for the standard server functions, ECDHE ServerKeyExchange processing and the ECDHE client. Violated: RSA suites with a non-RSA server certificate (CVE-2021-34558), GM ECDHE client with an unknown signed curve id, GM ECDHE server functions."
  },
  {
   "property": "C84",
   "status": "proved",
   "theorems": [
    "Verif.Tls.C84_full_handshake",
    "Verif.Tls.C84_chains_valid"
   ],
   "note": ""
  },
  {
   "property": "C85",
   "status": "partial",
   "theorems": [
    "Verif.Tls.C85_no_intermediates_violated"
   ],
   "note": "False of the code; proved that no server whose first three certificates need an intermediate is ever accepted."
  },
  {
   "property": "C86",
   "status": "proved",
   "theorems": [
    "Verif.Tls.C86_client_certificate"
   ],
   "note": ""
  },
  {
   "property": "C87",
   "status": "partial",
   "theorems": [
    "Verif.Tls.C87_bound_partial",
    "Verif.Tls.C87_client_hello_partial",
    "Verif.Tls.C87_unannounced_violated",
    "Verif.Tls.C87_gm_client_violated"
   ],
   "note": "Proved when the first ServerHello announced secure renegotiation, and for the standard client's hello. False otherwise: without the announcement any value is accepted (C87_unannounced_violated); the GM client never sends the extension (C87_gm_client_violated)."
  },
  {
   "property": "C88",
   "status": "proved",
   "theorems": [
    "Verif.Tls.C88_honest_handshake"
   ],
   "note": ""
  },
  {
   "property": "C89",
   "status": "proved",
   "theorems": [
    "Verif.Tls.C89_explicit_iv",
    "Verif.Tls.C89_implicit_iv"
   ],
   "note": ""
  },
  {
   "property": "C90",
   "status": "proved",
   "theorems": [
    "Verif.Tls.C90_close_write_final",
    "Verif.Tls.C90_close_write_early",
    "Verif.Tls.C90_close_write_sends"
   ],
   "note": ""
  },
  {
   "property": "C91",
   "status": "proved",
   "theorems": [
    "Verif.X509.C91_key_usage_round_trip",
    "Verif.X509.C91_key_usage_exact",
    "Verif.X509.C91_undefined_bits_lost"
   ],
   "note": ""
  },
  {
   "property": "C92",
   "status": "proved",
   "theorems": [
    "Verif.X509.C92_basic_constraints"
   ],
   "note": ""
  },
  {
   "property": "C93",
   "status": "proved",
   "theorems": [
    "Verif.X509.C93_template_round_trip"
   ],
   "note": ""
  },
  {
   "property": "C94",
   "status": "proved",
   "theorems": [
    "Verif.X509.C94_critical_recorded",
    "Verif.X509.C94_extensions_kept"
   ],
   "note": ""
  },
  {
   "property": "C95",
   "status": "proved",
   "theorems": [
    "Verif.X509.C95_extra_extensions"
   ],
   "note": ""
  },
  {
   "property": "C96",
   "status": "partial",
   "theorems": [
    "Verif.X509.C96_bad_ip_violated",
    "Verif.X509.C96_template_unparseable_violated",
    "Verif.X509.C96_empty_exclusion_violated",
    "Verif.X509.C96_unknown_usage_panics_violated"
   ],
   "note": "The property as stated is false of the code; the theorems prove the negations (any IP of another length; an empty exclusion; a panic)."
  },
  {
   "property": "C97",
   "status": "proved",
   "theorems": [
    "Verif.X509.C97_algorithm_consistent",
    "Verif.X509.C97_algorithm_available",
    "Verif.X509.C97_pss_strict"
   ],
   "note": ""
  },
  {
   "property": "C98",
   "status": "proved",
   "theorems": [
    "Verif.X509.C98_create_parse"
   ],
   "note": ""
  },
  {
   "property": "C99",
   "status": "proved",
   "theorems": [
    "Verif.X509.C99_issued_verifies",
    "Verif.X509.C99_amd64"
   ],
   "note": ""
  },
  {
   "property": "C100",
   "status": "proved",
   "theorems": [
    "Verif.X509.C100_raw",
    "Verif.X509.C100_signed_bytes_determine"
   ],
   "note": ""
  },
  {
   "property": "C101",
   "status": "partial",
   "theorems": [
    "Verif.X509.C101_unique_encoding_violated",
    "Verif.X509.C101_signed_part_partial"
   ],
   "note": "violated by the code: trailing bytes inside the outer SEQUENCE are ignored; theorem C101_unique_encoding_violated"
  },
  {
   "property": "C102",
   "status": "proved",
   "theorems": [
    "Verif.X509.C102_unknown_critical_refused"
   ],
   "note": ""
  },
  {
   "property": "C103",
   "status": "proved",
   "theorems": [
    "Verif.X509.C103_issue_then_verify"
   ],
   "note": ""
  },
  {
   "property": "C104",
   "status": "partial",
   "theorems": [
    "Verif.X509.C104_algorithm_label_violated",
    "Verif.X509.C104_signer_label_violated",
    "Verif.X509.C104_refused_partial"
   ],
   "note": "violated by the code for SM2 keys: the named digest is ignored; theorems C104_*_violated"
  },
  {
   "property": "C105",
   "status": "partial",
   "theorems": [
    "Verif.X509.C105_request_round_trip_partial",
    "Verif.X509.C105_rsa_unsigned_violated",
    "Verif.X509.C105_rsa_always_violated",
    "Verif.X509.C105_sm2_label_violated",
    "Verif.X509.C105_ecdsa_round_trip",
    "Verif.X509.C105_san_override",
    "Verif.X509.C105_raw",
    "Verif.X509.C105_no_trailing"
   ],
   "note": "proved for SM2 keys with the default algorithm or SM2 with SM3; false for RSA keys (unsigned, nil error) and the other SM2 algorithms (read as ECDSA), proved as C105_*_violated"
  },
  {
   "property": "C106",
   "status": "partial",
   "theorems": [
    "Verif.X509.C106_template_modified_violated",
    "Verif.X509.C106_template_kept_partial",
    "Verif.X509.C106_attributes_written_partial"
   ],
   "note": "violated by the code; the partial theorem is the exact condition under which it holds"
  },
  {
   "property": "C107",
   "status": "proved",
   "theorems": [
    "Verif.X509.C107_crl_round_trip"
   ],
   "note": ""
  },
  {
   "property": "C108",
   "status": "proved",
   "theorems": [
    "Verif.X509.C108_crl_signed_bytes",
    "Verif.X509.C108_revoked_signed",
    "Verif.X509.C108_no_trailing"
   ],
   "note": ""
  },
  {
   "property": "C109",
   "status": "proved",
   "theorems": [
    "Verif.Tls.C109_server_flight"
   ],
   "note": ""
  },
  {
   "property": "C110",
   "status": "partial",
   "theorems": [
    "Verif.Tls.C110_ecdhe_exact",
    "Verif.Tls.C110_rsa_exact",
    "Verif.Tls.C110_gm_partial",
    "Verif.Tls.C110_gm_violated",
    "Verif.Tls.C110_gm_long_violated"
   ],
   "note": "holds for ECDHE and RSA; for GM the first length byte is ignored (C110_gm_violated, C110_gm_long_violated)"
  },
  {
   "property": "C111",
   "status": "partial",
   "theorems": [
    "Verif.X509.C111_name_constraints_partial",
    "Verif.X509.C111_unsupported_refused",
    "Verif.X509.C111_repeated_violated"
   ],
   "note": "holds for the last NameConstraints extension; earlier ones are overwritten (C111_repeated_violated)"
  },
  {
   "property": "C112",
   "status": "partial",
   "theorems": [
    "Verif.X509.IssueExample.C112_key_kind_violated",
    "Verif.X509.C112_request_signed_bytes_partial"
   ],
   "note": "the kind of key is excluded, and C112_key_kind_violated shows it must be"
  },
  {
   "property": "C113",
   "status": "partial",
   "theorems": [
    "Verif.Sm2.Asm.C113_montgomery_partial",
    "Verif.Sm2.Asm.C113_reduction_exact_iff",
    "Verif.Sm2.Asm.C113_one_violated",
    "Verif.Sm2.Asm.C113_to_montgomery_violated"
   ],
   "note": "condition: no reduction step loses a carry (decidable, checked on concrete operands); C113_one_violated and C113_to_montgomery_violated show it cannot be dropped"
  },
  {
   "property": "C114",
   "status": "partial",
   "theorems": [
    "Verif.Sm2.Asm.C114_double_partial",
    "Verif.Sm2.Asm.C114_add_partial",
    "Verif.Sm2.Asm.C114_affine_partial"
   ],
   "note": "conditions: no lost carry in the field operations; for additions, points different and not infinity (the formulas are incomplete, the callers guard this, see C57)"
  },
  {
   "property": "C115",
   "status": "partial",
   "theorems": [
    "Verif.Sm2.Asm.C115_scalarMult_partial",
    "Verif.Sm2.Asm.C115_table_partial",
    "Verif.Sm2.Asm.C115_times_one_violated",
    "Verif.Sm2.Asm.C115_n_minus_6_violated"
   ],
   "note": "condition: no lost carry (and k != n-6 for ScalarMult); violated without it (C115_times_one_violated, C115_n_minus_6_violated)"
  },
  {
   "property": "C116",
   "status": "partial",
   "theorems": [
    "Verif.Sm2.Asm.C116_isZero_partial",
    "Verif.Sm2.Asm.C116_isZero_violated",
    "Verif.Sm2.Asm.C116_prime_violated",
    "Verif.Sm2.Asm.C116_flag_partial",
    "Verif.Sm2.Asm.C116_flag_violated"
   ],
   "note": "right except at one residue (C116_isZero_partial); C116_flag_violated gives two points of the curve"
  },
  {
   "property": "C117",
   "status": "partial",
   "theorems": [
    "Verif.Sm2.Asm.C117_negCond_partial",
    "Verif.Sm2.Asm.C117_zero_violated",
    "Verif.Sm2.Asm.C117_affine_violated"
   ],
   "note": "the result is always congruent to -y; C117_zero_violated and C117_affine_violated show it is not always reduced"
  },
  {
   "property": "C118",
   "status": "proved",
   "theorems": [
    "Verif.Sm2.Arm64.C118_group_law",
    "Verif.Sm2.Arm64.C118_isOnCurve",
    "Verif.Sm2.Arm64.C118_infinity"
   ],
   "note": "crypto/elliptic is not in /repo; its published source (Go 1.16, the version in go.mod) is modelled in Sm2/Arm64/Model"
  },
  {
   "property": "C119",
   "status": "partial",
   "theorems": [
    "Verif.Sm2.Arm64.C119_sign_verify_partial",
    "Verif.Sm2.Arm64.C119_encrypt_decrypt",
    "Verif.Sm2.Arm64.C119_bytes_partial",
    "Verif.Sm2.Arm64.C119_asn1",
    "Verif.Sm2.Arm64.C119_verify_partial",
    "Verif.Sm2.Arm64.C119_same_signature"
   ],
   "note": "encryption without exception; signatures except the key n-1 and zero halves (C13), for which the code does not retry"
  },
  {
   "property": "C120",
   "status": "partial",
   "theorems": [
    "Verif.Sm2.Arm64.C120_oracle_violated",
    "Verif.Sm2.Arm64.C120_lowest_bit_violated"
   ],
   "note": "violated: exact condition (C120_oracle_violated) and a fixed ciphertext that tells the lowest bit of every key (C120_lowest_bit_violated)"
  },
  {
   "property": "C121",
   "status": "partial",
   "theorems": [
    "Verif.Tls.Locks.C121_no_deadlock",
    "Verif.Tls.Locks.C121_no_cycle",
    "Verif.Tls.Locks.C121_handshake_gets_in",
    "Verif.Tls.Locks.C121_close_waits_for_sender",
    "Verif.Tls.Locks.C121_one_handshake",
    "Verif.Tls.Locks.C121_first_handshake_once",
    "Verif.Tls.Locks.C121_failure_is_final",
    "Verif.Tls.Locks.C121_write_refused_violated"
   ],
   "note": "deadlock freedom, one handshake, finality of failure, Close in full; the clause about Write is violated (C121_write_refused_violated). That the protection of Close against a stuck Write works is C31"
  },
  {
   "property": "C122",
   "status": "partial",
   "theorems": [
    "Verif.Tls.Locks.C122_sequence_numbers_partial",
    "Verif.Tls.Locks.C122_unlocked_alert_violated"
   ],
   "note": "full for peers that do not announce oversized handshake messages; with them violated (C122_unlocked_alert_violated)"
  },
  {
   "property": "C123",
   "status": "proved",
   "theorems": [
    "Verif.Tls.C123_client",
    "Verif.Tls.C123_server",
    "Verif.Tls.C123_honest",
    "Verif.Tls.C123_end_to_end",
    "Verif.Tls.C123_own_ticket"
   ],
   "note": ""
  },
  {
   "property": "C124",
   "status": "partial",
   "theorems": [
    "Verif.Tls.C124_server",
    "Verif.Tls.C124_identity",
    "Verif.Tls.C124_client_partial",
    "Verif.Tls.C124_other_key_panic_violated",
    "Verif.Tls.C124_skx_omitted_violated",
    "Verif.Tls.C124_honest",
    "Verif.Tls.C124_builds_differ"
   ],
   "note": "Violated: an accepted RSA or ECDSA certificate makes the client panic (C124_other_key_panic_violated) and the signature may be left out (C124_skx_omitted_violated). The rest is proved."
  },
  {
   "property": "C125",
   "status": "partial",
   "theorems": [
    "Verif.Tls.Dial.C125_success",
    "Verif.Tls.Dial.C125_failure",
    "Verif.Tls.Dial.C125_never_blocked",
    "Verif.Tls.Dial.C125_timeout_ends",
    "Verif.Tls.Dial.C125_untimed",
    "Verif.Tls.Dial.C125_time_allowed",
    "Verif.Tls.Dial.C125_server_name",
    "Verif.Tls.Dial.C125_no_name_no_handshake",
    "Verif.Tls.Dial.C125_clone",
    "Verif.Tls.Dial.C125_argument_modified_violated",
    "Verif.Tls.Dial.C125_argument_partial",
    "Verif.Tls.Dial.C125_listen",
    "Verif.Tls.Dial.C125_listen_gm_violated"
   ],
   "note": "Violated: the caller's SessionTicketKey (or SessionTicketsDisabled) is modified by a dial (C125_argument_modified_violated); Listen accepts Configs with which the GM server answers no client (C125_listen_gm_violated). The rest is proved."
  },
  {
   "property": "C126",
   "status": "partial",
   "theorems": [
    "Verif.Tls.TicketRace.C126_keys_in_force_partial",
    "Verif.Tls.TicketRace.C126_never_panics",
    "Verif.Tls.TicketRace.C126_keys_lost_violated",
    "Verif.Tls.TicketRace.C126_disabled_violated",
    "Verif.Tls.TicketRace.C126_rotation_unseen_violated"
   ],
   "note": "Violated: a SetSessionTicketKeys call that races with the first server handshake is lost (C126_keys_lost_violated, C126_disabled_violated), and rotation never reaches a Config already returned by GetConfigForClient (C126_rotation_unseen_violated). Without such a race it is proved for all schedules."
  },
  {
   "property": "C127",
   "status": "partial",
   "theorems": [
    "Verif.Keys.C127_parsed",
    "Verif.Keys.C127_never_panics",
    "Verif.Keys.C127_usable_partial",
    "Verif.Keys.C127_roundtrip_partial",
    "Verif.Keys.C127_repeated_violated",
    "Verif.Keys.C127_composite_violated",
    "Verif.Keys.C127_marshal_empty_violated"
   ],
   "note": "Violated: Validate accepts a repeated prime (C127_repeated_violated) and composite factors (C127_composite_violated), with which decryption is wrong; MarshalPKCS1PrivateKey silently returns an empty text for some keys (C127_marshal_empty_violated). For distinct primes it is proved."
  },
  {
   "property": "C128",
   "status": "partial",
   "theorems": [
    "Verif.X509.SystemRoots.C128_load",
    "Verif.X509.SystemRoots.C128_stable",
    "Verif.X509.SystemRoots.C128_nil_nil_violated",
    "Verif.X509.SystemRoots.C128_never_again_violated",
    "Verif.X509.SystemRoots.C128_error"
   ],
   "note": "Violated: without any file or directory neither a pool nor an error results (C128_nil_nil_violated), and a failed first load is remembered by Verify for ever (C128_never_again_violated). The rest is proved."
  },
  {
   "property": "C129",
   "status": "partial",
   "theorems": [
    "Verif.Tls.ConfigForClient.C129_info_partial",
    "Verif.Tls.ConfigForClient.C129_gm_version_violated",
    "Verif.Tls.ConfigForClient.C129_returned_partial",
    "Verif.Tls.ConfigForClient.C129_nil",
    "Verif.Tls.ConfigForClient.C129_error",
    "Verif.Tls.ConfigForClient.C129_kind_violated"
   ],
   "note": "The code violates two parts, both proved: a GM client is shown as supporting no version at all (C129_gm_version_violated), and the kind of handshake (GM or TLS) is chosen from the original Config, so a returned Config of the other kind does not take effect (C129_kind_violated). Everything else is proved: C129_info_partial (the list of versions for TLS versions, all other fields for all clients), C129_returned_partial (same kind), C129_nil, C129_error."
  },
  {
   "property": "C130",
   "status": "proved",
   "theorems": [
    "Verif.Tls.Blocks.C130_segmentation",
    "Verif.Tls.Blocks.C130_complete",
    "Verif.Tls.Blocks.C130_read",
    "Verif.Tls.Blocks.C130_written",
    "Verif.Tls.Blocks.C130_record"
   ],
   "note": ""
  },
  {
   "property": "C131",
   "status": "partial",
   "theorems": [
    "Verif.Sm2.Asm.C131_ordMul",
    "Verif.Sm2.Asm.C131_ordSqr_count",
    "Verif.Sm2.Asm.C131_ordSqr_partial",
    "Verif.Sm2.Asm.C131_ordSqr_violated",
    "Verif.Sm2.Asm.C131_inverse_violated"
   ],
   "note": "Violated by the squaring. Proved: C131_ordMul for all operands; C131_ordSqr_count (n squarings are n single ones); C131_ordSqr_partial: for reduced operands a squaring is right exactly if none of its four steps loses a carry; C131_ordSqr_violated (the Montgomery form of one) and C131_inverse_violated (Inverse(1) with the routines as they are)."
  },
  {
   "property": "C132",
   "status": "proved",
   "theorems": [
    "Verif.Sm2.Asm.C132_select",
    "Verif.Sm2.Asm.C132_selectBase",
    "Verif.Sm2.Asm.C132_movCond",
    "Verif.Sm2.Asm.C132_bigToLittle",
    "Verif.Sm2.Asm.C132_littleToBig"
   ],
   "note": ""
  },
  {
   "property": "C133",
   "status": "proved",
   "theorems": [
    "Verif.Tls.C133_record_length",
    "Verif.Tls.C133_first_segment",
    "Verif.Tls.C133_sizes",
    "Verif.Tls.C133_nondecreasing",
    "Verif.Tls.C133_full"
   ],
   "note": ""
  },
  {
   "property": "C134",
   "status": "partial",
   "theorems": [
    "Verif.Tls.C134_alert_sent",
    "Verif.Tls.C134_renegotiation_violated"
   ],
   "note": "Proved for Handshake (C134_alert_sent). Violated by renegotiations: handleRenegotiation does not flush, the alert stays in the buffer and no later call (Close included) sends it: C134_renegotiation_violated."
  },
  {
   "property": "C135",
   "status": "partial",
   "theorems": [
    "Verif.Tls.C135_standard",
    "Verif.Tls.C135_gm_partial",
    "toyRun_completes",
    "toyRun2_completes"
   ],
   "note": "Standard client proved (C135_standard). GM client (C135_gm_partial): everything except the mandatory ServerKeyExchange of the ECC suites, whose omission the code accepts (C46_skx_omitted_violated); also the single-certificate GM client is only covered up to the item level. Complete runs over bytes, full and resumed: toyRun_completes, toyRun2_completes."
  },
  {
   "property": "C136",
   "status": "partial",
   "theorems": [
    "Verif.Tls.C136_keys_partial",
    "Verif.Tls.C136_clear_violated"
   ],
   "note": "Proved except for standard clients that allow renegotiation (C136_keys_partial); violated there: C136_clear_violated."
  },
  {
   "property": "C137",
   "status": "partial",
   "theorems": [
    "Verif.Tls.C137_standard",
    "Verif.Tls.C137_gm_version_violated",
    "Verif.Tls.C137_gm_unpinned",
    "Verif.Tls.C137_gm_helloRequest_violated"
   ],
   "note": "Proved for standard clients (C137_standard); violated by GM clients: C137_gm_unpinned, C137_gm_version_violated, C137_gm_helloRequest_violated."
  },
  {
   "property": "C138",
   "status": "proved",
   "theorems": [
    "Verif.Tls.C138_server"
   ],
   "note": ""
  },
  {
   "property": "C139",
   "status": "partial",
   "theorems": [
    "Verif.Tls.C139_alert_sent_partial",
    "Verif.Tls.C139_unsealed_violated"
   ],
   "note": "Proved when tickets can be sealed (C139_alert_sent_partial); violated otherwise: C139_unsealed_violated."
  },
  {
   "property": "C140",
   "status": "proved",
   "theorems": [
    "Verif.Tls.C140_keys",
    "Verif.Tls.C140_pair"
   ],
   "note": ""
  },
  {
   "property": "C141",
   "status": "proved",
   "theorems": [
    "Verif.Tls.C141_client",
    "Verif.Tls.C141_server"
   ],
   "note": ""
  },
  {
   "property": "C142",
   "status": "proved",
   "theorems": [
    "Verif.Tls.C142_client",
    "Verif.Tls.C142_server"
   ],
   "note": ""
  },
  {
   "property": "C143",
   "status": "proved",
   "theorems": [
    "Verif.Tls.C143_call_returns",
    "Verif.Tls.C143_history",
    "Verif.Tls.C143_message_returns",
    "Verif.Tls.C143_from_keys",
    "Verif.Tls.C143_after_client",
    "Verif.Tls.C143_after_server"
   ],
   "note": ""
  },
  {
   "property": "C144",
   "status": "proved",
   "theorems": [
    "Verif.Tls.C144_decrypt",
    "Verif.Tls.C144_encrypt",
    "Verif.Tls.C144_record",
    "Verif.Tls.C144_message",
    "Verif.Tls.C144_write"
   ],
   "note": ""
  },
  {
   "property": "C145",
   "status": "partial",
   "theorems": [
    "Verif.Tls.C145_incomplete",
    "Verif.Tls.C145_agreement",
    "Verif.Tls.C145_unique",
    "Verif.Tls.C145_hostname",
    "Verif.Tls.C145_certificates",
    "Verif.Tls.C145_gm_chains_violated"
   ],
   "note": "All proved except the last sentence, which is false of the GM client with two certificates: it overwrites the chains with those of each later certificate (C145_gm_chains_violated, proved)."
  },
  {
   "property": "C146",
   "status": "partial",
   "theorems": [
    "Verif.Tls.C146_source",
    "Verif.Tls.C146_authentic",
    "Verif.Tls.C146_offered",
    "Verif.Tls.C146_offers_newest",
    "Verif.Tls.C146_renegotiation_violated",
    "Verif.Tls.C146_address_violated"
   ],
   "note": "All proved except 'a session is offered only to the server it came from', which is false: C146_renegotiation_violated and C146_address_violated (proved, for every history)."
  },
  {
   "property": "C147",
   "status": "proved",
   "theorems": [
    "Verif.X509.C147_certificates",
    "Verif.X509.C147_append",
    "Verif.X509.C147_single",
    "Verif.X509.C147_pem"
   ],
   "note": ""
  },
  {
   "property": "C148",
   "status": "proved",
   "theorems": [
    "Verif.Tls.C148_chain",
    "Verif.Tls.C148_faithful",
    "Verif.Tls.C148_origin"
   ],
   "note": ""
  }
 ]
}