{
 "C02": {
  "note": "Equality with an independent transcription of GB/T 32905 for every message; below 2^61 bytes the length field is the true bit length."
 },
 "C08": {
  "status": "partial",
  "note": "Unpadding proved exact (C08_unpad_exact_partial); the exported helpers violate the reporting half: the negation is proved for every key (…_violated)."
 },
 "C09": {
  "status": "partial",
  "note": "'never panics' is false of the code: proved that the helpers panic exactly on the empty input and never elsewhere."
 },
 "C56": {
  "status": "partial",
  "note": "The property is false of the code: the exact effect on the caller's memory is proved, with a witness that bytes are clobbered."
 },
 "C11": {
  "status": "partial",
  "note": "Verification decides exactly the standard's relation except that the code does not reject t = (r+s) mod n = 0: the exact acceptance set is proved, and the t = 0 acceptance is proved as a violation."
 },
 "C13": {
  "status": "partial",
  "note": "False of the code at d = n-1 (key generation can return it; signing then loops/yields unverifiable output) and r = 0; exact condition proved."
 },
 "C15": {
  "note": "False of the code at one key: d = n-6 makes Decrypt recompute the shared point with the wrong ScalarMult (C15_key_n_minus_6_violated). Proved for every other generated key (C15_amd64_partial, real curve) and relative to any lawful curve (C15_roundtrip_partial); non-termination characterised exactly (C15_diverges_iff). The amd64 theorems are over exact field arithmetic (see C115).",
  "status": "partial"
 },
 "C17": {
  "status": "partial",
  "note": "Decrypt panics exactly on inputs below the header size; the 'never panics' half is false and its negation is proved."
 },
 "C57": {
  "status": "partial",
  "note": "Go recoding, tables and loops over the assembly's point formulas on the real curve, with exact field arithmetic. The assembly's field arithmetic is exact only when no carry is lost; C115 carries the theorem over to it under that condition and gives inputs where it fails. ScalarMult is wrong exactly at k = n-6 mod n, proved as an iff and as a violation."
 },
 "C58": {
  "status": "partial",
  "note": "C58_ideal_partial: addition chain over exact arithmetic, all elements. C58_real_partial: the real arithmetic, when no carry is lost. C58_one_violated: the inverse of 1 is wrong."
 },
 "C59": {
  "status": "partial",
  "note": "Violated: the value computed over exact multiplication modulo n is proved (C59_value_partial) and that it is not the inverse (C59_inverse_violated). The assembly's squaring is not exact either (C131): C131_inverse_violated evaluates Inverse with the routines as they are."
 },
 "C61": {
  "status": "partial",
  "note": "Violated: exact divergence condition is C15_diverges_iff; a concrete key and nonce for which Encrypt never returns is C61_encrypt_diverges_violated.",
  "extra": [
   "Verif.Sm2.C15_diverges_iff"
  ]
 },
 "C20": {
  "status": "partial",
  "note": "Parsing and the decision on (r,s) are proved outright; sign-then-verify through the exported helpers fails where r+s = n-6 mod n (ScalarMult defect) and Sm2KeyGen drops the generation error (proved violation)."
 },
 "C62": {
  "status": "partial",
  "note": "Exact accepted form proved; trailing data is accepted (proved violation)."
 },
 "C63": {
  "status": "partial",
  "note": "Round trip proved for every generated key except d = n-6; release only if the hash matches is proved outright."
 },
 "C64": {
  "status": "partial",
  "note": "Violated; the exact panic set of DecryptAsn1 is proved."
 },
 "C65": {
  "status": "partial",
  "note": "Violated: a ciphertext with an off-curve C1 is accepted (proved)."
 },
 "C22": {
  "status": "partial",
  "note": "Round trip proved for every non-empty data and every password, cipher and randomness, and for private-key PEMs under non-empty passwords; empty data and the empty password violate it (proved)."
 },
 "C66": {
  "status": "partial",
  "note": "Violated; the exact panic set is proved."
 },
 "C67": {
  "status": "partial",
  "note": "Violated on both sides (proved): the cipher choice has no effect on the bytes."
 },
 "C69": {
  "status": "partial",
  "note": "Violated (proved); what is guaranteed, 0 <= d < n with a recomputed point, is C21_range_checked.",
  "extra": [
   "Verif.Keys.C21_range_checked"
  ]
 },
 "C70": {
  "status": "partial",
  "note": "Violated for configs returned by GetConfigForClient (C70_issue_panics_violated); proved for a server using its own config (C70_server_config_never_panics_partial)."
 },
 "C71": {
  "status": "partial",
  "note": "A SessionTicketKey on the config returned by GetConfigForClient is ignored (proved violation); the other two cases of the documented precedence are proved."
 },
 "C72": {
  "status": "partial",
  "note": "Proved for completed TLS 1.0-1.2/GMSSL connections and non-negative lengths; the other cases panic (proved violation)."
 },
 "C73": {
  "status": "partial",
  "note": "Violated: the two PRF inputs are proved different for every transcript, and at the level of the two ends' handshake code (C73_resumed_handshake_violated): a GM client accepts a GM server's resumption only at a collision of the truncated PRF. The non-resumed handshake is C74."
 },
 "C37": {
  "status": "partial",
  "note": "Proved for servers and clients whose range is not empty. False in two respects, both proved: with MinVersion > MaxVersion the code agrees to a version below the minimum, and a client clamps a ServerHello version above its offer instead of refusing it."
 },
 "C38": {
  "status": "partial",
  "note": "Proved in full for servers (standard and GM), both directions; clients do not check that the suite fits the version (violation proved)."
 },
 "C39": {
  "status": "partial",
  "note": "Proved for servers; a client accepts any protocol the server names (violation proved)."
 },
 "C40": {
  "status": "partial",
  "note": "getCertificate proved exactly; BuildNameToCertificate does not lower-case, so names with capitals are never found, and the GM server ignores the name altogether (violations proved). strings.ToLower is a parameter."
 },
 "C51": {
  "note": "Server (both kinds) as an equivalence, client, and authenticity of the ticket via C34."
 },
 "C52": {
  "status": "partial",
  "note": "Holds for full handshakes; on resumption the check is skipped (violation proved)."
 },
 "C75": {
  "status": "partial",
  "note": "Holds when the configuration restricts versions to SSL 3.0-TLS 1.2; false with the default range: versions 0x0102-0x02ff are accepted and panic (violation proved)."
 },
 "C76": {
  "status": "partial",
  "note": "False of the code; the negation is proved for every configuration and every suitable unverified session. It holds when all clients that share the cache verify: C146_authentic, for every history."
 },
 "C80": {
  "status": "partial",
  "note": "Proved when no certificate of the pools limits the path length and no intermediate is also a root; false in general (C80_complete_violated: a concrete pool with a valid chain that Verify rejects in one order and accepts in the other)."
 },
 "C48": {
  "note": "Chain validity as an explicit specification (Spec.ValidChain), key usage as an equivalence, termination for every pool. RSA/DSA/ECDSA verification, net.ParseIP and strings.EqualFold are parameters; the SM2 branch is the modelled sm2.Verify."
 },
 "C32": {
  "note": "All fourteen message types and session states; C32_round_trip is one statement over a sum type of all messages as readHandshake decodes them. WellFormed says: every variable-length field fits its length field, lists the parser requires to be non-empty are, flag-guarded fields are absent without the flag. C32_certificate_empty_refused: a certificate list whose last certificate is empty is encoded but refused by the parser."
 },
 "C33": {
  "note": "Every index and slice expression is modelled as panicking when out of range; C33_read_handshake covers the dispatch over all types, for every input with at least one byte (readHandshake guarantees four)."
 },
 "C44": {
  "status": "partial",
  "note": "The full statement fails when the encryption key's private scalar is n-6 on the generic path (C44_key_n_minus_6_violated) or when Encrypt diverges; proved for all other keys, for the generic and for the amd64 curve."
 },
 "C45": {
  "status": "partial",
  "note": "C45_panics_iff_partial gives the exact set of bodies on which the server panics; C45_violated exhibits that the full claim is false; C45_released bounds what is released."
 },
 "C46": {
  "status": "partial",
  "note": "Proved: the ServerKeyExchange check (C46_skx_*) and everything else a completing GM client has checked (C46_handshake_partial). False of the code: the message is mandatory; any server with acceptable certificates may leave it out (C46_skx_omitted_violated)."
 },
 "C47": {
  "note": "Server side, standard and GM, full handshakes and resumptions, all client message sequences; signature verification, x509 verification and hash functions are parameters of the environment."
 },
 "C81": {
  "status": "partial",
  "note": "Proved with the laws of the curves, X25519 and RSA as hypotheses (Spec.KaLaw, Spec.RsaLaw, met in examples), for the standard key agreements. Violated (theorem) for a server with an SM2 certificate at TLS 1.2, whose ServerKeyExchange no client accepts. SSL 3.0 RSA framing is outside the RSA theorem."
 },
 "C82": {
  "status": "partial",
  "note": "Proved for the standard client. For the GM ECDHE client the signature is proved to be required, but the signed value is not used when the curve id is 29: the premaster secret is then X25519 of zeros (theorem _violated). RSA/ECDSA verification are parameters."
 },
 "C83": {
  "status": "partial",
  "note": "Proved for the standard server functions, ECDHE ServerKeyExchange processing and the ECDHE client. Violated: RSA suites with a non-RSA server certificate (CVE-2021-34558), GM ECDHE client with an unknown signed curve id, GM ECDHE server functions."
 },
 "C79": {
  "status": "partial",
  "note": "Proved for clients that do not allow renegotiation; for the others it is false: every accepted end of a handshake is also accepted without ChangeCipherSpec (C79_ccs_skipped_violated)."
 },
 "C85": {
  "status": "partial",
  "note": "False of the code; proved that no server whose first three certificates need an intermediate is ever accepted."
 },
 "C54": {
  "note": "Policy: the count of handshakes started in the whole life of a connection (any calls, any bytes from the peer, any handshake code) is bounded by the policy; permitted requests are honoured, refused ones kill the writing half. Identity: a renegotiation completes only with the leaf certificate of the first handshake, both clients."
 },
 "C87": {
  "status": "partial",
  "note": "Proved when the first ServerHello announced secure renegotiation, and for the standard client's hello. False otherwise: without the announcement any value is accepted (C87_unannounced_violated); the GM client never sends the extension (C87_gm_client_violated)."
 },
 "C55": {
  "status": "partial",
  "note": "Proved for the signing pair of GMX509KeyPairs and for SM2 and ECDSA keys in X509KeyPair and GMX509KeyPairsSingle; honest pairs load. False for the encryption pair: the encryption key text is never examined and no encryption private key is returned (C55_enc_key_violated); for RSA only the modulus is compared, not the public exponent (C55_exponent_violated)."
 },
 "C96": {
  "status": "partial",
  "note": "The property as stated is false of the code; the theorems prove the negations (any IP of another length; an empty exclusion; a panic)."
 },
 "C101": {
  "status": "partial",
  "note": "violated by the code: trailing bytes inside the outer SEQUENCE are ignored; theorem C101_unique_encoding_violated"
 },
 "C104": {
  "status": "partial",
  "note": "violated by the code for SM2 keys: the named digest is ignored; theorems C104_*_violated"
 },
 "C105": {
  "status": "partial",
  "note": "proved for SM2 keys with the default algorithm or SM2 with SM3; false for RSA keys (unsigned, nil error) and the other SM2 algorithms (read as ECDSA), proved as C105_*_violated"
 },
 "C106": {
  "status": "partial",
  "note": "violated by the code; the partial theorem is the exact condition under which it holds"
 },
 "C110": {
  "status": "partial",
  "note": "holds for ECDHE and RSA; for GM the first length byte is ignored (C110_gm_violated, C110_gm_long_violated)"
 },
 "C111": {
  "status": "partial",
  "note": "holds for the last NameConstraints extension; earlier ones are overwritten (C111_repeated_violated)"
 },
 "C112": {
  "status": "partial",
  "note": "the kind of key is excluded, and C112_key_kind_violated shows it must be"
 },
 "C113": {
  "status": "partial",
  "note": "condition: no reduction step loses a carry (decidable, checked on concrete operands); C113_one_violated and C113_to_montgomery_violated show it cannot be dropped"
 },
 "C114": {
  "status": "partial",
  "note": "conditions: no lost carry in the field operations; for additions, points different and not infinity (the formulas are incomplete, the callers guard this, see C57)"
 },
 "C115": {
  "status": "partial",
  "note": "condition: no lost carry (and k != n-6 for ScalarMult); violated without it (C115_times_one_violated, C115_n_minus_6_violated)"
 },
 "C116": {
  "status": "partial",
  "note": "right except at one residue (C116_isZero_partial); C116_flag_violated gives two points of the curve"
 },
 "C117": {
  "status": "partial",
  "note": "the result is always congruent to -y; C117_zero_violated and C117_affine_violated show it is not always reduced"
 },
 "C10": {
  "note": "C10_amd64 is over exact field arithmetic; the amd64 assembly meets it only for the nonces and keys for which no carry is lost (C115). C10_sign_verify and the other theorems hold for any lawful curve."
 },
 "C118": {
  "note": "crypto/elliptic is not in /repo; its published source (Go 1.16, the version in go.mod) is modelled in Sm2/Arm64/Model"
 },
 "C119": {
  "status": "partial",
  "note": "encryption without exception; signatures except the key n-1 and zero halves (C13), for which the code does not retry"
 },
 "C120": {
  "status": "partial",
  "note": "violated: exact condition (C120_oracle_violated) and a fixed ciphertext that tells the lowest bit of every key (C120_lowest_bit_violated)"
 },
 "C121": {
  "status": "partial",
  "note": "deadlock freedom, one handshake, finality of failure, Close in full; the clause about Write is violated (C121_write_refused_violated). That the protection of Close against a stuck Write works is C31"
 },
 "C122": {
  "status": "partial",
  "note": "full for peers that do not announce oversized handshake messages; with them violated (C122_unlocked_alert_violated)"
 },
 "C124": {
  "status": "partial",
  "note": "Violated: an accepted RSA or ECDSA certificate makes the client panic (C124_other_key_panic_violated) and the signature may be left out (C124_skx_omitted_violated). The rest is proved."
 },
 "C125": {
  "status": "partial",
  "note": "Violated: the caller's SessionTicketKey (or SessionTicketsDisabled) is modified by a dial (C125_argument_modified_violated); Listen accepts Configs with which the GM server answers no client (C125_listen_gm_violated). The rest is proved."
 },
 "C126": {
  "status": "partial",
  "note": "Violated: a SetSessionTicketKeys call that races with the first server handshake is lost (C126_keys_lost_violated, C126_disabled_violated), and rotation never reaches a Config already returned by GetConfigForClient (C126_rotation_unseen_violated). Without such a race it is proved for all schedules."
 },
 "C127": {
  "status": "partial",
  "note": "Violated: Validate accepts a repeated prime (C127_repeated_violated) and composite factors (C127_composite_violated), with which decryption is wrong; MarshalPKCS1PrivateKey silently returns an empty text for some keys (C127_marshal_empty_violated). For distinct primes it is proved."
 },
 "C128": {
  "status": "partial",
  "note": "Violated: without any file or directory neither a pool nor an error results (C128_nil_nil_violated), and a failed first load is remembered by Verify for ever (C128_never_again_violated). The rest is proved."
 },
 "C129": {
  "status": "partial",
  "note": "The code violates two parts, both proved: a GM client is shown as supporting no version at all (C129_gm_version_violated), and the kind of handshake (GM or TLS) is chosen from the original Config, so a returned Config of the other kind does not take effect (C129_kind_violated). Everything else is proved: C129_info_partial (the list of versions for TLS versions, all other fields for all clients), C129_returned_partial (same kind), C129_nil, C129_error."
 },
 "C131": {
  "status": "partial",
  "note": "Violated by the squaring. Proved: C131_ordMul for all operands; C131_ordSqr_count (n squarings are n single ones); C131_ordSqr_partial: for reduced operands a squaring is right exactly if none of its four steps loses a carry; C131_ordSqr_violated (the Montgomery form of one) and C131_inverse_violated (Inverse(1) with the routines as they are)."
 },
 "C135": {
  "status": "partial",
  "note": "Standard client proved (C135_standard). GM client (C135_gm_partial): everything except the mandatory ServerKeyExchange of the ECC suites, whose omission the code accepts (C46_skx_omitted_violated); also the single-certificate GM client is only covered up to the item level. Complete runs over bytes, full and resumed: toyRun_completes, toyRun2_completes.",
  "extra": [
   "toyRun_completes",
   "toyRun2_completes"
  ]
 },
 "C134": {
  "status": "partial",
  "note": "Proved for Handshake (C134_alert_sent). Violated by renegotiations: handleRenegotiation does not flush, the alert stays in the buffer and no later call (Close included) sends it: C134_renegotiation_violated."
 },
 "C136": {
  "status": "partial",
  "note": "Proved except for standard clients that allow renegotiation (C136_keys_partial); violated there: C136_clear_violated."
 },
 "C137": {
  "status": "partial",
  "note": "Proved for standard clients (C137_standard); violated by GM clients: C137_gm_unpinned, C137_gm_version_violated, C137_gm_helloRequest_violated."
 },
 "C139": {
  "status": "partial",
  "note": "Proved when tickets can be sealed (C139_alert_sent_partial); violated otherwise: C139_unsealed_violated."
 },
 "C145": {
  "status": "partial",
  "note": "All proved except the last sentence, which is false of the GM client with two certificates: it overwrites the chains with those of each later certificate (C145_gm_chains_violated, proved)."
 },
 "C146": {
  "status": "partial",
  "note": "All proved except 'a session is offered only to the server it came from', which is false: C146_renegotiation_violated and C146_address_violated (proved, for every history)."
 }
}