{"id": "C01", "title": "SM3 streaming is chunking-independent", "statement": "Writing a message to an SM3 hash in any sequence of Write calls (including empty ones) and then calling Sum gives the same 32 bytes as sm3.SumSM3 of the concatenated message.", "quantifier": "every byte sequence and every way of cutting it into any number of Write calls", "why_tests_cant": "There are exponentially many cuttings of unboundedly long messages; tests sample a few and the buffer boundary cases (nx+len crossing 64) are combinatorial.", "anchors": ["sm3/sm3.go: digest.Write, digest.Sum, digest.checkSum, SumSM3"]}
{"id": "C02", "title": "SM3 computes the GB/T 32905 function", "statement": "For every message shorter than 2^61 bytes the digest is the one of the standard: pad with 0x80, zeros and the 64-bit bit length, split into 64-byte blocks, expand, run 64 rounds with T_j<<<j, chain from the IV, serialise big-endian.", "quantifier": "every message of every length below 2^61 bytes", "why_tests_cant": "Test vectors cover a handful of messages; equality with the standard must hold for every message and every padding residue.", "anchors": ["sm3/sm3.go: digest.checkSum, Block", "sm3/sm3hash.go: cF, msgExp, leftRotate, Block"]}
{"id": "C03", "title": "SM3 Sum is a pure query and never panics", "statement": "Sum(in) returns in followed by exactly 32 bytes, never panics, and leaves the hash so that later Write/Sum calls behave as though Sum had not been called; Reset makes the object indistinguishable from a new one, whatever its history.", "quantifier": "every history of Write, Sum and Reset calls on one hash object", "why_tests_cant": "The claim ranges over all operation histories.", "anchors": ["sm3/sm3.go: digest.Sum, digest.Reset, digest.checkSum"]}
{"id": "C04", "title": "SM4 Decrypt inverts Encrypt", "statement": "For every cipher made by NewCipher, Decrypt(Encrypt(b)) = b and Encrypt(Decrypt(b)) = b; hence each direction is a bijection on 16-byte blocks.", "quantifier": "every 16-byte key and every 16-byte block (2^256 pairs)", "why_tests_cant": "The domain cannot be enumerated.", "anchors": ["sm4/sm4.go: NewCipher, cryptBlock, keyExp, Sm4Cipher.Encrypt, Sm4Cipher.Decrypt"]}
{"id": "C05", "title": "SM4 with tables equals the GB/T 32907 cipher", "statement": "The table-driven block function gives exactly the standard SM4 result (32 rounds of X_{i+4}=X_i xor L(tau(X_{i+1} xor X_{i+2} xor X_{i+3} xor rk_i)), reversed output) for encryption, and the same with reversed round keys for decryption; the four 256-entry tables are L applied to the S-box output in each byte position.", "quantifier": "every 16-byte key and every block", "why_tests_cant": "The tables have 1024 hand-copied words; a single wrong entry affects only some inputs and sampled vectors may miss it.", "anchors": ["sm4/const.go: sbox, sbox0, sbox1, sbox2, sbox3, fk, ck", "sm4/sm4.go: cryptBlock, keyExp"]}
{"id": "C06", "title": "SM4 rejects every key that is not 16 bytes", "statement": "NewCipher, Sm4Ecb and Sm4Cbc return an error carrying the key length for every key whose length is not 16, and NewCipher succeeds for every 16-byte key.", "quantifier": "all byte strings as key", "why_tests_cant": "Unbounded set of key lengths.", "anchors": ["sm4/sm4.go: NewCipher, Sm4Ecb, Sm4Cbc, KeySizeError"]}
{"id": "C07", "title": "SM4 ECB and CBC helpers round-trip", "statement": "For every 16-byte key and every message, decrypting (DEC) what was encrypted (ENC) in the same mode returns the message and no error; the ciphertext has length 16*(len/16+1).", "quantifier": "all messages of all lengths (including empty and multiples of 16), all keys", "why_tests_cant": "Unbounded message lengths times 2^128 keys.", "anchors": ["sm4/sm4.go: Sm4Ecb, Sm4Cbc, pkcs7Padding, pkcs7UnPadding"]}
{"id": "C08", "title": "PKCS#7 unpadding accepts exactly well-formed padding", "statement": "Unpadding succeeds exactly when the input ends in n copies of byte n for some 1<=n<=16, and then returns the input without them; ECB/CBC decryption should return an error for any other padding. (The code swallows that error: the caller gets nil data and nil error.)", "quantifier": "all block-aligned ciphertexts and keys", "why_tests_cant": "The malformed inputs form an unbounded set; which of them are reported is a universal claim.", "anchors": ["sm4/sm4.go: pkcs7UnPadding, Sm4Ecb, Sm4Cbc"]}
{"id": "C09", "title": "SM4 helper decryption never panics on hostile input", "statement": "Sm4Ecb/Sm4Cbc with DEC return (never panic) for every input; the exact set of inputs on which they panic is characterised.", "quantifier": "all byte strings as input, all keys", "why_tests_cant": "Needs a claim on all inputs; the panicking input set must be determined exactly.", "anchors": ["sm4/sm4.go: Sm4Ecb, Sm4Cbc, pkcs7UnPadding, cryptBlock"]}
{"id": "C10", "title": "SM2 Verify accepts every signature made by Sign", "statement": "If (r,s) is returned by Sign (or SignWithDigest) for a key with public point d*G, d not congruent -1 mod n, and r, s are both nonzero, then Verify (VerifyWithDigest) with that public key and message returns true.", "quantifier": "every private key, message, random stream, with any group of prime order n in the role of the curve", "why_tests_cant": "2^256 keys times 2^256 nonces.", "anchors": ["sm2/sm2.go: Sign, SignWithDigest, Verify, VerifyWithDigest, GenerateKey"]}
{"id": "C11", "title": "SM2 Verify accepts exactly the standard's equation and range", "statement": "Verify returns true iff 1<=r,s<=n-1 and (e + x(sG+tP)) mod n = r with t=r+s; in particular out-of-range or negative r, s are always rejected. The standard's extra check t mod n != 0 is missing: it is determined exactly when acceptance differs from the standard.", "quantifier": "all public keys, messages and integer pairs (r,s) (including negative and huge)", "why_tests_cant": "Infinite input set.", "anchors": ["sm2/sm2.go: Verify, VerifyWithDigest"]}
{"id": "C12", "title": "SM2 private keys and nonces lie in [1,n-1]", "statement": "For every output of the random reader the generated private key and every signing/encryption nonce lies in [1,n-1]; a reader that fails makes GenerateKey return an error (and no key).", "quantifier": "every behaviour of the random source", "why_tests_cant": "2^320 reader outputs.", "anchors": ["sm2/sm2.go: randFieldElement, _generateRandK, GenerateKey"]}
{"id": "C13", "title": "SM2 signatures produced are always standard-conformant", "statement": "Sign never returns r=0, s=0 or r+k=n (the standard demands a retry). The code has no such checks; the exact conditions under which Sign returns a signature that Verify rejects are given, including the private key d=n-1 for which every signature has s=0.", "quantifier": "all keys, messages, nonces", "why_tests_cant": "The failing cases have negligible probability, so no test hits them.", "anchors": ["sm2/sm2.go: Sign, SignWithDigest, GenerateKey"]}
{"id": "C14", "title": "SM2 identity hash input is an unambiguous encoding", "statement": "The Z-value preimage determines the identity and both public coordinates: two different (id, X, Y) with 256-bit coordinates never give the same preimage while len(id) < 8192 bytes; coordinates are always left-padded to 32 bytes.", "quantifier": "all identities and all public keys", "why_tests_cant": "Injectivity quantifies over all pairs.", "anchors": ["sm2/sm2.go: getZById, getZ"]}
{"id": "C15", "title": "SM2 Decrypt inverts Encrypt", "statement": "Whenever Encrypt(pub,m) returns a ciphertext, Decrypt with the matching private key returns m; the ciphertext is 04||X||Y||C3||C2 with length 97+len(m).", "quantifier": "every key, message and nonce; any commutative group of the right kind as the curve", "why_tests_cant": "Infinite message and key space.", "anchors": ["sm2/sm2enc.go: Encrypt, Decrypt, doEncrypt, pointToBytes, pointFromBytes, keyDerivation"]}
{"id": "C16", "title": "SM2 Decrypt releases plaintext only if the hash check passes", "statement": "If Decrypt returns (m, nil) then C3 = SM3(x2||m||y2) and C2 = m xor KDF(x2||y2, len) for (x2,y2)=d*C1; every other ciphertext of sufficient length gives DecryptionErr and no plaintext, so altering C3 or C2 alone without also finding a new SM3 (pre)image is rejected.", "quantifier": "all ciphertext byte strings and keys", "why_tests_cant": "Ranges over all (adversarial) ciphertexts.", "anchors": ["sm2/sm2enc.go: Decrypt"]}
{"id": "C17", "title": "SM2 Decrypt never panics on malformed ciphertext", "statement": "Decrypt should return an error, not panic, for every byte string. The code panics for every input shorter than 97 bytes and every input whose first byte is not 4; these are exactly the cases rejected only by panic.", "quantifier": "all byte strings as ciphertext", "why_tests_cant": "All inputs.", "anchors": ["sm2/sm2enc.go: Decrypt, pointFromBytes"]}
{"id": "C18", "title": "SM2 key derivation is the standard KDF", "statement": "keyDerivation(Z, 8*n) returns exactly n bytes, equal to the first n bytes of SM3(Z||1)||SM3(Z||2)||..., so a shorter request is a prefix of a longer one.", "quantifier": "all Z and all lengths up to 2^32-1 blocks", "why_tests_cant": "Unbounded lengths.", "anchors": ["sm2/sm2enc.go: keyDerivation"]}
{"id": "C19", "title": "SM2 point encoding round-trips and is strict", "statement": "pointFromBytes(pointToBytes(x,y)) = (x,y) for all 256-bit coordinates, encoding is always 65 bytes starting with 4, and decoding accepts exactly the 65-byte strings starting with 4.", "quantifier": "all coordinates and all byte strings", "why_tests_cant": "2^512 pairs, including coordinates with leading zero bytes.", "anchors": ["sm2/sm2enc.go: pointToBytes, pointFromBytes"]}
{"id": "C20", "title": "SM2 signature DER wrapper", "statement": "PublicKey.Verify accepts the DER bytes produced by PrivateKey.Sign exactly when the pair (r,s) verifies; parsing the encoding returns the same pair of integers.", "quantifier": "all integer pairs r,s", "why_tests_cant": "All integers; sign-bit and leading zero boundary cases.", "anchors": ["sm2/external.go: PrivateKey.Sign, PublicKey.Verify, Sm2Sign, Sm2Verify"]}
{"id": "C21", "title": "EC private key encoding round-trips and is range-checked", "statement": "Marshalling a private key and parsing it back returns the same scalar (fixed 32-byte encoding); parsing accepts no scalar >= n, no wrong version and no unknown curve.", "quantifier": "all scalars and all private-key byte strings", "why_tests_cant": "2^256 scalars; leading zeros matter.", "anchors": ["x509/sec1.go: parseECPrivateKey, marshalECPrivateKeyWithOID", "utils/keys.go: PrivateKeyToPEM, PEMtoPrivateKey"]}
{"id": "C22", "title": "Password-encrypted PEM round-trips", "statement": "DecryptPEMBlock(EncryptPEMBlock(data, pwd), pwd) returns data for every data and password; padding is always 1..16 bytes.", "quantifier": "all data lengths, passwords and salts/IVs", "why_tests_cant": "Unbounded lengths.", "anchors": ["x509/pem_decrypt.go: EncryptPEMBlock, DecryptPEMBlock, pbkdf"]}
{"id": "C23", "title": "PBKDF2 implementation equals RFC 8018", "statement": "pbkdf(P,S,c,dkLen) is the first dkLen bytes of T_1||T_2||... with T_i = U_1 xor ... xor U_c.", "quantifier": "all passwords, salts, iteration counts and key lengths", "why_tests_cant": "All parameters.", "anchors": ["x509/pem_decrypt.go: pbkdf"]}
{"id": "C24", "title": "TLS record sequence numbers never repeat under one key", "statement": "On each half connection the sequence number used for the i-th protected record since the last change of keys is i; it is reset only when new keys are installed; at 2^64-1 the code stops rather than wrap. Hence no (key, sequence number) pair is used twice, and AEAD nonces are distinct.", "quantifier": "every history of records and key changes", "why_tests_cant": "2^64 records cannot be tested.", "anchors": ["tls/conn.go: halfConn.incSeq, halfConn.changeCipherSpec, halfConn.encrypt, halfConn.decrypt"]}
{"id": "C25", "title": "TLS record protection round-trips", "statement": "A record encrypted by one side and decrypted by a peer half connection holding the same keys and sequence number returns the payload; the two sides stay synchronised over any sequence of records.", "quantifier": "all payloads, all cipher kinds (null, stream+MAC, CBC+MAC with or without explicit IV, AEAD), all versions", "why_tests_cant": "Unbounded payloads and histories.", "anchors": ["tls/conn.go: halfConn.encrypt, halfConn.decrypt, padToBlockSize, extractPadding"]}
{"id": "C26", "title": "TLS record layer accepts only authenticated records in order", "statement": "A protected record is accepted only if its MAC (resp. AEAD tag) verifies for the current sequence number, record type, version and length; therefore a replayed, dropped or reordered record is accepted only with a MAC valid for a different sequence number.", "quantifier": "all received byte strings and sequence numbers", "why_tests_cant": "Adversarial input.", "anchors": ["tls/conn.go: halfConn.decrypt"]}
{"id": "C27", "title": "CBC padding check equals its specification", "statement": "The constant-time padding check says good exactly when the last byte p satisfies p+1<=len and the last p+1 bytes all equal p, and then removes exactly p+1 bytes (SSLv3: p < block size, only the count is checked).", "quantifier": "all decrypted payloads of any length", "why_tests_cant": "256 padding values times unbounded lengths; the bit tricks have corner cases.", "anchors": ["tls/conn.go: extractPadding, extractPaddingSSL30"]}
{"id": "C28", "title": "Record fragmentation is lossless and bounded", "statement": "The payloads of the records produced for one Write concatenate to exactly the data; each is nonempty and at most 16384 bytes.", "quantifier": "all data lengths, byte/packet counters, versions and cipher suites", "why_tests_cant": "Unbounded data and counters.", "anchors": ["tls/conn.go: writeRecordLocked, maxPayloadSizeForWrite, Write"]}
{"id": "C29", "title": "Handshake message reassembly is fragmentation-independent", "statement": "The sequence of handshake messages delivered depends only on the concatenation of the handshake record payloads, not on how they are cut into records; messages over 65536 bytes are refused.", "quantifier": "all byte streams and all cuttings", "why_tests_cant": "All fragmentations.", "anchors": ["tls/conn.go: readHandshake, readRecord"]}
{"id": "C30", "title": "Record reader rejects malformed framing and errors are sticky", "statement": "A record with wrong version (after negotiation), ciphertext over 18432 or plaintext over 16384 bytes, wrong type, or the 6th consecutive warning alert makes the read fail, and after a fatal failure every later read fails.", "quantifier": "all byte streams from the peer", "why_tests_cant": "Adversarial byte streams.", "anchors": ["tls/conn.go: readRecord, halfConn.setErrorLocked"]}
{"id": "C31", "title": "Close and Write interlock", "statement": "After Close has been called no Write that starts later sends data; Close called twice returns errClosed; the close_notify alert is sent at most once; in-flight writers are counted exactly.", "quantifier": "all interleavings of any number of goroutines calling Write, Close, CloseWrite", "why_tests_cant": "All schedules.", "anchors": ["tls/conn.go: Conn.Write, Conn.Close, Conn.CloseWrite, closeNotify"]}
{"id": "C32", "title": "TLS handshake messages round-trip", "statement": "For every well-formed value of every handshake message type, unmarshal(marshal(m)) succeeds and gives m.", "quantifier": "all well-formed message values (all lists, strings, extension combinations)", "why_tests_cant": "Unbounded product of variable-length fields.", "anchors": ["tls/handshake_messages.go: all marshal/unmarshal methods", "tls/gm_handshake_messages.go", "tls/ticket.go: sessionState.marshal, sessionState.unmarshal"]}
{"id": "C33", "title": "TLS message parsers never panic", "statement": "Every unmarshal method returns true or false and never indexes out of range, for every input.", "quantifier": "all byte strings", "why_tests_cant": "All inputs.", "anchors": ["tls/handshake_messages.go", "tls/gm_handshake_messages.go", "tls/ticket.go"]}
{"id": "C34", "title": "Session tickets round-trip and are authenticated", "statement": "decryptTicket(encryptTicket(s)) = s under the same key set; a ticket is accepted only if at least 64 bytes long, its key name is known and its MAC verifies under that key; every other ticket is ignored.", "quantifier": "all session states, ticket byte strings, key sets", "why_tests_cant": "Adversarial tickets.", "anchors": ["tls/ticket.go: encryptTicket, decryptTicket"]}
{"id": "C35", "title": "Session ticket key rotation", "statement": "After SetSessionTicketKeys, new tickets use the first key; tickets made with any listed key are still accepted, flagged old exactly when the key is not first; tickets under dropped keys are refused.", "quantifier": "all key lists and rotation histories", "why_tests_cant": "All histories.", "anchors": ["tls/ticket.go: decryptTicket", "tls/common.go: Config.SetSessionTicketKeys, ticketKeyFromBytes"]}
{"id": "C36", "title": "LRU session cache refines a bounded LRU map", "statement": "The client session cache never holds more than its capacity, never holds two entries for a key, Get returns the last value Put for that key unless evicted, and the evicted entry is the least recently used one.", "quantifier": "all Put/Get histories, all capacities", "why_tests_cant": "All histories.", "anchors": ["tls/common.go: NewLRUClientSessionCache, lruSessionCache.Put, lruSessionCache.Get"]}
{"id": "C37", "title": "Version negotiation picks the highest mutual version", "statement": "The negotiated version is the highest one within the configured range and not above the peer's offer; a server refuses exactly the offers below its minimum, and a client uses only versions in its range that the server announced.", "quantifier": "all configured ranges and client versions", "why_tests_cant": "All uint16 combinations times configs.", "anchors": ["tls/common.go: Config.mutualVersion, minVersion, maxVersion"]}
{"id": "C38", "title": "Cipher suite choice is mutual and follows the preference order", "statement": "The server picks a suite offered by the client, enabled by its configuration and usable with the version and key, and it is the first such in the preference list (server's or client's); otherwise it refuses the handshake. A client goes on only with a suite that it offered and that fits the version.", "quantifier": "all client and server lists", "why_tests_cant": "All lists.", "anchors": ["tls/handshake_server.go: setCipherSuite, readClientHello", "tls/gm_handshake_server_double.go", "tls/cipher_suites.go: mutualCipherSuite"]}
{"id": "C39", "title": "ALPN selection is mutual", "statement": "The protocol a server announces is the first of its own list that the client offers, and none if there is none; a client accepts only a protocol it offered.", "quantifier": "all protocol lists", "why_tests_cant": "All lists.", "anchors": ["tls/handshake_client.go: mutualProtocol", "tls/handshake_server.go"]}
{"id": "C40", "title": "Server certificate selection by name", "statement": "A server presents the certificate registered under the lower-cased SNI name with trailing dots stripped, else the one under the name with its leftmost label (or more labels) replaced by *, else the first certificate; a certificate that names the requested host is found.", "quantifier": "all names and certificate maps", "why_tests_cant": "All names.", "anchors": ["tls/common.go: Config.getCertificate, BuildNameToCertificate"]}
{"id": "C41", "title": "Key material is derived identically and partitioned", "statement": "keysFromMasterSecret cuts the PRF stream into non-overlapping MAC, key and IV pieces of the requested lengths; client-write of one side equals client-read of the other; client and server directions never share bytes.", "quantifier": "all secrets, randoms and lengths", "why_tests_cant": "All inputs.", "anchors": ["tls/prf.go: keysFromMasterSecret, prf12, pHash"]}
{"id": "C42", "title": "P_hash equals RFC 5246 and PRF prefix property", "statement": "pHash fills exactly the requested number of bytes with the prefix of HMAC(s,A1||seed)||HMAC(s,A2||seed)||...", "quantifier": "all secrets, seeds and output lengths", "why_tests_cant": "All lengths.", "anchors": ["tls/prf.go: pHash, prf10, prf12, splitPreMasterSecret"]}
{"id": "C43", "title": "Keying material exporter guards", "statement": "Exporting keying material refuses reserved labels and contexts of 65536 bytes or more, and the PRF seed distinguishes a missing from an empty context and is injective in the context.", "quantifier": "all labels, contexts, lengths", "why_tests_cant": "All inputs.", "anchors": ["tls/prf.go: ekmFromMasterSecret / noExportedKeyingMaterial"]}
{"id": "C44", "title": "GM ECC key agreement yields the same premaster secret", "statement": "For every 48-byte premaster the server recovers from the client's key exchange message the same premaster the client used.", "quantifier": "all premasters, keys, nonces", "why_tests_cant": "Infinite space.", "anchors": ["tls/gm_key_agreement.go: eccKeyAgreementGM"]}
{"id": "C45", "title": "GM server survives malformed ClientKeyExchange", "statement": "Processing any ClientKeyExchange body returns a key or an error, never panics. The code violates this: short bodies and ciphertexts panic; the exact set is given.", "quantifier": "all message bodies", "why_tests_cant": "Adversarial input.", "anchors": ["tls/gm_key_agreement.go: eccKeyAgreementGM.processClientKeyExchange"]}
{"id": "C46", "title": "GM client always authenticates the server key exchange", "statement": "A GM client completes the handshake only if it verified the server's signature over both randoms and the encryption certificate. The code violates this when the server omits the ServerKeyExchange message.", "quantifier": "all server message sequences", "why_tests_cant": "Adversarial peer.", "anchors": ["tls/gm_handshake_client_double.go: doFullHandshake", "tls/gm_key_agreement.go: processServerKeyExchange"]}
{"id": "C47", "title": "Client authentication policy is enforced", "statement": "If the server's policy requires a client certificate, no handshake completes without one (and, for verifying policies, without a valid chain), and whenever a certificate is presented, possession of its key is proved by a verified CertificateVerify.", "quantifier": "all client message sequences and policies", "why_tests_cant": "Adversarial peer.", "anchors": ["tls/handshake_server.go: doFullHandshake, processCertsFromClient", "tls/gm_handshake_server_double.go"]}
{"id": "C48", "title": "Certificate chains returned by Verify are valid chains", "statement": "Every chain returned starts with the leaf, ends with a certificate of the root pool, each certificate is signed by the next, all are within validity at the given time, CA flags and path lengths hold, host name and requested key usage are satisfied.", "quantifier": "all certificate pools (cyclic ones included) and options", "why_tests_cant": "All pools.", "anchors": ["x509/verify.go: Verify, buildChains, isValid, checkChainForKeyUsage"]}
{"id": "C49", "title": "Host name matching", "statement": "A certificate pattern matches a host iff they have the same number of labels, each nonempty-required label equal (case-insensitively) except that a leftmost * matches one label; SANs override the common name.", "quantifier": "all names", "why_tests_cant": "All strings.", "anchors": ["x509/verify.go: matchHostnames, VerifyHostname, toLowerCaseASCII"]}
{"id": "C50", "title": "CertPool is a set with consistent indices", "statement": "Adding a certificate twice is the same as adding it once; contains/findVerifiedParents/Subjects agree with the list of added certificates.", "quantifier": "all AddCert histories", "why_tests_cant": "All histories.", "anchors": ["x509/cert_pool.go"]}
{"id": "C51", "title": "Session resumption only with matching parameters", "statement": "A server resumes a session only if the ticket is authentic, has the same version and a cipher suite that the client offers now and the server still allows, and client certificates agree with the auth policy.", "quantifier": "all tickets, hellos and configurations", "why_tests_cant": "Adversarial tickets.", "anchors": ["tls/handshake_server.go: checkForResumption", "tls/gm_handshake_server_double.go"]}
{"id": "C52", "title": "Downgrade protection by FALLBACK_SCSV", "statement": "A server that supports a higher version than the one offered refuses a hello containing TLS_FALLBACK_SCSV.", "quantifier": "all hellos", "why_tests_cant": "All hellos.", "anchors": ["tls/handshake_server.go", "tls/gm_handshake_server_double.go"]}
{"id": "C53", "title": "Buffer overlap predicates", "statement": "AnyOverlap is true iff the two nonempty byte ranges share an address; InexactOverlap iff they overlap and do not start at the same address.", "quantifier": "all pairs of slices", "why_tests_cant": "All addresses and lengths.", "anchors": ["internal/subtle/aliasing.go"]}
{"id": "C54", "title": "Renegotiation policy", "statement": "A client honours a HelloRequest only as its policy permits (never / once / freely) and a renegotiation never changes the server identity.", "quantifier": "all histories", "why_tests_cant": "All histories.", "anchors": ["tls/conn.go: handleRenegotiation", "tls/handshake_client.go"]}
{"id": "C55", "title": "Loaded GM key pairs match their certificates", "statement": "Every loader of a certificate with its key (X509KeyPair, GMX509KeyPairsSingle, GMX509KeyPairs) returns only private keys that belong to the certificates they are returned with, and loads every honest pair. GMX509KeyPairs: the signing pair is checked; the encryption key PEM is never examined and its private key is not returned.", "quantifier": "all PEM inputs", "why_tests_cant": "All inputs.", "anchors": ["tls/gm_support.go: getCert, getKey, matchKeyCert, GMX509KeyPairs, GMX509KeyPairsSingle", "tls/tls.go: X509KeyPair, parsePrivateKey"]}
{"id": "C56", "title": "SM4 encryption leaves the caller's memory alone", "statement": "Sm4Ecb/Sm4Cbc in ENC mode do not modify the byte array the input slice points into. (The code pads with append on the caller's slice: when the slice has spare capacity the bytes after the message are overwritten; the exact effect is given, the message bytes themselves are never changed.)", "quantifier": "all backing arrays and slice lengths", "why_tests_cant": "Depends on len/cap relation for every slice; the effect is outside the returned value so tests do not look at it.", "anchors": ["sm4/sm4.go: pkcs7Padding, Sm4Ecb, Sm4Cbc"]}
{"id": "C57", "title": "Scalar multiplication returns the right multiple", "statement": "On amd64, ScalarBaseMult(k), PreScalarMult(table(Q),k), CombinedMult(table(Q),s,t) and ScalarMult(Q,k) return the affine coordinates of k*G, k*Q, s*G+t*Q and k*Q. The code violates this for ScalarMult exactly when k = n-6 (mod n): the last window addition adds a point to itself with the incomplete formula and the result is the point at infinity.", "quantifier": "all scalars (byte strings of any length) and all points of the group", "why_tests_cant": "2^256 scalars times 2^256 points; the failing scalar is a single residue.", "anchors": ["sm2/sm2p256_amd64.go: ScalarMult, ScalarBaseMult, PreScalarMult, CombinedMult, p256ScalarMult, p256BaseMult, p256PreMult, boothW5, boothW7, initTable, InitPubKeyTable", "sm2/sm2p256_amd64.s: sm2p256PointAddAsm, sm2p256PointDoubleAsm, sm2p256PointAddAffineAsm"]}
{"id": "C58", "title": "Field inversion is correct", "statement": "p256Inverse returns the inverse of every nonzero field element and zero for zero, so that affine conversion is right for every Jacobian point.", "quantifier": "all field elements", "why_tests_cant": "2^256 elements; an addition chain with one wrong step count is wrong almost everywhere but the claim is for all.", "anchors": ["sm2/sm2p256_amd64.go: p256Inverse, p256PointToAffine"]}
{"id": "C59", "title": "Inverse on the curve object inverts modulo the group order", "statement": "p256Curve.Inverse(k) is the inverse of k modulo n. The code violates this: the exponent is the one of NIST P-256, so it returns k^(n_NIST - 2) mod n.", "quantifier": "all integers k", "why_tests_cant": "All k.", "anchors": ["sm2/sm2p256_amd64.go: Inverse"]}
{"id": "C60", "title": "The domain parameters define a prime-order group", "statement": "p and n are prime, the curve is non-singular with a = -3, the base point lies on it and its order is exactly n.", "quantifier": "all residues (primality) and all multiples of the base point", "why_tests_cant": "Primality and order quantify over all divisors and multiples.", "anchors": ["sm2/sm2p256_amd64.go: initP256", "sm2/sm2p256_arm64.go"]}
{"id": "C61", "title": "Encrypt terminates", "statement": "Encrypt returns for every public key, message and randomness. The code violates this: when the key stream is all zero (probability 1/256 for one-byte messages) it loops forever, since the retry does not draw a new nonce.", "quantifier": "all keys, messages, random sources", "why_tests_cant": "Depends on the nonce; no test can exhibit non-termination for all inputs.", "anchors": ["sm2/sm2enc.go: Encrypt, doEncrypt"]}
{"id": "C62", "title": "Signature encoding is unique", "statement": "VerifyAsn1-style entry points accept exactly one byte string per signature pair (r,s): the canonical DER encoding, and reject trailing data. The code violates the second half: bytes after the SEQUENCE are ignored.", "quantifier": "all byte strings offered as a signature", "why_tests_cant": "All byte strings; malleability is a negative statement.", "anchors": ["sm2/external.go: Sm2Sign, Sm2Verify"]}
{"id": "C63", "title": "ASN.1 ciphertext round trip and integrity", "statement": "DecryptAsn1(EncryptAsn1(m)) = m for every key and message, and DecryptAsn1 releases a plaintext only when the C3 hash of the recomputed point and plaintext matches.", "quantifier": "all keys, messages, nonces, ciphertexts", "why_tests_cant": "All inputs, including DER length boundaries.", "anchors": ["sm2/sm2enc.go: EncryptAsn1, DecryptAsn1"]}
{"id": "C64", "title": "ASN.1 entry points never panic", "statement": "DecryptAsn1 and Sm2Verify return an error, and never panic, on arbitrary bytes. The code violates this (negative or over-long integers; wrong-length hash).", "quantifier": "all byte strings", "why_tests_cant": "All byte strings.", "anchors": ["sm2/external.go: Sm2Sign, Sm2Verify", "sm2/sm2enc.go: DecryptAsn1"]}
{"id": "C65", "title": "Decrypt checks the ephemeral point", "statement": "Decrypt rejects a ciphertext whose C1 is not a point of the curve, as GB/T 32918.4 step B1 requires. The code violates this: no check is made.", "quantifier": "all ciphertexts", "why_tests_cant": "Invalid-curve points outnumber any test.", "anchors": ["sm2/sm2enc.go: Decrypt"]}
{"id": "C66", "title": "DecryptPEMBlock never panics", "statement": "DecryptPEMBlock returns an error on every malformed block. The code violates this: it panics exactly when the IV is not 16 bytes, the ciphertext is not a multiple of 16, or the ciphertext is empty.", "quantifier": "all PEM blocks and passwords", "why_tests_cant": "All byte strings.", "anchors": ["x509/pem_decrypt.go: DecryptPEMBlock"]}
{"id": "C67", "title": "PEM cipher selection is honoured", "statement": "EncryptPEMBlock uses the cipher the caller asks for, and DecryptPEMBlock the cipher named in the block. The code violates both: AES-256 with a 32-byte key is always used.", "quantifier": "all cipher choices, data, passwords", "why_tests_cant": "All inputs.", "anchors": ["x509/pem_decrypt.go: EncryptPEMBlock, DecryptPEMBlock"]}
{"id": "C68", "title": "Public key encodings round-trip and are validated", "statement": "A public key on the curve survives MarshalPKIXPublicKey/ParsePKIXPublicKey and the PEM helpers (with or without password); whatever ParsePKIXPublicKey returns as an SM2 key is a point of the curve with reduced coordinates.", "quantifier": "all points, all byte strings offered as SubjectPublicKeyInfo", "why_tests_cant": "All points and all byte strings.", "anchors": ["x509/x509.go: MarshalPKIXPublicKey, ParsePKIXPublicKey, parsePublicKey", "utils/keys.go: PublicKeyToPEM, PEMtoPublicKey"]}
{"id": "C69", "title": "Parsed private keys are usable", "statement": "A private key accepted by the parser has a scalar in [1, n-2] and matches the embedded public key. The code violates this: the zero scalar is accepted and the embedded public key is ignored.", "quantifier": "all private-key byte strings", "why_tests_cant": "All byte strings.", "anchors": ["x509/sec1.go: parseECPrivateKey"]}
{"id": "C70", "title": "Issuing a session ticket never panics", "statement": "Whatever Config the server was started with and whatever Config GetConfigForClient returns, issuing a session ticket returns a ticket or an error. The code violates this: when the server's Config has tickets disabled, and the Config returned by GetConfigForClient has them enabled without SetSessionTicketKeys having been called, the key list is empty and issuing a ticket panics.", "quantifier": "all server configs, returned configs, randomness, session states", "why_tests_cant": "Needs every combination of the two configurations and their history of SetSessionTicketKeys calls.", "anchors": ["tls/common.go: Config.serverInit, Config.ticketKeys", "tls/ticket.go: Conn.encryptTicket", "tls/handshake_server.go: readClientHello"]}
{"id": "C71", "title": "Ticket key precedence with GetConfigForClient", "statement": "As the GetConfigForClient documentation says, the ticket keys used for a connection are the explicit keys of the returned Config, else its SessionTicketKey, else those of the original Config. The code violates the second case: a SessionTicketKey on the returned Config is never used.", "quantifier": "all original and returned configs", "why_tests_cant": "Ranges over all pairs of configurations.", "anchors": ["tls/common.go: Config.serverInit, Config.GetConfigForClient"]}
{"id": "C72", "title": "Exporting keying material never panics", "statement": "ExportKeyingMaterial on a ConnectionState returns the key material or an error. The code violates this: it panics before the handshake is complete, for a negative length, and for more than 176 bytes on an SSLv3 connection.", "quantifier": "all connection states, labels, contexts, lengths", "why_tests_cant": "All states and lengths.", "anchors": ["tls/common.go: ConnectionState.ExportKeyingMaterial", "tls/conn.go: ConnectionState", "tls/prf.go: ekmFromMasterSecret, prf30"]}
{"id": "C73", "title": "GM session resumption: both ends verify the same Finished", "statement": "When a GMSSL session is resumed the client and the server compute the Finished values from the same hash of the handshake messages, so an untampered abbreviated handshake completes. The code violates this: the server hashes the transcript with SHA-1, the client with SM3.", "quantifier": "all transcripts, master secrets", "why_tests_cant": "Ranges over all transcripts; the abbreviated GM handshake is not exercised.", "anchors": ["tls/gm_handshake_server_double.go: doResumeHandshake", "tls/gm_handshake_server.go: doResumeHandshake", "tls/gm_handshake_client_double.go", "tls/gm_support.go: newFinishedHashGM", "tls/prf.go: newFinishedHash"]}
{"id": "C74", "title": "Finished values are the standard's", "statement": "For every protocol version and any way of cutting the handshake messages into writes, the Finished values of client and server are the standard's function of the master secret and the concatenated handshake messages, in both the full and the abbreviated order; the certificate-verify hash likewise.", "quantifier": "all message sequences, versions, suites, master secrets", "why_tests_cant": "All transcripts; the SSLv3 computation consumes shared hash objects, so the order of calls matters.", "anchors": ["tls/prf.go: finishedHash.Write, Sum, clientSum, serverSum, finishedSum30, hashForClientCertificate"]}
{"id": "C75", "title": "Every version a server agrees to is supported", "statement": "Whatever version a ClientHello offers, a server either refuses it or completes the negotiation with a version for which the handshake hash exists; it does not panic.", "quantifier": "all hellos and configurations", "why_tests_cant": "65536 versions times configurations; hostile peers.", "anchors": ["tls/common.go: minVersion, mutualVersion", "tls/prf.go: prfAndHashForVersion, newFinishedHash", "tls/handshake_server.go: doFullHandshake, doResumeHandshake"]}
{"id": "C76", "title": "Resumption keeps server authentication", "statement": "A client configured to verify servers never completes a handshake by resuming a session whose server was never verified.", "quantifier": "all cached sessions and configurations", "why_tests_cant": "Depends on the history of a cache shared between configurations.", "anchors": ["tls/handshake_client.go: clientHandshake, processServerHello"]}
{"id": "C77", "title": "Honest peers agree on the negotiation", "statement": "If a server of this library accepts the hello of a client of this library at a version the client supports, the client accepts the answer, and both use the same version, a suite that fits it, the same application protocol and the same decision to resume. A client offers exactly its configured suites that are known and fit its maximum version.", "quantifier": "all pairs of configurations, cached sessions and tickets", "why_tests_cant": "All pairs of configurations.", "anchors": ["tls/handshake_client.go: makeClientHello, clientHandshake, processServerHello", "tls/handshake_server.go: readClientHello", "tls/gm_handshake_client_double.go", "tls/gm_handshake_server_double.go"]}
{"id": "C78", "title": "End-to-end delivery over a protected connection", "statement": "Between two ends holding matching keys, what one side writes - handshake messages, or application data through any sequence of Write calls - is exactly what the other side reads, in order and without loss, duplication or reordering, whatever the sizes of the writes, the sizes of the read buffers and the way the data is split into records.", "quantifier": "all connection histories, data, buffer sizes, versions and cipher suites", "why_tests_cant": "Unbounded streams, all record splittings and all buffer sizes.", "anchors": ["tls/conn.go: Conn.Write, Conn.Read, writeRecordLocked, readRecord, readHandshake"]}
{"id": "C79", "title": "The server's Finished counts only under the new keys", "statement": "A client completes a handshake only if the server's Finished message arrived after a ChangeCipherSpec, that is, protected with the keys just agreed. The code violates this for clients that allow renegotiation.", "quantifier": "all server message sequences and client configurations", "why_tests_cant": "Adversarial peer; the test suite's server always sends ChangeCipherSpec.", "anchors": ["tls/conn.go: readRecord", "tls/handshake_client.go: readFinished", "tls/gm_handshake_client_double.go: readFinished"]}
{"id": "C80", "title": "Verify finds a chain whenever one exists", "statement": "If a valid chain from the certificate to a root exists among the given pools (and key identifiers do not exclude it), Verify succeeds. The code violates this when a path length constraint is involved: a failure found on a longer path is cached and reused on a shorter one, so the outcome depends on the order of the intermediates.", "quantifier": "all certificate pools, cyclic ones included, and all options", "why_tests_cant": "All certificate graphs and orders.", "anchors": ["x509/verify.go: Verify, buildChains (cache)"]}
{"id": "C81", "title": "RSA and ECDHE key agreement: both ends get the same premaster secret", "statement": "The ServerKeyExchange an honest server makes is accepted by an honest client of this library, on a curve both configured; whatever ClientKeyExchange the client then sends, the server computes from it exactly the premaster secret the client holds. The same for the RSA key exchange, whose secret is 48 bytes beginning with the version the client offered.", "quantifier": "all versions, curves, signature algorithm lists, keys, random sources and randoms", "why_tests_cant": "All keys, randomness and configurations.", "anchors": ["tls/key_agreement.go: generateServerKeyExchange, processClientKeyExchange, processServerKeyExchange, generateClientKeyExchange"]}
{"id": "C82", "title": "ECDHE parameters are used only if the server signed them", "statement": "A client goes on with ECDHE parameters only if they name a supported curve and a public value, and carry a signature by the key in the server's certificate over the two randoms of this handshake and exactly these parameters, with an algorithm the client offered and of the kind the suite demands.", "quantifier": "all ServerKeyExchange messages, versions, certificate keys and randoms", "why_tests_cant": "All byte strings a network attacker can send.", "anchors": ["tls/key_agreement.go: (*ecdheKeyAgreement).processServerKeyExchange, hashForServerKeyExchange", "tls/gm_key_agreement.go: (*ecdheKeyAgreementGM).processServerKeyExchange", "tls/auth.go: pickSignatureAlgorithm, verifyHandshakeSignature"]}
{"id": "C83", "title": "Key exchange messages cannot crash the process", "statement": "Whatever the peer sends as ServerKeyExchange, Certificate or ClientKeyExchange, processing it and making the own key exchange message ends with a value or an error, never with a panic.", "quantifier": "all messages, certificate keys, curves and random sources", "why_tests_cant": "All byte strings a network attacker can send.", "anchors": ["tls/key_agreement.go", "tls/gm_key_agreement.go"]}
{"id": "C84", "title": "A completed standard client handshake authenticates the server", "statement": "If a standard client completes the first, full handshake of a connection, then the certificates it reports are those the server sent, verified for the configured name, roots and time (unless verification is off) and approved by the callback; the premaster secret was encrypted to the leaf's RSA key or agreed with ECDHE parameters signed by the leaf's key together with both randoms; and the server's Finished matches the master secret and the whole transcript.", "quantifier": "all server message sequences, configurations and cipher suites", "why_tests_cant": "Adversarial peer: all message sequences.", "anchors": ["tls/handshake_client.go: doFullHandshake, readFinished, readSessionTicket"]}
{"id": "C85", "title": "GM server certificates may be issued by intermediate CAs", "statement": "A GM client accepts a server whose signature and encryption certificates chain to a configured root through intermediate certificates that the server sends along. The code violates this: the first three certificates are verified with no intermediates at all.", "quantifier": "all certificate lists and root pools", "why_tests_cant": "Quantifies over all certificate lists.", "anchors": ["tls/gm_handshake_client_double.go: doFullHandshake"]}
{"id": "C86", "title": "The client sends the right certificate and proves possession of its key", "statement": "A client answers a certificate request with exactly one Certificate message: the first configured chain that fits the request (kind of key, issuer among the acceptable authorities), the callback's chain if there is a callback, or an empty list if none fits. If, and only if, the chain is not empty, it also signs all handshake messages so far with that chain's key, with an algorithm both sides listed.", "quantifier": "all requests, configured certificates, versions and transcripts", "why_tests_cant": "All combinations of requests and configurations.", "anchors": ["tls/handshake_client.go: doFullHandshake, getCertificate", "tls/gm_handshake_client_double.go: doFullHandshake, getCertificate", "tls/auth.go: pickSignatureAlgorithm"]}
{"id": "C87", "title": "A renegotiation is bound to the connection it happens on", "statement": "A client accepts a renegotiation only from the peer of the handshake before: its own hello repeats its previous Finished value and the ServerHello it accepts repeats both Finished values (RFC 5746). The code does this only if the first ServerHello announced it, and never sends the value in GM mode.", "quantifier": "all first and second ServerHellos, Finished values, configurations", "why_tests_cant": "All pairs of handshakes.", "anchors": ["tls/handshake_client.go: clientHandshake, processServerHello", "tls/gm_handshake_client_double.go: makeClientHelloGM, processServerHello", "tls/handshake_messages.go: clientHelloMsg.marshal"]}
{"id": "C88", "title": "Two honest ends complete a full handshake", "statement": "A client and a server that agree on what the hellos settle, where the server's certificate is acceptable to the client and its private key belongs to it, and where the client can answer a request for a certificate as the server's policy demands, complete the handshake: every message one sends is accepted by the other, with any combination of OCSP stapling, client authentication, NPN and session ticket, for RSA, ECDHE and the GM ECC suite. Both end with the same master secret and transcript, each with the certificates of the other, and nothing left unread.", "quantifier": "all configurations, certificates, randomness, hello bytes, versions TLS 1.0 - 1.2 and GMSSL 1.1", "why_tests_cant": "All combinations of options, keys and random values on both sides at once.", "anchors": ["tls/handshake_client.go: doFullHandshake, sendFinished, readSessionTicket, readFinished", "tls/handshake_server.go: doFullHandshake, readFinished, sendSessionTicket, sendFinished", "tls/gm_handshake_client_double.go", "tls/gm_handshake_server_double.go", "tls/key_agreement.go", "tls/gm_key_agreement.go"]}
{"id": "C89", "title": "CBC records carry fresh random IVs from TLS 1.1 on and in GM SSL", "statement": "Every record written with a CBC suite in TLS 1.1+, and in GM SSL (version 0x0101), is header, length, an IV, and the CBC encryption of payload, MAC and padding under that IV; the IVs of the records of a Write are consecutive disjoint blocks of the connection's random source. In SSL 3.0 and TLS 1.0 there is no IV on the wire and the chaining value is the last ciphertext block of the record before.", "quantifier": "all connections, block sizes and block ciphers, MACs, data lengths and random sources", "why_tests_cant": "a test observes a few records; that no IV is ever reused, predictable or missing is a statement about every write and version", "anchors": ["tls/conn.go: writeRecordLocked, encrypt, padToBlockSize"]}
{"id": "C90", "title": "CloseWrite sends one close_notify and nothing follows it", "statement": "CloseWrite before the handshake is complete is refused and sends nothing. The first successful CloseWrite sends exactly the alert warning/close_notify. Once CloseWrite has returned, calling it again sends nothing and reports the same result, and every later Write is refused without sending anything.", "quantifier": "all connection states, suites, data and transport outcomes", "why_tests_cant": "idempotence and finality must hold from every state a connection can be in", "anchors": ["tls/conn.go: CloseWrite, closeNotify, Write, sendAlertLocked"]}
{"id": "C91", "title": "KeyUsage survives certificate creation", "statement": "Whatever KeyUsage a template has, the extension CreateCertificate writes for it is parsed by ParseCertificate to the same usage bits, of the nine X.509 defines. Bits above the ninth are silently lost: a usage consisting of such bits only reads back as 0, which means unrestricted.", "quantifier": "all Go ints", "why_tests_cant": "2^64 values; the bit order, the optional second byte and the trailing-zero trimming interact", "anchors": ["x509/x509.go: buildExtensions, reverseBitsInAByte, asn1BitLength, parseCertificate"]}
{"id": "C92", "title": "Basic constraints survive certificate creation", "statement": "The CA flag and the path length limit a template expresses (MaxPathLen with MaxPathLenZero) are those of the parsed certificate, for every value.", "quantifier": "all CA flags, all 64-bit path lengths, both values of MaxPathLenZero", "why_tests_cant": "all ints, including negative ones and the zero that means unset", "anchors": ["x509/x509.go: buildExtensions, basicConstraints, parseCertificate"]}
{"id": "C93", "title": "A created certificate carries exactly the extensions of its template", "statement": "If the extensions of a template can be built, parsing them back succeeds and yields the template's key usage, extended key usages (known and unknown), basic constraints, key identifiers, OCSP and issuer URLs, DNS names, e-mails, IP addresses, policies, DNS name constraints with their criticality and CRL distribution points; Extensions holds the list verbatim and UnhandledCriticalExtensions exactly the critical extra extensions.", "quantifier": "all templates with encodable object identifiers, 4- or 16-byte IPs and non-empty DNS constraints; all extra extensions of kinds the parser does not know", "why_tests_cant": "twenty fields of unbounded lists in every combination", "anchors": ["x509/x509.go: buildExtensions, marshalSANs, parseSANExtension, parseCertificate"]}
{"id": "C94", "title": "A critical extension that is not understood is recorded, and Verify refuses the certificate", "statement": "After parsing, UnhandledCriticalExtensions holds exactly the critical extensions of an unknown kind and the critical subject alternative names without DNS name, e-mail or IP; Extensions holds all extensions as they are.", "quantifier": "all lists of extensions", "why_tests_cant": "the guarantee is about extensions nobody has thought of", "anchors": ["x509/x509.go: parseCertificate", "x509/verify.go: isValid"]}
{"id": "C95", "title": "ExtraExtensions are copied verbatim and override generated ones", "statement": "The extra extensions of a template appear verbatim and in order at the end of the certificate's extensions; no generated extension has the kind of an extra one, and no kind is generated twice.", "quantifier": "all templates and extra extensions for which building succeeds", "why_tests_cant": "all combinations of template fields and extra extensions", "anchors": ["x509/x509.go: buildExtensions, oidInExtensions"]}
{"id": "C96", "title": "A template that cannot be represented is refused", "statement": "A template whose content cannot be written faithfully is refused with an error. Violated: an IP address of another length than 4 or 16 bytes is written and the certificate cannot be parsed; an empty excluded DNS domain is written and reads back as no exclusion; an unknown ExtKeyUsage panics.", "quantifier": "all templates", "why_tests_cant": "tests use well-formed templates", "anchors": ["x509/x509.go: buildExtensions, marshalSANs, parseSANExtension, getDNSNames"]}
{"id": "C97", "title": "Algorithm identifiers written are the ones read back", "statement": "The signature algorithm CreateCertificate picks for a key and a requested algorithm is written with an identifier that ParseCertificate reads back as that algorithm, its digest is the algorithm's digest and its key kind is the signer's; the request is accepted exactly when it is the default, or a known algorithm for the signer's key kind (MD2 excepted).", "quantifier": "all key kinds and all requested algorithms", "why_tests_cant": "the table of identifiers and the table of lookups are separate and have overlapping OIDs; all pairs must agree", "anchors": ["x509/x509.go: signingParamsForPublicKey, getSignatureAlgorithmFromAI, signatureAlgorithmDetails"]}
{"id": "C98", "title": "CreateCertificate then ParseCertificate is the identity on the template", "statement": "A certificate CreateCertificate returns is parsed by ParseCertificate, and the result has the template's serial number, validity, subject, issuer, key, extensions and signature algorithm, and a signature over exactly its RawTBSCertificate.", "quantifier": "all templates, serial numbers, validity periods, names, extra extensions, SM2 keys and signers, with DER below 2^31 bytes", "why_tests_cant": "all lengths of all fields, nested DER lengths", "anchors": ["x509/x509.go: CreateCertificate, ParseCertificate, parseCertificate"]}
{"id": "C99", "title": "An issued certificate verifies under its issuer", "statement": "A certificate issued with an SM2 key, parsed, passes CheckSignatureFrom for every parent certificate that carries the issuer's public key and may sign certificates.", "quantifier": "all templates, keys, randomness and parents (but for the nonce cases of C10)", "why_tests_cant": "all keys, nonces and templates", "anchors": ["x509/x509.go: CreateCertificate, CheckSignatureFrom, checkSignature"]}
{"id": "C100", "title": "The signed bytes determine what a certificate says", "statement": "Raw of a parsed certificate is the whole input and RawTBSCertificate a part of it; two inputs with the same RawTBSCertificate are read as certificates that differ in Raw and Signature only.", "quantifier": "all byte strings that parse", "why_tests_cant": "an unsigned part that influences a field would be an attack; no finite set of inputs excludes it", "anchors": ["x509/x509.go: ParseCertificate, parseCertificate, certificate, tbsCertificate"]}
{"id": "C101", "title": "A certificate has one encoding", "statement": "No two different inputs are read as the same certificate. Violated: bytes put after the signature inside the outer SEQUENCE are ignored, so every certificate has other encodings that verify as well; what holds is that they differ in Raw only.", "quantifier": "all certificates and all appended bytes", "why_tests_cant": "needs every certificate and every appended string", "anchors": ["x509/x509.go: ParseCertificate, certificate"]}
{"id": "C102", "title": "Unknown critical extensions never pass Verify", "statement": "No chain Verify returns contains a certificate, read from any DER, with a critical extension of a kind the package does not process.", "quantifier": "all DER inputs, pools, options and chains", "why_tests_cant": "all inputs and chains", "anchors": ["x509/x509.go: parseCertificate, UnhandledCriticalExtensions", "x509/verify.go: isValid, Verify"]}
{"id": "C103", "title": "Issue then Verify", "statement": "A certificate issued with the key of a trusted CA certificate verifies with that CA as the only root at every time within both validity periods, and the chains returned are exactly leaf and CA.", "quantifier": "all CA certificates, templates, keys, randomness, times", "why_tests_cant": "composition of encoder, parser, signer, verifier and path builder for all inputs", "anchors": ["x509/x509.go: CreateCertificate, ParseCertificate", "x509/verify.go: Verify, buildChains"]}
{"id": "C104", "title": "The signature algorithm a certificate names is the one used", "statement": "A signature is checked and made with the digest the certificate names. Violated for SM2 keys: the check and the signature are SM2 with SM3 whatever SM2, ECDSA or RSA algorithm is named; what holds is that MD2, MD5 and unknown algorithms are refused.", "quantifier": "all algorithms, messages, signatures and keys", "why_tests_cant": "the label is checked against nothing for SM2 keys; needs all labels", "anchors": ["x509/x509.go: checkSignature, CreateCertificate"]}
{"id": "C105", "title": "A certificate request round-trips and its signature checks", "statement": "The request CreateCertificateRequest returns without an error is accepted by ParseCertificateRequest, which reads the subject, key, names and extensions of the template, and CheckSignature returns no error. Violated: for an RSA key the request is returned unsigned with a nil error; for an SM2 key with SM2WithSHA1 or SM2WithSHA256 the request is read back with an ECDSA key.", "quantifier": "all templates, keys, algorithms and randomness", "why_tests_cant": "all templates and lengths; the failing key kinds are outside the tests", "anchors": ["x509/x509.go: CreateCertificateRequest, ParseCertificateRequest, CheckSignature"]}
{"id": "C106", "title": "CreateCertificateRequest leaves its template alone", "statement": "After CreateCertificateRequest the template is as before. Violated: when an attribute of the template is an extension request with a value, the new extensions are appended to it in place; otherwise it holds.", "quantifier": "all template attributes and extensions", "why_tests_cant": "aliasing of slices between template and request; needs all shapes of attributes", "anchors": ["x509/x509.go: CreateCertificateRequest"]}
{"id": "C107", "title": "A revocation list round-trips and its signature checks", "statement": "A CRL made by CreateCRL with an SM2 key is parsed by ParseDERCRL with exactly the given revoked certificates (serial, time, extensions, order), issuer, times and the issuer's key identifier, and CheckCRLSignature of a certificate with the issuer's key accepts it.", "quantifier": "all lists of revoked certificates, times, names, keys and randomness, with DER below 2^31 bytes", "why_tests_cant": "all lists and lengths", "anchors": ["x509/x509.go: CreateCRL, ParseDERCRL, CheckCRLSignature"]}
{"id": "C108", "title": "What a revocation list says is signed", "statement": "Two inputs ParseDERCRL accepts with the same TBSCertList.Raw (the bytes CheckCRLSignature checks) agree on everything but the signature and the outer algorithm: no change outside the signed part adds or removes a revoked certificate.", "quantifier": "all byte strings that parse", "why_tests_cant": "an unsigned part that influences the list would be an attack; no finite set of inputs excludes it", "anchors": ["x509/x509.go: ParseDERCRL, CheckCRLSignature"]}
{"id": "C109", "title": "The server's first flight is exactly what the configuration calls for", "statement": "After its ServerHello a full-handshake server sends, in this order and nothing else: its certificate chain (for GM the chain of the signing certificate, then of the encryption certificate), the OCSP response when it has one and the client asked, the ServerKeyExchange if the suite has one, a CertificateRequest naming the subjects of ClientCAs in order unless ClientAuth is NoClientCert, and ServerHelloDone; and the transcript bytes are the encodings of these messages.", "quantifier": "all configurations, certificates, suites, versions, randomness", "why_tests_cant": "all configurations and pool contents; a test fixes one configuration", "anchors": ["tls/handshake_server.go: doFullHandshake", "tls/gm_handshake_server_double.go: doFullHandshake"]}
{"id": "C110", "title": "Key exchange messages are read strictly", "statement": "A premaster secret is derived only from a ClientKeyExchange whose length field equals the length of what follows, and from exactly these bytes (ECDHE: valid point or 32 bytes; RSA from TLS 1.0 on). Violated for the GM suites: the high length byte is dropped (shift of a byte by 8), so any value is accepted there and ciphertexts of 256 bytes or more are refused.", "quantifier": "all messages, keys, curves, versions", "why_tests_cant": "all byte strings", "anchors": ["tls/key_agreement.go: processClientKeyExchange", "tls/gm_key_agreement.go: processClientKeyExchange, processServerKeyExchange"]}
{"id": "C111", "title": "Name constraints reach verification, and critical ones that cannot be checked are refused", "statement": "For every NameConstraints extension of a certificate that parses, PermittedDNSDomains, ExcludedDNSDomains and PermittedDNSDomainsCritical hold exactly its DNS names and its critical flag; a critical one with a constraint of another kind (IP, email, directory name) makes parsing fail. Violated when the extension is repeated: the earlier one, even critical, is silently forgotten.", "quantifier": "all lists of extensions, all lists of subtrees of all kinds", "why_tests_cant": "arbitrary certificates from the network", "anchors": ["x509/x509.go: parseCertificate (case 30)"]}
{"id": "C112", "title": "What a certificate request says is signed", "statement": "Two requests with the same RawTBSCertificateRequest agree on subject, version, key, extensions and names. Violated: whether the key is an SM2 or an ECDSA key is decided by the label of the signature algorithm, which is outside the signed part.", "quantifier": "all byte strings that parse", "why_tests_cant": "no finite set of inputs excludes an unsigned influence", "anchors": ["x509/x509.go: ParseCertificateRequest, CheckSignature"]}
{"id": "C113", "title": "Montgomery multiplication of the amd64 assembly", "statement": "Mul, Sqr and FromMont of the amd64 build store, in every machine state and for all operands below 2^256, the Montgomery product of their operands (x*y/2^256 modulo p, below p). Violated: a reduction step drops the carry out of its third limb and the borrow out of its last one; the product of 1 and 1, and the conversion of the coordinate 1, come out wrong. It holds whenever no step drops anything, and one step is exact if and only if it drops nothing.", "quantifier": "all machine states (registers, flags, memory) and all operands", "why_tests_cant": "2^512 operand pairs; random operands lose a carry only about once in 2^32", "anchors": ["sm2/sm2p256_amd64.s: sm2p256Mul, sm2p256Sqr, sm2p256FromMont, sm2p256MulInternal, sm2p256SqrInternal"]}
{"id": "C114", "title": "Point routines of the amd64 assembly", "statement": "PointDouble, PointAdd and PointAddAffine leave a Jacobian Montgomery form of the double, the sum, the sum or difference of the points in memory. Proved for all memory contents whenever no carry is lost in the field operations; without that condition it inherits the violation of C113.", "quantifier": "all machine states and all points of the curve", "why_tests_cant": "all pairs of points in all Jacobian forms", "anchors": ["sm2/sm2p256_amd64.s: sm2p256PointDoubleAsm, sm2p256PointAddAsm, sm2p256PointAddAffineAsm"]}
{"id": "C115", "title": "Scalar multiplication of the amd64 build, down to the machine words", "statement": "ScalarMult, ScalarBaseMult, PreScalarMult and CombinedMult, with the arithmetic that the assembly really performs, return the coordinates of the right multiple. Violated: ScalarMult((1,y),1) does not return (1,y), and (n-6)*G is returned as infinity. It holds for all points and scalars whenever no carry is lost on the way (and, for ScalarMult, the scalar is not n-6).", "quantifier": "all points of the group and all scalars", "why_tests_cant": "2^512 inputs; the failing ones are rare but an attacker chooses the point", "anchors": ["sm2/sm2p256_amd64.go: ScalarMult, ScalarBaseMult, PreScalarMult, CombinedMult", "sm2/sm2p256_amd64.s"]}
{"id": "C116", "title": "Zero test and equality flag of the amd64 assembly", "statement": "The zero test answers 1 exactly on the representations of zero, and the flag of PointAdd is set exactly when the points are equal. Violated: the second comparison is against p with a limb cleared, so p is taken for nonzero and another residue for zero; there are two different points of the curve that PointAdd takes for equal.", "quantifier": "all machine states, all pairs of points", "why_tests_cant": "the failing residue is one in 2^256", "anchors": ["sm2/sm2p256_amd64.s: sm2p256IsZero, sm2p256PointAddAsm"]}
{"id": "C117", "title": "Negation in the amd64 assembly", "statement": "NegCond with a condition other than zero, and the sign of PointAddAffine, replace y by the residue below p that is congruent to -y. Violated: zero becomes p, and the sign in PointAddAffine leaves 2p - y for all large y; the value is congruent to -y but not reduced.", "quantifier": "all machine states, all ordinates", "why_tests_cant": "boundary of one word pattern among 2^256", "anchors": ["sm2/sm2p256_amd64.s: sm2p256NegCond, sm2p256PointAddAffineAsm"]}
{"id": "C118", "title": "The arm64 curve object implements the group", "statement": "On arm64, Add, Double, ScalarMult and ScalarBaseMult return the affine coordinates of the sum, double and multiple for all points of the curve (equal, opposite, infinity) and all scalars, and IsOnCurve decides the curve equation for all integers.", "quantifier": "all pairs of points, all byte strings, all integers", "why_tests_cant": "2^512 pairs of points; the special cases of the addition formulas are single points", "anchors": ["sm2/sm2p256_arm64.go: p256Curve, initP256", "sm2/elliptic.go: P256"]}
{"id": "C119", "title": "Signatures and encryption on arm64", "statement": "On arm64 a key from GenerateKey verifies its own signatures and decrypts what was encrypted to it, in the plain, DER and byte-string forms; and GenerateKey and Sign give the same results as on amd64 (over exact arithmetic) for the same randomness. Signatures: except the key n-1 and zero halves, see C13.", "quantifier": "all keys, messages, randomness", "why_tests_cant": "all keys times all nonces", "anchors": ["sm2/sm2p256_arm64.go", "sm2/sm2.go: GenerateKey, Sign, Verify", "sm2/sm2enc.go: Encrypt, Decrypt", "sm2/external.go"]}
{"id": "C120", "title": "Decrypt reveals nothing about the private key to a sender of invalid points", "statement": "Whether Decrypt succeeds on a ciphertext made without the private key does not depend on the private key (up to forging a hash). Violated on arm64: the point is multiplied on whatever curve y^2 = x^3 - 3x + b it lies on, so success tells whether d*T is the guess for points T of small order; one fixed 97-byte ciphertext decrypts exactly for the odd keys.", "quantifier": "all private keys, all points of all such curves", "why_tests_cant": "a statement about all keys at once", "anchors": ["sm2/sm2enc.go: Decrypt, pointFromBytes", "sm2/sm2p256_arm64.go"]}
{"id": "C121", "title": "Concurrent use of a connection", "statement": "Any number of goroutines may call Handshake, Read, Write, Close, CloseWrite and ConnectionState on one connection. No schedule deadlocks (although Handshake and a renegotiation take the same two locks in opposite orders); one handshake runs at a time and the first is run once; calls that succeed do so after a completed handshake; after a failed handshake every later Handshake, Read and Write fails; Close waits only for a record being sent. A Write fails only if the connection failed: violated, a Write that overlaps a successful renegotiation may return the internal error alert.", "quantifier": "all numbers of goroutines, all sequences of calls, all schedules, all outcomes of the handshakes", "why_tests_cant": "schedules cannot be enumerated by tests; the reversed lock order is harmless only because of an invariant over handshakeStatus and handshakeErr", "anchors": ["tls/conn.go: Handshake, Read, Write, Close, CloseWrite, closeNotify, handleRenegotiation, ConnectionState, sendAlert, writeRecord"]}
{"id": "C122", "title": "Records sent by concurrent goroutines have distinct sequence numbers", "statement": "No two records protected with the same key carry the same sequence number (hence, for GCM, the same nonce), whichever goroutines send them. Holds unless the peer announces a handshake message over 65536 bytes; violated then: the alert for it is sent without the lock of the sending half, so it can share the sequence number of a concurrent Write.", "quantifier": "all numbers of goroutines, all schedules", "why_tests_cant": "a race of two memory accesses", "anchors": ["tls/conn.go: readHandshake, sendAlertLocked, writeRecordLocked, halfConn.incSeq"]}
{"id": "C123", "title": "Resumed handshakes", "statement": "A completed abbreviated handshake gives both ends the master secret and the peer's identity of the resumed session; each end's Finished is the standard's function of that secret and of all messages exchanged before it, and was checked. The server renews the ticket exactly when it was sealed with an old key, and the new ticket holds the same session. An honest client and server that resume a standard (non-GM) session complete, end with the same transcript, and the client keeps the newest ticket. For GM sessions this fails: C73.", "quantifier": "all sessions, tickets, hellos, peers' messages, versions", "why_tests_cant": "ranges over all message sequences a peer may send and over all sessions", "anchors": ["tls/handshake_client.go: handshake, processServerHello, readFinished, readSessionTicket, sendFinished", "tls/handshake_server.go: doResumeHandshake, sendSessionTicket", "tls/gm_handshake_client_double.go", "tls/gm_handshake_server_double.go"]}
{"id": "C124", "title": "GM handshakes in the single_cert build", "statement": "Built with the tag single_cert, a GM server presents the certificate chosen for the requested name and negotiates version, suite and protocol as the default build does; the client accepts a server exactly if its first certificate verifies for the configured name and roots with the others as intermediates; a completed handshake gives the premaster secret only to the holder of that certificate's SM2 key, who also signed; honest ends complete with the same secret; no server can make the client panic.", "quantifier": "all configurations, certificates, messages of the peer", "why_tests_cant": "ranges over all message sequences and certificates of a server", "anchors": ["tls/gm_handshake_client.go: doFullHandshake", "tls/gm_handshake_server.go: readClientHello, doFullHandshake", "tls/gm_key_agreement.go: eccKeyAgreementGM"]}
{"id": "C125", "title": "Dial, Listen and Clone", "statement": "DialWithDialer returns a connection only if its handshake returned nil, and then the network connection is open; if it returns an error, the network connection was never made or has been closed. Under a timeout the timer alone makes it return, and no goroutine is left blocked. The server is verified under the configured name or else the host part of the address, and without a name no handshake starts. The caller's Config is not modified; Clone copies every setting and shares the ticket keys. Listen accepts a Config only if a server can present a certificate with it.", "quantifier": "all interleavings of caller, handshake goroutine and timer; all addresses and Configs", "why_tests_cant": "ranges over all schedules of three threads and all addresses", "anchors": ["tls/tls.go: DialWithDialer, Listen", "tls/common.go: Config.Clone, Config.serverInit"]}
{"id": "C126", "title": "Ticket keys of a Config in use", "statement": "At every moment after the first server handshake has been initialized, the session ticket keys in force are those of the last SetSessionTicketKeys (also for connections that use a Config from GetConfigForClient without keys of its own), else the configured SessionTicketKey, else random; in every schedule a ticket is issued without a panic.", "quantifier": "all interleavings of handshakes and SetSessionTicketKeys, all histories", "why_tests_cant": "ranges over all schedules and histories", "anchors": ["tls/common.go: Config.serverInit, Config.SetSessionTicketKeys, Config.ticketKeys", "tls/handshake_server.go: serverHandshake, readClientHello"]}
{"id": "C127", "title": "RSA private keys in PKCS#1", "statement": "A private key returned by ParsePKCS1PrivateKey (or through PKCS#8 or X509KeyPair) is the one in the text: two primes or more, positive numbers, modulus their product, exponent inverse to the public one modulo every p-1, with the CRT values recomputed rather than trusted; raising to e and then to d gives back every message below the modulus; MarshalPKCS1PrivateKey followed by ParsePKCS1PrivateKey returns the key; no text makes parsing panic.", "quantifier": "all byte strings, all keys, all messages", "why_tests_cant": "ranges over all texts and all keys of every size", "anchors": ["x509/pkcs1.go: ParsePKCS1PrivateKey, MarshalPKCS1PrivateKey", "x509/pkcs8.go: ParsePKCS8PrivateKey", "tls/tls.go: parsePrivateKey"]}
{"id": "C128", "title": "System roots", "statement": "The roots used when VerifyOptions.Roots is nil are the certificates of the first readable bundle file together with those of the first certificate directory that holds any; either a pool or an error results; the roots of Verify and of SystemCertPool are the same in every history of calls, and a failure is not remembered for ever.", "quantifier": "all file systems and all histories of calls", "why_tests_cant": "ranges over all file-system contents and call histories", "anchors": ["x509/root_unix.go: loadSystemRoots", "x509/root.go: systemRootsPool", "x509/cert_pool.go: SystemCertPool"]}
{"id": "C129", "title": "GetConfigForClient", "statement": "The GetConfigForClient callback is given what the client sent, and of the protocol versions exactly those the client may support; if it returns a Config, the connection is handled as if the server had been started with that Config; if it returns nil, as if there were no callback; if it returns an error, the connection is refused with internal_error.", "quantifier": "all ClientHellos, all pairs of Configs, all callbacks, all random sources", "why_tests_cant": "ranges over all callbacks, Configs and client hellos", "anchors": ["tls/conn.go: Conn.Handshake", "tls/handshake_server.go: serverHandshakeState.readClientHello, clientHelloInfo", "tls/gm_handshake_server_double.go: serverHandshakeStateGM.readClientHello, clientHelloInfo", "tls/common.go: Config.GetConfigForClient, ClientHelloInfo"]}
{"id": "C130", "title": "Transport segmentation, timeouts and buffers", "statement": "What Read returns depends only on the bytes the peer sent: however the transport cuts them, whenever it returns temporary errors (timeouts), whatever buffer sizes are used, the data read are the same, nothing is lost, duplicated or overwritten in the connection's recycled buffers, and the same final error is reported; every Read returns at most the bytes asked for and at least one if it reports no error; after finitely many Reads everything has been delivered.", "quantifier": "all byte streams, all ways of cutting them, all placements of temporary errors, all sequences of buffer sizes, all ciphers, all buffer states", "why_tests_cant": "ranges over all segmentations and schedules of the transport", "anchors": ["tls/conn.go: block.resize, reserve, readFromUntil, newBlock, freeBlock, splitBlock, Conn.readRecord, Conn.Read"]}
{"id": "C131", "title": "order-field arithmetic of the amd64 assembly", "statement": "The multiplication modulo the group order used by Inverse returns the Montgomery product of its operands, for all 256-bit operands, and repeated squaring returns the Montgomery squares; nothing but the result is written. The code violates this: squaring drops a carry and is wrong for most operands, so that for example Inverse(1) is not 1.", "quantifier": "all operands, all counts, all memory contents and overlaps of the result with the operands", "why_tests_cant": "2^512 pairs of operands; the carry that is dropped is only visible for some", "anchors": ["sm2/sm2p256_amd64.s: sm2p256OrdMul, sm2p256OrdSqr", "sm2/sm2p256_amd64.go: Inverse"]}
{"id": "C132", "title": "table selection, conditional move and byte order of the amd64 assembly", "statement": "Selecting an entry of a precomputed table by index gives that entry, and zeros for index 0 (in general for an index whose low 32 bits are out of range); the conditional move copies its first source exactly if the low 32 bits of the condition are not zero; conversion between 32 big-endian bytes and four words keeps the number. Each writes its result and nothing else.", "quantifier": "all tables, indices, conditions, operands, all memory contents", "why_tests_cant": "all 2^12288 tables and memory layouts", "anchors": ["sm2/sm2p256_amd64.s: sm2p256Select, sm2p256SelectBase, sm2p256MovCond, sm2p256BigToLittle, sm2p256LittleToBig"]}
{"id": "C133", "title": "record sizes of Write", "statement": "With dynamic record sizing on, the first application data record of a connection carries exactly as many bytes as fit, with header, IV, MAC or tag and padding, into one 1208-byte segment; the following records carry twice, three times, … as much, never more than 16384 bytes; after 128 KiB sent or 1001 records, with sizing disabled, and for handshake, alert and change cipher spec records, every record but the last of a call is full (16384 bytes). Within a call the records never get smaller except the last; their payloads are nonempty and add up to the data; the number of bytes of each record is determined by suite, version and payload length, and exactly these bytes are counted as sent.", "quantifier": "every suite and version, every data length, every number of records and bytes sent before, every key and primitive", "why_tests_cant": "lengths from 0 to arbitrarily many bytes with all histories of earlier writes and all suites", "anchors": ["tls/conn.go: maxPayloadSizeForWrite, writeRecordLocked, write"]}
{"id": "C134", "title": "a failing client handshake tells the server", "statement": "If Handshake of a client fails, then, whatever the server sent, either the transport ended or failed or the server itself gave up (close_notify or a fatal alert), or the last bytes on the wire when Handshake returns are a complete alert record (fatal, except no_renegotiation) whose description is one of ten fixed codes. Nothing is left unsent, and Handshake returns the same error from then on. The same holds for a renegotiation started by Read.", "quantifier": "every byte stream, every configuration, every primitive, with a transport whose writes succeed", "why_tests_cant": "all byte streams and all points at which a handshake can fail", "anchors": ["tls/conn.go: Handshake, handleRenegotiation, sendAlertLocked, writeRecordLocked, flush, readRecord, readHandshake", "tls/handshake_client.go: clientHandshake", "tls/gm_handshake_client_double.go: handshake"]}
{"id": "C135", "title": "a client handshake over bytes", "statement": "If Handshake of a client returns nil on a new connection, then, whatever bytes the transport delivered and however they were cut into records, the client sent its ClientHello, read a ServerHello acceptable for it, and then either carried out a complete full handshake (certificates parsed and verified, key exchange checked, both Finished values computed over everything sent and received, in this order, and all messages read consumed) or resumed the session it had offered with that session's identity and master secret.", "quantifier": "every byte stream, every segmentation into records, every configuration, every primitive, every outgoing randomness", "why_tests_cant": "all byte streams an attacker can produce", "anchors": ["tls/handshake_client.go: clientHandshake, handshake, doFullHandshake, establishKeys, readFinished, sendFinished, readSessionTicket", "tls/gm_handshake_client_double.go: the same", "tls/gm_handshake_client.go: the same", "tls/conn.go: Handshake, readHandshake, readRecord"]}
{"id": "C136", "title": "the keys in use after a client handshake", "statement": "If Handshake of a client returns nil on a new connection, then what the connection sends from then on is protected with the client's write keys derived from the master secret of that handshake (or of the resumed session) with the negotiated suite, version and the two randoms, starting at sequence number 0 with the ChangeCipherSpec; what it accepts is opened with the server's write keys of the same master secret, likewise; and its records carry the negotiated version. The code violates this for standard clients that allow renegotiation: they may go on reading in the clear.", "quantifier": "every byte stream from the server, every configuration, full handshakes and resumptions, every primitive", "why_tests_cant": "all byte streams; which keys are in use is not visible to a test with a well-behaved peer", "anchors": ["tls/handshake_client.go: handshake, establishKeys, sendFinished, readFinished", "tls/gm_handshake_client_double.go: handshake, establishKeys", "tls/conn.go: changeCipherSpec, prepareCipherSpec, readRecord, writeRecordLocked"]}
{"id": "C137", "title": "the negotiated version is pinned", "statement": "After the ServerHello every record a client accepts carries the negotiated version, and a HelloRequest in a later record is treated as the configuration says. The code violates this for GM clients: they never mark the version as negotiated, accept any record version below 16.0 while nothing is encrypted, and refuse every handshake record after the handshake as if it were the first record of the connection.", "quantifier": "every byte stream, configuration and continuation", "why_tests_cant": "all byte streams after all handshakes", "anchors": ["tls/handshake_client.go: pickTLSVersion", "tls/gm_handshake_client_double.go: handshake", "tls/conn.go: readRecord, handleRenegotiation"]}
{"id": "C138", "title": "what a completed server handshake means, from the bytes", "statement": "Whatever bytes the transport delivers and however they are cut into records: if Handshake of a server (standard or GM) returns nil on a new connection, then the server read an acceptable ClientHello and chose its parameters from it as in C38/C51, sent its flight, and either ran a full handshake in which the client met the client-authentication policy, proved possession of its certificate's key if it showed one, and both Finished values were those of the standard over all handshake messages exchanged; or it resumed a session whose ticket it had sealed and whose certificates meet the policy.", "quantifier": "every byte stream from the client, every configuration, standard and GM servers, full handshakes and resumptions, every primitive", "why_tests_cant": "all byte streams and record cuttings; a test exercises well-behaved clients", "anchors": ["tls/handshake_server.go: serverHandshake, readClientHello, doFullHandshake, doResumeHandshake, readFinished, sendFinished, sendSessionTicket", "tls/gm_handshake_server_double.go: handshake, readClientHello, doFullHandshake, doResumeHandshake"]}
{"id": "C139", "title": "a server that fails says why", "statement": "If Handshake of a server fails, then either the transport ended or the client gave up, or the last bytes on the wire are an alert record from a fixed list; nothing stays in the send buffer, nothing can be sent afterwards, and Handshake returns the same error from then on. The code violates this when a session ticket cannot be sealed: the error is returned without an alert.", "quantifier": "every byte stream from the client, every configuration, standard and GM servers", "why_tests_cant": "all byte streams, all points of failure", "anchors": ["tls/handshake_server.go: serverHandshake, readClientHello, checkForResumption, doFullHandshake, sendSessionTicket, processCertsFromClient", "tls/gm_handshake_server_double.go", "tls/conn.go: sendAlert, Handshake, readHandshake, readRecord", "tls/ticket.go: encryptTicket"]}
{"id": "C140", "title": "the keys in use after a server handshake", "statement": "If Handshake of a server (standard or GM) returns nil on a new connection, then what the connection sends from then on is protected with the server's write keys derived from the master secret of that handshake (or of the resumed session) with the negotiated suite, version and the two randoms, starting at sequence number 0 with the ChangeCipherSpec; what it accepts is opened with the client's write keys of the same master secret, likewise; every record it accepts carries the version it chose. A client and a server that hold the same master secret, suite, version and randoms hold keys that belong together in both directions.", "quantifier": "every byte stream from the client, every configuration, standard and GM servers, full handshakes and resumptions, every primitive", "why_tests_cant": "all byte streams; which keys are in use is not visible to a test with a well-behaved peer", "anchors": ["tls/handshake_server.go: serverHandshake, establishKeys, sendFinished, readFinished", "tls/gm_handshake_server_double.go: handshake, establishKeys", "tls/conn.go: changeCipherSpec, prepareCipherSpec, readRecord, writeRecordLocked"]}
{"id": "C141", "title": "what a completed handshake has put on the wire", "statement": "If Handshake of a client or a server (standard or GM) returns nil on a new connection, then everything it sent is on the wire and nothing is held back: later writes go out at once. What it sent is, in this order: its hello and the messages before the ChangeCipherSpec, each cut into unprotected records of type handshake of 1 to 16384 bytes; one ChangeCipherSpec record; the remaining messages, in records protected with this side's write keys of the master secret, from sequence number 0 on, and with the negotiated version.", "quantifier": "every byte stream from the peer, every configuration, standard and GM, full handshakes and resumptions, every outcome of the transport's writes, every primitive", "why_tests_cant": "all byte streams and configurations; a test sees one transcript, and a message left in the buffer shows only as a peer that waits", "anchors": ["tls/conn.go: writeRecordLocked, write, flush, Handshake", "tls/handshake_client.go: handshake, sendFinished", "tls/handshake_server.go: serverHandshake, sendFinished, sendSessionTicket", "tls/gm_handshake_client_double.go: handshake", "tls/gm_handshake_server_double.go: handshake"]}
{"id": "C142", "title": "a handshake never waits with messages held back", "statement": "Whenever a handshake of a client or a server asks the transport for a record from the peer, in a run that completes or not, first or renegotiated, every message it has sent so far has been handed to the transport: two sides cannot wait for each other because one kept its flight in the buffer.", "quantifier": "every byte stream from the peer, every configuration, standard and GM, full handshakes and resumptions, every point of the run at which it reads, every outcome of the transport's writes", "why_tests_cant": "a deadlock depends on which messages are sent and on where the peer reads; all paths through the handshake have to be covered", "anchors": ["tls/conn.go: write, flush, readRecord, readHandshake", "tls/handshake_client.go: handshake", "tls/handshake_server.go: serverHandshake, doFullHandshake", "tls/gm_handshake_client_double.go: handshake", "tls/gm_handshake_server_double.go: handshake"]}
{"id": "C143", "title": "calls on an established connection always return", "statement": "Once Handshake has returned nil at a server, or at a client whose policy is RenegotiateNever (the default), every further call - Handshake, Read with any buffer, Write of any bytes, CloseWrite, Close - in any order returns: it neither panics nor loops, whatever bytes the peer sends (malformed, truncated or forged records, warning alerts, handshake bytes behind the Finished message), and however the transport and the random source fail. Read never returns more bytes than fit in the buffer; Write never reports more bytes than it was given, and all of them if it reports no error. Reading a handshake message returns in the same sense at any moment of a handshake. The only limit are the 2^64 sequence numbers of each direction.", "quantifier": "every history of calls with any arguments, every byte stream from the peer, every outcome of the transport's writes and of the random source, every cipher suite of the tables (standard and GM), every version", "why_tests_cant": "all byte streams and histories; fuzzing samples them, and a crash hides behind a precise sequence of records", "anchors": ["tls/conn.go: Read, Write, CloseWrite, Close, closeNotify, readRecord, readHandshake, handleRenegotiation, writeRecordLocked, sendAlertLocked, decrypt, encrypt, incSeq"]}
{"id": "C144", "title": "no index or slice of the record layer goes out of range", "statement": "Whatever bytes the peer sends, no index, slice, division or block-mode call of the record layer goes out of range or panics: decrypting a record (padding removal, MAC stripping, AEAD additional data), dispatching it (alerts, ChangeCipherSpec), and reading handshake headers and bodies fragmented over records give, with Go's panicking slice expressions, exactly the result of the unchecked reading. The same for writing: records built in a recycled buffer over arbitrary stale bytes are exactly the intended ones, so nothing stale gets on the wire.", "quantifier": "every record content and length, every byte stream, every cipher kind, version, block size, MAC size, sequence number with room left, every stale buffer content and every data written", "why_tests_cant": "off-by-one slices panic only for particular lengths of attacker-controlled records; tests sample lengths", "anchors": ["tls/conn.go: extractPadding, extractPaddingSSL30, decrypt, padToBlockSize, encrypt, resize, readRecord, readHandshake, writeRecordLocked"]}
{"id": "C145", "title": "what ConnectionState reports", "statement": "Until the handshake is complete ConnectionState reports nothing but the server name. When a client and a server complete a handshake and each received what the other sent, both ends' ConnectionState report the same version, cipher suite, application protocol, resumption flag and TLSUnique channel binding, and, given the same master secret, the same exporter. TLSUnique is empty after a resumption and otherwise the 12 bytes of verify data of the first Finished. VerifyHostname succeeds exactly for names of the first peer certificate on a completed client connection with verified chains, and never panics. VerifiedChains start with the first of PeerCertificates.", "quantifier": "every pair of configurations, certificates, sessions and histories of an undisturbed handshake, full or resumed, standard or GM; every host name", "why_tests_cant": "agreement of the two ends is a statement about all pairs of configurations and all paths through both state machines; tests compare a few fields for a few configurations", "anchors": ["tls/conn.go: ConnectionState, VerifyHostname", "tls/common.go: ConnectionState", "tls/handshake_client.go: handshake, sendFinished, readFinished", "tls/handshake_server.go: handshake", "tls/gm_handshake_client_double.go: handshake, doFullHandshake", "tls/gm_handshake_server_double.go: serverHandshakeGM"]}
{"id": "C146", "title": "a session is offered only to the server it came from", "statement": "Clients that share a session cache, in any number and interleaving: a session offered was put into the cache by an earlier handshake under the client's own name (or address, if it has no name); every first handshake that completes, resumed or not, reports certificates, chains and a master secret of an earlier full handshake with that name, whose client accepted those certificates from the server; if all the clients verify, the certificate was verified for the client's own server name. The newest session of a name is the one offered as long as the cache has room. A session is offered only to the server it came from. (The last sentence is violated: sessions of a renegotiation are filed under the empty name, and names and printed addresses share one key space.)", "quantifier": "every number of connections, every interleaving of their beginnings and ends, every configuration and cache capacity, arbitrary servers and networks", "why_tests_cant": "depends on the whole history of a cache shared by concurrent connections with different configurations", "anchors": ["tls/handshake_client.go: clientHandshake, clientSessionCacheKey, processServerHello, readSessionTicket", "tls/gm_handshake_client_double.go: readSessionTicket", "tls/common.go: lruSessionCache"]}
{"id": "C147", "title": "ParseCertificates and Pem2Cert", "statement": "ParseCertificates accepts exactly the concatenations of certificates each of which ParseCertificate accepts alone, and returns the same certificates in order; one bad certificate or any byte between or after them spoils all. For one certificate it agrees with ParseCertificate. Pem2Cert returns the certificate of the first PEM block if that is a CERTIFICATE without headers, and looks at nothing after it.", "quantifier": "every byte string, every decoder of PEM", "why_tests_cant": "the inputs are all byte strings, the lists any length; where one certificate ends is up to a recursive length decoder", "anchors": ["x509/x509.go: ParseCertificates, ParseCertificate, Pem2Cert"]}
{"id": "C148", "title": "a chain of resumptions keeps the client's identity", "statement": "Servers that share ticket keys: take a full handshake, a ticket it issued, a handshake resumed by that ticket (on any of the servers), a ticket issued in it, and so on, any number of times. Every handshake of the chain has the master secret, the version and the cipher suite of the full handshake at its origin and reports the client certificates shown in it; these meet the policy of the server that resumes, and if there are any, the client proved possession of the key of the first one in the handshake at the origin. What the tickets must do for this (sealed by one server, opened by another to the same session or not at all) holds of the library's tickets, whatever the lists of keys, if keys with the same name are the same key.", "quantifier": "every length of the chain, every server configuration, each client message and network, every list of ticket keys", "why_tests_cant": "the identity reported may come from a connection arbitrarily many resumptions and key rotations ago", "anchors": ["tls/handshake_server.go: serverHandshake, checkForResumption, doResumeHandshake, doFullHandshake, sendSessionTicket", "tls/gm_handshake_server_double.go: serverHandshakeGM, sendSessionTicket", "tls/ticket.go: encryptTicket, decryptTicket"]}
