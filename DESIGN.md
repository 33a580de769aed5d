# Formal model of Hyperledger-TWGC/ccs-gm in Lean 4

## Trusted base

* Lean 4.33.0's kernel.
* Axioms: only Lean's `propext`, `Classical.choice`, `Quot.sound` (or fewer) under every theorem.
  No axiom is declared; `native_decide` and `bv_decide` are not used. `decide +kernel` is used for
  finite facts (tables, literals, whole-domain checks on bytes); it is kernel evaluation.
* The reading of the Go source. The model was written by hand from `/repo`; every definition cites
  the lines it models and says where it simplifies. Nothing was run against the Go code; only
  `Sm2/Asm/Code.lean` was generated (from `sm2/sm2p256_amd64.s`, one term per instruction).
* Facts about Go used in the reading: slices are lists (aliasing only where a property needs it:
  C53, C56); a run-time panic is the explicit outcome `Res.panic`; `uintN` arithmetic is `BitVec N`
  where wrap-around matters and `Nat` otherwise; a random source is the bytes it delivers before it
  fails; an endless loop is `none` where it can happen (`sm2.Encrypt`), and where the model uses
  fuel, a theorem says that the fuel suffices.

## Parameters (library code that is not modelled, with the laws assumed of it)

A law is a hypothesis of the theorem that needs it (a structure in the statement), never an axiom,
and an instance is given in an example beside it.

| parameter | where | law used |
|---|---|---|
| exact field arithmetic in `Sm2/Amd64` | C57, C58 (ideal), C10, C15 on amd64 | the theorems named so are over exact Montgomery arithmetic; `Sm2/Asm` executes the assembly itself (a machine model, translated by `tools/asm2lean.py`) and C113-C117 say exactly when it is exact and where it is not |
| curve object | `Sm2` | `Sm2.Lawful`: a cyclic group of order n; instances for the amd64 curve (over exact arithmetic) and, without exceptions, for the arm64 curve, whose generic `elliptic.CurveParams` methods are modelled from the published Go 1.16 source |
| AES, SHA-1/256/384/512, MD5, HMAC, RC4, 3DES, AEADs | `Tls`, `Keys` | block ciphers invert; AEAD open inverts seal (`Prims.Lawful`); hashes are arbitrary functions |
| RSA, ECDSA, DSA, NIST curves, X25519 | `Tls/KeyAgreement`, `X509` | arbitrary predicates; `KaLaw`, `RsaLaw`, `HonestSigner` where agreement is claimed |
| `encoding/asn1` | `Asn1/Der`, `Keys`, `Sm2/External` | modelled at byte level (Go 1.16 rules), not a parameter, incl. certificates, requests and CRLs (`X509/Asn1`, `Cert`, `Csr`, `Crl`); in `Tls` `x509.ParseCertificate` is an arbitrary function |
| `strings.ToLower`, `EqualFold`, `net.ParseIP` | `Tls/Negotiation`, `X509` | arbitrary functions |
| clock, callbacks, key log writers | everywhere | arbitrary values and functions; `x509.Verify` reads the clock once |

## Layout

* `Go.lean` - bytes, results with errors and panics, big-endian integers. `Subtle.lean` - C53.
* `Sm3`, `Sm4`, `Sm2`, `Asn1`, `Std`, `Keys`, `X509`, `Tls` - one directory per area; `Model.lean` (or the file named
  after the code) holds the model, `Spec` namespaces or files hold the specifications, `*Props.lean` the theorems `Cxx_...` with
  examples that meet their hypotheses.
* A theorem `Cxx_..._partial` proves the property under a restriction that is in its statement; `Cxx_..._violated` proves the
  negation of the unrestricted property about the code as it is. The note in `MANIFEST.json` says which part fails.

## What is modelled

| code | model | not modelled |
|---|---|---|
| `sm3/` | `Sm3/Model` all | - |
| `sm4/` | `Sm4/Model`, `Sm4/Tables` all, incl. memory effects of padding (C56) | cipher.BlockMode wrappers beyond ECB/CBC helpers |
| `sm2/` | `Sm2/Model` (sign, verify, encrypt, decrypt, KDF, key generation), `Sm2/External` (DER wrappers, ASN.1 ciphertexts), `Sm2/Amd64` (curve object: recoding, tables, ScalarMult, ScalarBaseMult, inversion chain, Inverse), `Sm2/Arm64` (generic curve arithmetic), `Sm2/Asm` (amd64 assembly: all routines executed) | - |
| `x509` keys, PEM, `utils/keys.go` | `Keys/*` (EC and PKCS#8 keys, public keys, PBKDF2, PEM encryption), `Keys/KeyPair` (tls.X509KeyPair & co.) | - |
| `x509` certificates, requests, CRLs | `X509/Asn1` (bytes), `Ext*` (extensions built and parsed), `Cert*`, `Prefix`, `Issue*` (parsing, creation), `Csr*`, `Crl*`, `Many` (ParseCertificates, Pem2Cert), `ConstraintProps`, `StrictProps` | string encodings of names beyond printable/UTF8 as noted there |
| `x509` verification | `X509/*` (CertPool, name matching, key usages, checkSignatureFrom, Verify search, SystemRoots) | the file system itself is arbitrary |
| `tls` record layer | `Tls/Record`, `Conn`, `Reassembly`, `Establish`, `CloseInterlock`, `Live`, `WriteProps`, `IvProps`, `CloseProps`, `Sizing`; input buffers in memory, segmentation and temporary errors: `Blocks`, `BlocksProps`, `BlocksRead` | alerts' text, output buffers' memory, CCS/alert warning counters as read |
| `tls` messages | `Tls/Messages*` (all marshal/unmarshal, dispatch, session state) | - (writers are modelled as concatenation of the fields they lay out) |
| `tls` key schedule | `Tls/Prf`, `FinishedProps`, `KeyProps`, exporter | - |
| `tls` negotiation | `Tls/Negotiation` (both server kinds, both client kinds: versions, suites, ALPN, SCSV, resumption, certificate choice; `Tls/SingleCertProps` for the build tag `single_cert`; `Tls/ConfigForClient` for `GetConfigForClient`) | `ClientHelloInfo.Conn` |
| `tls` key agreement | `Tls/GmKeyAgreement`, `Tls/KeyAgreement` | - |
| `tls` full handshakes | `Tls/ClientFull`, `Tls/ServerAuth`, `Tls/ServerFlight`, `FlightProps` (both kinds) over lists of handshake items; client and server also as programs over the connection: `Tls/HsProg`, `HsItems`, `HsRun`, `HsSafe`, `HsAlerts`, `HsKeys`, `SrvProg`, `SrvItems`, `SrvRun`, `SrvAlerts`, `SrvKeys`, `HsWire`, `HsWireProps`, `Returns`, `ReturnsHs`, `Slices`, `SlicesConn`, `SlicesWrite`, `ConnState`, `ConnStateExamples`, `SessionCache`, `SessionCacheExamples`, `TicketChain`, `TicketChainExamples` (order of reads, writes, alerts, buffering, flushes, key changes) | the server's failing writes; how records become items is `Reassembly`/`Establish` |
| `tls` resumed handshakes | `Tls/Resume` (both ends, both kinds) | as above |
| `tls` renegotiation | `Tls/Renegotiation` (Handshake, Read, Write, handleRenegotiation around an arbitrary handshake), `RenegBind` | - |
| `tls` locks | `Tls/Locks` (handshakeMutex, in, out; any number of goroutines; steps at lock operations), `Tls/CloseInterlock` | deadlines, memory model of non-atomic accesses (sequentially consistent steps) |
| tickets, caches | `Tls/Ticket`, `Tls/TicketRace` (serverInit against SetSessionTicketKeys), `Tls/Lru` | - |
| `tls/tls.go` Dial, Listen, `Config.Clone` | `Tls/Dial` (three threads, all interleavings) | real time; `net.Dialer` and `Handshake` are arbitrary |
| `internal/subtle` | `Subtle` | - |
| `x509/pkcs1.go` (RSA private keys) | `Keys/Rsa`, `Keys/RsaProps` | key generation; `rsa.Validate`/`Precompute` are modelled from the Go library's documented code |
| `internal/randutil`, non-Unix `x509/root_*.go` | - | not modelled (randutil is not used by the code; the others are not built on Linux) |

Constant-time behaviour, timing and goroutine scheduling below the level of locks and atomic operations are not expressible here.

## Plan and state per property

| id | property | state | how |
|----|----------|-------|-----|
| C01 | SM3 streaming is chunking-independent | proved | refinement: after any history the digest represents the concatenated bytes; specification transcribed from GB/T 32905 |
| C02 | SM3 computes the GB/T 32905 function | proved | refinement: after any history the digest represents the concatenated bytes; specification transcribed from GB/T 32905 |
| C03 | SM3 Sum is a pure query and never panics | proved | refinement: after any history the digest represents the concatenated bytes; specification transcribed from GB/T 32905 |
| C04 | SM4 Decrypt inverts Encrypt | proved | Feistel inversion; whole-table kernel evaluation lifted by xor-linearity; list induction for modes and padding; exact panic sets |
| C05 | SM4 with tables equals the GB/T 32907 cipher | proved | Feistel inversion; whole-table kernel evaluation lifted by xor-linearity; list induction for modes and padding; exact panic sets |
| C06 | SM4 rejects every key that is not 16 bytes | proved | Feistel inversion; whole-table kernel evaluation lifted by xor-linearity; list induction for modes and padding; exact panic sets |
| C07 | SM4 ECB and CBC helpers round-trip | proved | Feistel inversion; whole-table kernel evaluation lifted by xor-linearity; list induction for modes and padding; exact panic sets |
| C08 | PKCS#7 unpadding accepts exactly well-formed padding | partial | Feistel inversion; whole-table kernel evaluation lifted by xor-linearity; list induction for modes and padding; exact panic sets |
| C09 | SM4 helper decryption never panics on hostile input | partial | Feistel inversion; whole-table kernel evaluation lifted by xor-linearity; list induction for modes and padding; exact panic sets |
| C10 | SM2 Verify accepts every signature made by Sign | proved | algebra in ZMod n over `Lawful` curves; list algebra for encodings |
| C11 | SM2 Verify accepts exactly the standard's equation and range | partial | algebra in ZMod n over `Lawful` curves; list algebra for encodings |
| C12 | SM2 private keys and nonces lie in [1,n-1] | proved | algebra in ZMod n over `Lawful` curves; list algebra for encodings |
| C13 | SM2 signatures produced are always standard-conformant | partial | algebra in ZMod n over `Lawful` curves; list algebra for encodings |
| C14 | SM2 identity hash input is an unambiguous encoding | proved | algebra in ZMod n over `Lawful` curves; list algebra for encodings |
| C15 | SM2 Decrypt inverts Encrypt | partial | algebra in ZMod n over `Lawful` curves; list algebra for encodings |
| C16 | SM2 Decrypt releases plaintext only if the hash check passes | proved | algebra in ZMod n over `Lawful` curves; list algebra for encodings |
| C17 | SM2 Decrypt never panics on malformed ciphertext | partial | algebra in ZMod n over `Lawful` curves; list algebra for encodings |
| C18 | SM2 key derivation is the standard KDF | proved | algebra in ZMod n over `Lawful` curves; list algebra for encodings |
| C19 | SM2 point encoding round-trips and is strict | proved | algebra in ZMod n over `Lawful` curves; list algebra for encodings |
| C20 | SM2 signature DER wrapper | partial | algebra in ZMod n over `Lawful` curves; list algebra for encodings |
| C21 | EC private key encoding round-trips and is range-checked | proved | byte-level round trips, exact accepted forms, witnesses |
| C22 | Password-encrypted PEM round-trips | partial | byte-level round trips, exact accepted forms, witnesses |
| C23 | PBKDF2 implementation equals RFC 8018 | proved | byte-level round trips, exact accepted forms, witnesses |
| C24 | TLS record sequence numbers never repeat under one key | proved | invariants over histories of the connection, refinement of the stream |
| C25 | TLS record protection round-trips | proved | invariants over histories of the connection, refinement of the stream |
| C26 | TLS record layer accepts only authenticated records in order | proved | invariants over histories of the connection, refinement of the stream |
| C27 | CBC padding check equals its specification | proved | invariants over histories of the connection, refinement of the stream |
| C28 | Record fragmentation is lossless and bounded | proved | invariants over histories of the connection, refinement of the stream |
| C29 | Handshake message reassembly is fragmentation-independent | proved | invariants over histories of the connection, refinement of the stream |
| C30 | Record reader rejects malformed framing and errors are sticky | proved | invariants over histories of the connection, refinement of the stream |
| C31 | Close and Write interlock | proved | invariants over histories of the connection, refinement of the stream |
| C32 | TLS handshake messages round-trip | proved | round trip and totality for every message, then the dispatch |
| C33 | TLS message parsers never panic | proved | round trip and totality for every message, then the dispatch |
| C34 | Session tickets round-trip and are authenticated | proved | direct, with cipher laws |
| C35 | Session ticket key rotation | proved | direct, with cipher laws |
| C36 | LRU session cache refines a bounded LRU map | proved | refinement of an LRU list |
| C37 | Version negotiation picks the highest mutual version | partial | decision logic, both directions where possible |
| C38 | Cipher suite choice is mutual and follows the preference order | partial | decision logic, both directions where possible |
| C39 | ALPN selection is mutual | partial | decision logic, both directions where possible |
| C40 | Server certificate selection by name | partial | decision logic, both directions where possible |
| C41 | Key material is derived identically and partitioned | proved | list induction on P_hash; transcript invariant of the hash object |
| C42 | P_hash equals RFC 5246 and PRF prefix property | proved | list induction on P_hash; transcript invariant of the hash object |
| C43 | Keying material exporter guards | proved | list induction on P_hash; transcript invariant of the hash object |
| C44 | GM ECC key agreement yields the same premaster secret | partial | inversion of each function, agreement from the laws, exact panic sets |
| C45 | GM server survives malformed ClientKeyExchange | partial | inversion of each function, agreement from the laws, exact panic sets |
| C46 | GM client always authenticates the server key exchange | partial | inversion of each function, agreement from the laws, exact panic sets |
| C47 | Client authentication policy is enforced | proved | inversion of the run of the server; policy table as specification |
| C48 | Certificate chains returned by Verify are valid chains | proved | induction on the search; explicit chain specification; counterexamples |
| C49 | Host name matching | proved | induction on the search; explicit chain specification; counterexamples |
| C50 | CertPool is a set with consistent indices | proved | induction on the search; explicit chain specification; counterexamples |
| C51 | Session resumption only with matching parameters | proved | decision logic, both directions where possible |
| C52 | Downgrade protection by FALLBACK_SCSV | partial | decision logic, both directions where possible |
| C53 | Buffer overlap predicates | proved | addresses, omega |
| C54 | Renegotiation policy | proved | invariant over all calls on a connection; composition of two handshakes |
| C55 | Loaded GM key pairs match their certificates | partial | inversion of the loaders |
| C56 | SM4 encryption leaves the caller's memory alone | partial | effect on the caller's backing array as a function |
| C57 | Scalar multiplication returns the right multiple | partial | amd64 curve: invariants of the recoding loops, addition chains as powers; primality certificate; witnesses in the kernel |
| C58 | Field inversion is correct | partial | amd64 curve: invariants of the recoding loops, addition chains as powers; primality certificate; witnesses in the kernel |
| C59 | Inverse on the curve object inverts modulo the group order | partial | amd64 curve: invariants of the recoding loops, addition chains as powers; primality certificate; witnesses in the kernel |
| C60 | The domain parameters define a prime-order group | proved | amd64 curve: invariants of the recoding loops, addition chains as powers; primality certificate; witnesses in the kernel |
| C61 | Encrypt terminates | partial | amd64 curve: invariants of the recoding loops, addition chains as powers; primality certificate; witnesses in the kernel |
| C62 | Signature encoding is unique | partial | amd64 curve: invariants of the recoding loops, addition chains as powers; primality certificate; witnesses in the kernel |
| C63 | ASN.1 ciphertext round trip and integrity | partial | amd64 curve: invariants of the recoding loops, addition chains as powers; primality certificate; witnesses in the kernel |
| C64 | ASN.1 entry points never panic | partial | amd64 curve: invariants of the recoding loops, addition chains as powers; primality certificate; witnesses in the kernel |
| C65 | Decrypt checks the ephemeral point | partial | amd64 curve: invariants of the recoding loops, addition chains as powers; primality certificate; witnesses in the kernel |
| C66 | DecryptPEMBlock never panics | partial | byte-level round trips, exact accepted forms, witnesses |
| C67 | PEM cipher selection is honoured | partial | byte-level round trips, exact accepted forms, witnesses |
| C68 | Public key encodings round-trip and are validated | proved | byte-level round trips, exact accepted forms, witnesses |
| C69 | Parsed private keys are usable | partial | byte-level round trips, exact accepted forms, witnesses |
| C70 | Issuing a session ticket never panics | partial | direct, with cipher laws |
| C71 | Ticket key precedence with GetConfigForClient | partial | direct, with cipher laws |
| C72 | Exporting keying material never panics | partial | list induction on P_hash; transcript invariant of the hash object |
| C73 | GM session resumption: both ends verify the same Finished | partial | list induction on P_hash; transcript invariant of the hash object |
| C74 | Finished values are the standard's | proved | list induction on P_hash; transcript invariant of the hash object |
| C75 | Every version a server agrees to is supported | partial | decision logic, both directions where possible |
| C76 | Resumption keeps server authentication | partial | decision logic, both directions where possible |
| C77 | Honest peers agree on the negotiation | proved | decision logic, both directions where possible |
| C78 | End-to-end delivery over a protected connection | proved | invariants over histories of the connection, refinement of the stream |
| C79 | The server's Finished counts only under the new keys | partial | inversion of the run of the client |
| C80 | Verify finds a chain whenever one exists | partial | induction on the search; explicit chain specification; counterexamples |
| C81 | RSA and ECDHE key agreement: both ends get the same premaster secret | partial | inversion of each function, agreement from the laws, exact panic sets |
| C82 | ECDHE parameters are used only if the server signed them | partial | inversion of each function, agreement from the laws, exact panic sets |
| C83 | Key exchange messages cannot crash the process | partial | inversion of each function, agreement from the laws, exact panic sets |
| C84 | A completed standard client handshake authenticates the server | proved | inversion of the run of the client |
| C85 | GM server certificates may be issued by intermediate CAs | partial | inversion of the run of the client |
| C86 | The client sends the right certificate and proves possession of its key | proved | inversion of the run of the client |
| C87 | A renegotiation is bound to the connection it happens on | partial | invariant over all calls on a connection; composition of two handshakes |
| C88 | Two honest ends complete a full handshake | proved | forward evaluation of both ends on each other's messages |
| C89 | CBC records carry fresh random IVs from TLS 1.1 on and in GM SSL | proved | Induction over the write loop; each record is computed by writeOne and shown equal to a separate wire specification (Spec.explicitRecords / Spec.chainedRecords). |
| C90 | CloseWrite sends one close_notify and nothing follows it | proved | inversion of the calls; the alert record by the write-loop theorem of C28 |
| C91 | KeyUsage survives certificate creation | proved | two-byte case split; the byte facts are decided over all 256 bytes |
| C92 | Basic constraints survive certificate creation | proved | length bound of the two's complement encoding and the round trip of DER integers |
| C93 | A created certificate carries exactly the extensions of its template | proved | round-trip lemma for each of the ten extensions, composed over the loop of the parser |
| C94 | A critical extension that is not understood is recorded, and Verify refuses the certificate | proved | induction over the loop of the parser |
| C95 | ExtraExtensions are copied verbatim and override generated ones | proved | inversion of the ten blocks of the builder |
| C96 | A template that cannot be represented is refused | partial | violated: general theorem for IP lengths, explicit templates for the others |
| C97 | Algorithm identifiers written are the ones read back | proved | case analysis over the finite tables (key kinds × algorithms), kernel-evaluated completely |
| C98 | CreateCertificate then ParseCertificate is the identity on the template | proved | DER round trip composed field by field from the element lemmas of Asn1/CertRound; extensions by C91 |
| C99 | An issued certificate verifies under its issuer | proved | C98 composed with C10 |
| C100 | The signed bytes determine what a certificate says | proved | inversion of the outer parser: the TBS is parsed from its own bytes only |
| C101 | A certificate has one encoding | partial | violated: general theorem over all certificates and junk; partial from C100 |
| C102 | Unknown critical extensions never pass Verify | proved | C94 composed with C48 |
| C103 | Issue then Verify | proved | C98, C99, C48 and completeness of the path builder |
| C104 | The signature algorithm a certificate names is the one used | partial | violated: general theorems on check and signer |
| C105 | A certificate request round-trips and its signature checks | partial | DER round trip as for C98, composed with C10; violations are general theorems over all templates |
| C106 | CreateCertificateRequest leaves its template alone | partial | exact characterisation of when the template changes |
| C107 | A revocation list round-trips and its signature checks | proved | DER round trip with lists by induction (marshalAll_parse), composed with C10 |
| C108 | What a revocation list says is signed | proved | inversion of the outer parser as for C100 |
| C109 | The server's first flight is exactly what the configuration calls for | proved | symbolic run of the flight; message lists compared with a separate specification `Spec.flight` |
| C110 | Key exchange messages are read strictly | partial | inversion of the parsers; the GM violation is a general theorem |
| C111 | Name constraints reach verification, and critical ones that cannot be checked are refused | partial | DER of a general NameConstraints value written in the specification, read back by induction over the subtrees; loop invariant over the extensions; the violation is a concrete pair of extensions |
| C112 | What a certificate request says is signed | partial | inversion of the parser; concrete violation |
| C113 | Montgomery multiplication of the amd64 assembly | partial | the assembly text is translated instruction by instruction (tools/asm2lean.py) into a machine model with carry flag; symbolic execution for every state gives a number-level function; that function is Montgomery multiplication if every reduction step is exact; kernel evaluation of the violating operands |
| C114 | Point routines of the amd64 assembly | partial | execution theorems for the point routines from any state, then a simulation between real, checked and ideal field arithmetic, then the group law of C57 |
| C115 | Scalar multiplication of the amd64 build, down to the machine words | partial | simulation: every operation of the Go code over the real arithmetic is related to the same operation over a checked arithmetic that records lost carries, and over the field; kernel evaluation of the violating inputs |
| C116 | Zero test and equality flag of the amd64 assembly | partial | execution from any state; concrete violating points |
| C117 | Negation in the amd64 assembly | partial | execution from any state |
| C118 | The arm64 curve object implements the group | proved | statement-by-statement model of crypto/elliptic (Go 1.16) over the integers, cast to the field; completeness of the addition by cases; induction over the bits of the scalar |
| C119 | Signatures and encryption on arm64 | partial | the arm64 curve object is a `Lawful` curve without exceptions, so the general theorems apply |
| C120 | Decrypt reveals nothing about the private key to a sender of invalid points | partial | the generic multiplication computes in the group of the curve through the given point; kernel evaluation of two SM3 values for the fixed ciphertext |
| C121 | Concurrent use of a connection | partial | transition system of n goroutines with a step for every lock operation and every access to the status; invariant by induction over executions; wait-for graph ranked |
| C122 | Records sent by concurrent goroutines have distinct sequence numbers | partial | same transition system; invariant: every record sent is below the current (epoch, sequence number), and only the holder of `out` is between taking and storing it |
| C123 | Resumed handshakes | proved | inversion of both ends' code over arbitrary item lists; the two ends composed for honest peers, from the hellos on (C77, C34) |
| C124 | GM handshakes in the single_cert build | partial | the two-certificate model with a build flag; inversion of the client's code (an iff for the identity check), reduction of the server's choice to the two-certificate server; the two ends composed (C88) |
| C125 | Dial, Listen and Clone | partial | transition system of caller, handshake goroutine and timer, invariant over all reachable states; induction over the address; the ticket part of Clone with C34 |
| C126 | Ticket keys of a Config in use | partial | transition system of serverInit against SetSessionTicketKeys, invariant; fold over histories of connections and rotations for two Configs |
| C127 | RSA private keys in PKCS#1 | partial | DER reader of the number sequence and Validate as code; Fermat and the Chinese remainder theorem (Mathlib) for usability; round trip through the DER encoder |
| C128 | System roots | partial | fold over files and directories; induction over histories with the cached result as state |
| C129 | GetConfigForClient | partial | Configs as objects with identity and a one-time initialization; the run behind the callback compared with the run of a server started with the returned Config |
| C130 | Transport segmentation, timeouts and buffers | proved | blocks and their arrays as objects with identity in a heap, free list, transport as a script of moves; refinement to the stream connection of C28-C30 (one record: readOnce_matches), invariant that no block or array is used twice, then an invariant on the application data still to come |
| C131 | order-field arithmetic of the amd64 assembly | partial | the translated instructions executed on the machine model for all states (blocks, Montgomery steps, loop induction); a reduction step of the squaring related to the exact one by the carry it loses, and the final error shown to vanish modulo n only if no carry is lost |
| C132 | table selection, conditional move and byte order of the amd64 assembly | proved | the translated SSE instructions executed on the machine model; loop invariant (counter lanes, accumulated entry) for the two table scans; byte reversal by arithmetic on bytes |
| C133 | record sizes of Write | proved | length of one record by cases on the cipher kind (CBC padding arithmetic); the segment payload is the largest with a record of at most 1208 bytes, for every suite of the tables; induction over the write loop gives the list of sizes of a separate specification function, whose consequences are proved by induction |
| C134 | a failing client handshake tells the server | partial | every refusal of the client program has an alert (structural induction over the program); the reader leaves the sending side alone or fails with an alert as the last thing sent; induction over the run; the flush at the end of Handshake puts it on the wire |
| C135 | a client handshake over bytes | partial | the client as a program over the connection model (reads, writes, flushes, alerts, key changes); a simulation shows that every completed run over bytes is a run of the message-level model on the items delivered; then C84, C46, C123 apply |
| C136 | the keys in use after a client handshake | partial | every part of the client program is shown to change no keys, except the two exchanges of Finished and establishKeys (structural induction over programs); reading and writing preserve prepared keys; composition over the two kinds of handshake |
| C137 | the negotiated version is pinned | partial | the same composition for the version fields; the reader's cases for a connection whose version is not pinned |
| C138 | what a completed server handshake means, from the bytes | proved | the server as a program over the connection (reads, writes, alerts, flushes, key changes in the order of the Go code); a run on bytes is a run on the list of messages and ChangeCipherSpecs read (structural induction over programs), the program on items is the function of C47/C92, whose inversion gives the statement |
| C139 | a server that fails says why | partial | a predicate over programs (every failure follows an alert, or comes from reading) proved of each part of the server program and shown sound by induction over programs; the violation is computed in the kernel on a toy instance |
| C140 | the keys in use after a server handshake | proved | every part of the server program is shown to change no keys, except the two exchanges of Finished and establishKeys; a server never accepts a handshake record in place of a ChangeCipherSpec; composition over the two kinds of handshake; for the pair, agreement of the two key derivations (C41) and the pairing of the ciphers |
| C141 | what a completed handshake has put on the wire | proved | a precondition calculus for handshake programs (what may be buffered, how many ChangeCipherSpecs, which assignments), sound for runs by induction over programs; each write is a sequence of records (induction over the loop of writeRecordLocked); without keys a record is a frame; the shape of the client and the server program is established in the calculus |
| C142 | a handshake never waits with messages held back | proved | the same calculus: a read is allowed only in a state in which nothing may be held back; soundness for the list of connection states at the reads, by induction over programs |
| C143 | calls on an established connection always return | proved | an invariant of the connection in use (cipher of a suite of the tables in both directions, sequence numbers left), shown to be kept by every call; termination of the reading loops by the bytes left in the stream, of the writing loop by the bytes left to write; sequence numbers paid from a budget (one record for each byte written, two for an alert); the invariant holds after key derivation and after every completed handshake of the programs of C135-C140 |
| C144 | no index or slice of the record layer goes out of range | proved | a second transcription of the record layer with slice expressions that panic out of range, modulo that panics at zero, block modes that panic on wrong lengths, fixed-size additional data and stale buffer bytes, proved equal to the first for every input (reader, message reader, writer) |
| C145 | what ConnectionState reports | partial | the fields ConnectionState reads are derived from the run of the handshake programs (what was sent and received, the final state); agreement follows from the two runs having the same messages, with C37/C38/C77 for the choices and the order of messages for the resumption flag; channel binding through C135/C84; the GM client's VerifiedChains are proved to be those of the last certificate (C48), which violates the last sentence |
| C146 | a session is offered only to the server it came from | partial | state machine over the calls made to the cache and the handshakes begun and completed; the cache is the LRU model of C36, the handshakes are the programs of C135 over arbitrary connections; induction over the history: every session in the cache under a name has a source; the two violations are proved with C36_retention |
| C147 | ParseCertificates and Pem2Cert | proved | loop over the model of asn1.Unmarshal into a certificate (C98); each element takes at least a byte and does not depend on what follows it (Prefix), so by induction the input is the concatenation of the Raw fields |
| C148 | a chain of resumptions keeps the client's identity | proved | chains of completed handshakes as an inductive predicate on tickets; each link by C138 (any connection, any delivery) and C51; the invariant is that the ticket was sealed for the session of the origin; the hypothesis on tickets by C34 |

## Where the code does not have the property (each is a theorem `..._violated`, or an exact set)

* C08 PKCS#7 unpadding accepts exactly well-formed padding: Unpadding proved exact (C08_unpad_exact_partial); the exported helpers violate the reporting half: the negation is proved for every key (…_violated).
* C09 SM4 helper decryption never panics on hostile input: 'never panics' is false of the code: proved that the helpers panic exactly on the empty input and never elsewhere.
* C11 SM2 Verify accepts exactly the standard's equation and range: Verification decides exactly the standard's relation except that the code does not reject t = (r+s) mod n = 0: the exact acceptance set is proved, and the t = 0 acceptance is proved as a violation.
* C13 SM2 signatures produced are always standard-conformant: False of the code at d = n-1 (key generation can return it; signing then loops/yields unverifiable output) and r = 0; exact condition proved.
* C15 SM2 Decrypt inverts Encrypt: False of the code at one key: d = n-6 makes Decrypt recompute the shared point with the wrong ScalarMult (C15_key_n_minus_6_violated). Proved for every other generated key (C15_amd64_partial, real curve) and relative to any lawful curve (C15_roundtrip_partial); non-termination characterised exactly (C15_diverges_iff). The amd64 theorems are over exact field arithmetic (see C115).
* C17 SM2 Decrypt never panics on malformed ciphertext: Decrypt panics exactly on inputs below the header size; the 'never panics' half is false and its negation is proved.
* C20 SM2 signature DER wrapper: Parsing and the decision on (r,s) are proved outright; sign-then-verify through the exported helpers fails where r+s = n-6 mod n (ScalarMult defect) and Sm2KeyGen drops the generation error (proved violation).
* C22 Password-encrypted PEM round-trips: Round trip proved for every non-empty data and every password, cipher and randomness, and for private-key PEMs under non-empty passwords; empty data and the empty password violate it (proved).
* C37 Version negotiation picks the highest mutual version: Proved for servers and clients whose range is not empty. False in two respects, both proved: with MinVersion > MaxVersion the code agrees to a version below the minimum, and a client clamps a ServerHello version above its offer instead of refusing it.
* C38 Cipher suite choice is mutual and follows the preference order: Proved in full for servers (standard and GM), both directions; clients do not check that the suite fits the version (violation proved).
* C39 ALPN selection is mutual: Proved for servers; a client accepts any protocol the server names (violation proved).
* C40 Server certificate selection by name: getCertificate proved exactly; BuildNameToCertificate does not lower-case, so names with capitals are never found, and the GM server ignores the name altogether (violations proved). strings.ToLower is a parameter.
* C44 GM ECC key agreement yields the same premaster secret: The full statement fails when the encryption key's private scalar is n-6 on the generic path (C44_key_n_minus_6_violated) or when Encrypt diverges; proved for all other keys, for the generic and for the amd64 curve.
* C45 GM server survives malformed ClientKeyExchange: C45_panics_iff_partial gives the exact set of bodies on which the server panics; C45_violated exhibits that the full claim is false; C45_released bounds what is released.
* C46 GM client always authenticates the server key exchange: Proved: the ServerKeyExchange check (C46_skx_*) and everything else a completing GM client has checked (C46_handshake_partial). False of the code: the message is mandatory; any server with acceptable certificates may leave it out (C46_skx_omitted_violated).
* C52 Downgrade protection by FALLBACK_SCSV: Holds for full handshakes; on resumption the check is skipped (violation proved).
* C55 Loaded GM key pairs match their certificates: Proved for the signing pair of GMX509KeyPairs and for SM2 and ECDSA keys in X509KeyPair and GMX509KeyPairsSingle; honest pairs load. False for the encryption pair: the encryption key text is never examined and no encryption private key is returned (C55_enc_key_violated); for RSA only the modulus is compared, not the public exponent (C55_exponent_violated).
* C56 SM4 encryption leaves the caller's memory alone: The property is false of the code: the exact effect on the caller's memory is proved, with a witness that bytes are clobbered.
* C57 Scalar multiplication returns the right multiple: Go recoding, tables and loops over the assembly's point formulas on the real curve, with exact field arithmetic. The assembly's field arithmetic is exact only when no carry is lost; C115 carries the theorem over to it under that condition and gives inputs where it fails. ScalarMult is wrong exactly at k = n-6 mod n, proved as an iff and as a violation.
* C58 Field inversion is correct: C58_ideal_partial: addition chain over exact arithmetic, all elements. C58_real_partial: the real arithmetic, when no carry is lost. C58_one_violated: the inverse of 1 is wrong.
* C59 Inverse on the curve object inverts modulo the group order: Violated: the value computed over exact multiplication modulo n is proved (C59_value_partial) and that it is not the inverse (C59_inverse_violated). The assembly's squaring is not exact either (C131): C131_inverse_violated evaluates Inverse with the routines as they are.
* C61 Encrypt terminates: Violated: exact divergence condition is C15_diverges_iff; a concrete key and nonce for which Encrypt never returns is C61_encrypt_diverges_violated.
* C62 Signature encoding is unique: Exact accepted form proved; trailing data is accepted (proved violation).
* C63 ASN.1 ciphertext round trip and integrity: Round trip proved for every generated key except d = n-6; release only if the hash matches is proved outright.
* C64 ASN.1 entry points never panic: Violated; the exact panic set of DecryptAsn1 is proved.
* C65 Decrypt checks the ephemeral point: Violated: a ciphertext with an off-curve C1 is accepted (proved).
* C66 DecryptPEMBlock never panics: Violated; the exact panic set is proved.
* C67 PEM cipher selection is honoured: Violated on both sides (proved): the cipher choice has no effect on the bytes.
* C69 Parsed private keys are usable: Violated (proved); what is guaranteed, 0 <= d < n with a recomputed point, is C21_range_checked.
* C70 Issuing a session ticket never panics: Violated for configs returned by GetConfigForClient (C70_issue_panics_violated); proved for a server using its own config (C70_server_config_never_panics_partial).
* C71 Ticket key precedence with GetConfigForClient: A SessionTicketKey on the config returned by GetConfigForClient is ignored (proved violation); the other two cases of the documented precedence are proved.
* C72 Exporting keying material never panics: Proved for completed TLS 1.0-1.2/GMSSL connections and non-negative lengths; the other cases panic (proved violation).
* C73 GM session resumption: both ends verify the same Finished: Violated: the two PRF inputs are proved different for every transcript, and at the level of the two ends' handshake code (C73_resumed_handshake_violated): a GM client accepts a GM server's resumption only at a collision of the truncated PRF. The non-resumed handshake is C74.
* C75 Every version a server agrees to is supported: Holds when the configuration restricts versions to SSL 3.0-TLS 1.2; false with the default range: versions 0x0102-0x02ff are accepted and panic (violation proved).
* C76 Resumption keeps server authentication: False of the code; the negation is proved for every configuration and every suitable unverified session. It holds when all clients that share the cache verify: C146_authentic, for every history.
* C79 The server's Finished counts only under the new keys: Proved for clients that do not allow renegotiation; for the others it is false: every accepted end of a handshake is also accepted without ChangeCipherSpec (C79_ccs_skipped_violated).
* C80 Verify finds a chain whenever one exists: Proved when no certificate of the pools limits the path length and no intermediate is also a root; false in general (C80_complete_violated: a concrete pool with a valid chain that Verify rejects in one order and accepts in the other).
* C81 RSA and ECDHE key agreement: both ends get the same premaster secret: Proved with the laws of the curves, X25519 and RSA as hypotheses (Spec.KaLaw, Spec.RsaLaw, met in examples), for the standard key agreements. Violated (theorem) for a server with an SM2 certificate at TLS 1.2, whose ServerKeyExchange no client accepts. SSL 3.0 RSA framing is outside the RSA theorem.
* C82 ECDHE parameters are used only if the server signed them: Proved for the standard client. For the GM ECDHE client the signature is proved to be required, but the signed value is not used when the curve id is 29: the premaster secret is then X25519 of zeros (theorem _violated). RSA/ECDSA verification are parameters.
* C83 Key exchange messages cannot crash the process: Proved for the standard server functions, ECDHE ServerKeyExchange processing and the ECDHE client. Violated: RSA suites with a non-RSA server certificate (CVE-2021-34558), GM ECDHE client with an unknown signed curve id, GM ECDHE server functions.
* C85 GM server certificates may be issued by intermediate CAs: False of the code; proved that no server whose first three certificates need an intermediate is ever accepted.
* C87 A renegotiation is bound to the connection it happens on: Proved when the first ServerHello announced secure renegotiation, and for the standard client's hello. False otherwise: without the announcement any value is accepted (C87_unannounced_violated); the GM client never sends the extension (C87_gm_client_violated).
* C96 A template that cannot be represented is refused: The property as stated is false of the code; the theorems prove the negations (any IP of another length; an empty exclusion; a panic).
* C101 A certificate has one encoding: violated by the code: trailing bytes inside the outer SEQUENCE are ignored; theorem C101_unique_encoding_violated
* C104 The signature algorithm a certificate names is the one used: violated by the code for SM2 keys: the named digest is ignored; theorems C104_*_violated
* C105 A certificate request round-trips and its signature checks: proved for SM2 keys with the default algorithm or SM2 with SM3; false for RSA keys (unsigned, nil error) and the other SM2 algorithms (read as ECDSA), proved as C105_*_violated
* C106 CreateCertificateRequest leaves its template alone: violated by the code; the partial theorem is the exact condition under which it holds
* C110 Key exchange messages are read strictly: holds for ECDHE and RSA; for GM the first length byte is ignored (C110_gm_violated, C110_gm_long_violated)
* C111 Name constraints reach verification, and critical ones that cannot be checked are refused: holds for the last NameConstraints extension; earlier ones are overwritten (C111_repeated_violated)
* C112 What a certificate request says is signed: the kind of key is excluded, and C112_key_kind_violated shows it must be
* C113 Montgomery multiplication of the amd64 assembly: condition: no reduction step loses a carry (decidable, checked on concrete operands); C113_one_violated and C113_to_montgomery_violated show it cannot be dropped
* C114 Point routines of the amd64 assembly: conditions: no lost carry in the field operations; for additions, points different and not infinity (the formulas are incomplete, the callers guard this, see C57)
* C115 Scalar multiplication of the amd64 build, down to the machine words: condition: no lost carry (and k != n-6 for ScalarMult); violated without it (C115_times_one_violated, C115_n_minus_6_violated)
* C116 Zero test and equality flag of the amd64 assembly: right except at one residue (C116_isZero_partial); C116_flag_violated gives two points of the curve
* C117 Negation in the amd64 assembly: the result is always congruent to -y; C117_zero_violated and C117_affine_violated show it is not always reduced
* C119 Signatures and encryption on arm64: encryption without exception; signatures except the key n-1 and zero halves (C13), for which the code does not retry
* C120 Decrypt reveals nothing about the private key to a sender of invalid points: violated: exact condition (C120_oracle_violated) and a fixed ciphertext that tells the lowest bit of every key (C120_lowest_bit_violated)
* C121 Concurrent use of a connection: deadlock freedom, one handshake, finality of failure, Close in full; the clause about Write is violated (C121_write_refused_violated). That the protection of Close against a stuck Write works is C31
* C122 Records sent by concurrent goroutines have distinct sequence numbers: full for peers that do not announce oversized handshake messages; with them violated (C122_unlocked_alert_violated)
* C124 GM handshakes in the single_cert build: Violated: an accepted RSA or ECDSA certificate makes the client panic (C124_other_key_panic_violated) and the signature may be left out (C124_skx_omitted_violated). The rest is proved.
* C125 Dial, Listen and Clone: Violated: the caller's SessionTicketKey (or SessionTicketsDisabled) is modified by a dial (C125_argument_modified_violated); Listen accepts Configs with which the GM server answers no client (C125_listen_gm_violated). The rest is proved.
* C126 Ticket keys of a Config in use: Violated: a SetSessionTicketKeys call that races with the first server handshake is lost (C126_keys_lost_violated, C126_disabled_violated), and rotation never reaches a Config already returned by GetConfigForClient (C126_rotation_unseen_violated). Without such a race it is proved for all schedules.
* C127 RSA private keys in PKCS#1: Violated: Validate accepts a repeated prime (C127_repeated_violated) and composite factors (C127_composite_violated), with which decryption is wrong; MarshalPKCS1PrivateKey silently returns an empty text for some keys (C127_marshal_empty_violated). For distinct primes it is proved.
* C128 System roots: Violated: without any file or directory neither a pool nor an error results (C128_nil_nil_violated), and a failed first load is remembered by Verify for ever (C128_never_again_violated). The rest is proved.
* C129 GetConfigForClient: The code violates two parts, both proved: a GM client is shown as supporting no version at all (C129_gm_version_violated), and the kind of handshake (GM or TLS) is chosen from the original Config, so a returned Config of the other kind does not take effect (C129_kind_violated). Everything else is proved: C129_info_partial (the list of versions for TLS versions, all other fields for all clients), C129_returned_partial (same kind), C129_nil, C129_error.
* C131 order-field arithmetic of the amd64 assembly: Violated by the squaring. Proved: C131_ordMul for all operands; C131_ordSqr_count (n squarings are n single ones); C131_ordSqr_partial: for reduced operands a squaring is right exactly if none of its four steps loses a carry; C131_ordSqr_violated (the Montgomery form of one) and C131_inverse_violated (Inverse(1) with the routines as they are).
* C134 a failing client handshake tells the server: Proved for Handshake (C134_alert_sent). Violated by renegotiations: handleRenegotiation does not flush, the alert stays in the buffer and no later call (Close included) sends it: C134_renegotiation_violated.
* C135 a client handshake over bytes: Standard client proved (C135_standard). GM client (C135_gm_partial): everything except the mandatory ServerKeyExchange of the ECC suites, whose omission the code accepts (C46_skx_omitted_violated); also the single-certificate GM client is only covered up to the item level. Complete runs over bytes, full and resumed: toyRun_completes, toyRun2_completes.
* C136 the keys in use after a client handshake: Proved except for standard clients that allow renegotiation (C136_keys_partial); violated there: C136_clear_violated.
* C137 the negotiated version is pinned: Proved for standard clients (C137_standard); violated by GM clients: C137_gm_unpinned, C137_gm_version_violated, C137_gm_helloRequest_violated.
* C139 a server that fails says why: Proved when tickets can be sealed (C139_alert_sent_partial); violated otherwise: C139_unsealed_violated.
* C145 what ConnectionState reports: All proved except the last sentence, which is false of the GM client with two certificates: it overwrites the chains with those of each later certificate (C145_gm_chains_violated, proved).
* C146 a session is offered only to the server it came from: All proved except 'a session is offered only to the server it came from', which is false: C146_renegotiation_violated and C146_address_violated (proved, for every history).
