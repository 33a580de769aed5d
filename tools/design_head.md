# Formal model of Hyperledger-TWGC/ccs-gm in Lean 4

## Trusted base

* Lean 4.33.0's kernel.
* Axioms: only Lean's `propext`, `Classical.choice`, `Quot.sound` (or fewer) under every theorem.
  No axiom is declared; `native_decide` and `bv_decide` are not used. `decide +kernel` is used for
  finite facts (tables, literals, whole-domain checks on bytes); it is kernel evaluation.
* The reading of the Go source. The model was written by hand from `/repo`; every definition cites
  the lines it models and says where it simplifies. Nothing was run against the Go code; only
  `Sm2/Asm/Code.lean` was generated (from `sm2/sm2p256_amd64.s`, one term per instruction).
* Facts about Go used in the reading: slices are lists (aliasing only where a property needs it:
  C53, C56); a run-time panic is the explicit outcome `Res.panic`; `uintN` arithmetic is `BitVec N`
  where wrap-around matters and `Nat` otherwise; a random source is the bytes it delivers before it
  fails; an endless loop is `none` where it can happen (`sm2.Encrypt`), and where the model uses
  fuel, a theorem says that the fuel suffices.

## Parameters (library code that is not modelled, with the laws assumed of it)

A law is a hypothesis of the theorem that needs it (a structure in the statement), never an axiom,
and an instance is given in an example beside it.

| parameter | where | law used |
|---|---|---|
| exact field arithmetic in `Sm2/Amd64` | C57, C58 (ideal), C10, C15 on amd64 | the theorems named so are over exact Montgomery arithmetic; `Sm2/Asm` executes the assembly itself (a machine model, translated by `tools/asm2lean.py`) and C113-C117 say exactly when it is exact and where it is not |
| curve object | `Sm2` | `Sm2.Lawful`: a cyclic group of order n; instances for the amd64 curve (over exact arithmetic) and, without exceptions, for the arm64 curve, whose generic `elliptic.CurveParams` methods are modelled from the published Go 1.16 source |
| AES, SHA-1/256/384/512, MD5, HMAC, RC4, 3DES, AEADs | `Tls`, `Keys` | block ciphers invert; AEAD open inverts seal (`Prims.Lawful`); hashes are arbitrary functions |
| RSA, ECDSA, DSA, NIST curves, X25519 | `Tls/KeyAgreement`, `X509` | arbitrary predicates; `KaLaw`, `RsaLaw`, `HonestSigner` where agreement is claimed |
| `encoding/asn1` | `Asn1/Der`, `Keys`, `Sm2/External` | modelled at byte level (Go 1.16 rules), not a parameter, incl. certificates, requests and CRLs (`X509/Asn1`, `Cert`, `Csr`, `Crl`); in `Tls` `x509.ParseCertificate` is an arbitrary function |
| `strings.ToLower`, `EqualFold`, `net.ParseIP` | `Tls/Negotiation`, `X509` | arbitrary functions |
| clock, callbacks, key log writers | everywhere | arbitrary values and functions; `x509.Verify` reads the clock once |

## Layout

* `Go.lean` - bytes, results with errors and panics, big-endian integers. `Subtle.lean` - C53.
* `Sm3`, `Sm4`, `Sm2`, `Asn1`, `Std`, `Keys`, `X509`, `Tls` - one directory per area; `Model.lean` (or the file named
  after the code) holds the model, `Spec` namespaces or files hold the specifications, `*Props.lean` the theorems `Cxx_...` with
  examples that meet their hypotheses.
* A theorem `Cxx_..._partial` proves the property under a restriction that is in its statement; `Cxx_..._violated` proves the
  negation of the unrestricted property about the code as it is. The note in `MANIFEST.json` says which part fails.

## What is modelled

| code | model | not modelled |
|---|---|---|
| `sm3/` | `Sm3/Model` all | - |
| `sm4/` | `Sm4/Model`, `Sm4/Tables` all, incl. memory effects of padding (C56) | cipher.BlockMode wrappers beyond ECB/CBC helpers |
| `sm2/` | `Sm2/Model` (sign, verify, encrypt, decrypt, KDF, key generation), `Sm2/External` (DER wrappers, ASN.1 ciphertexts), `Sm2/Amd64` (curve object: recoding, tables, ScalarMult, ScalarBaseMult, inversion chain, Inverse), `Sm2/Arm64` (generic curve arithmetic), `Sm2/Asm` (amd64 assembly: all routines executed) | - |
| `x509` keys, PEM, `utils/keys.go` | `Keys/*` (EC and PKCS#8 keys, public keys, PBKDF2, PEM encryption), `Keys/KeyPair` (tls.X509KeyPair & co.) | - |
| `x509` certificates, requests, CRLs | `X509/Asn1` (bytes), `Ext*` (extensions built and parsed), `Cert*`, `Prefix`, `Issue*` (parsing, creation), `Csr*`, `Crl*`, `Many` (ParseCertificates, Pem2Cert), `ConstraintProps`, `StrictProps` | string encodings of names beyond printable/UTF8 as noted there |
| `x509` verification | `X509/*` (CertPool, name matching, key usages, checkSignatureFrom, Verify search, SystemRoots) | the file system itself is arbitrary |
| `tls` record layer | `Tls/Record`, `Conn`, `Reassembly`, `Establish`, `CloseInterlock`, `Live`, `WriteProps`, `IvProps`, `CloseProps`, `Sizing`; input buffers in memory, segmentation and temporary errors: `Blocks`, `BlocksProps`, `BlocksRead` | alerts' text, output buffers' memory, CCS/alert warning counters as read |
| `tls` messages | `Tls/Messages*` (all marshal/unmarshal, dispatch, session state) | - (writers are modelled as concatenation of the fields they lay out) |
| `tls` key schedule | `Tls/Prf`, `FinishedProps`, `KeyProps`, exporter | - |
| `tls` negotiation | `Tls/Negotiation` (both server kinds, both client kinds: versions, suites, ALPN, SCSV, resumption, certificate choice; `Tls/SingleCertProps` for the build tag `single_cert`; `Tls/ConfigForClient` for `GetConfigForClient`) | `ClientHelloInfo.Conn` |
| `tls` key agreement | `Tls/GmKeyAgreement`, `Tls/KeyAgreement` | - |
| `tls` full handshakes | `Tls/ClientFull`, `Tls/ServerAuth`, `Tls/ServerFlight`, `FlightProps` (both kinds) over lists of handshake items; client and server also as programs over the connection: `Tls/HsProg`, `HsItems`, `HsRun`, `HsSafe`, `HsAlerts`, `HsKeys`, `SrvProg`, `SrvItems`, `SrvRun`, `SrvAlerts`, `SrvKeys`, `HsWire`, `HsWireProps`, `Returns`, `ReturnsHs`, `Slices`, `SlicesConn`, `SlicesWrite`, `ConnState`, `ConnStateExamples`, `SessionCache`, `SessionCacheExamples`, `TicketChain`, `TicketChainExamples` (order of reads, writes, alerts, buffering, flushes, key changes) | the server's failing writes; how records become items is `Reassembly`/`Establish` |
| `tls` resumed handshakes | `Tls/Resume` (both ends, both kinds) | as above |
| `tls` renegotiation | `Tls/Renegotiation` (Handshake, Read, Write, handleRenegotiation around an arbitrary handshake), `RenegBind` | - |
| `tls` locks | `Tls/Locks` (handshakeMutex, in, out; any number of goroutines; steps at lock operations), `Tls/CloseInterlock` | deadlines, memory model of non-atomic accesses (sequentially consistent steps) |
| tickets, caches | `Tls/Ticket`, `Tls/TicketRace` (serverInit against SetSessionTicketKeys), `Tls/Lru` | - |
| `tls/tls.go` Dial, Listen, `Config.Clone` | `Tls/Dial` (three threads, all interleavings) | real time; `net.Dialer` and `Handshake` are arbitrary |
| `internal/subtle` | `Subtle` | - |
| `x509/pkcs1.go` (RSA private keys) | `Keys/Rsa`, `Keys/RsaProps` | key generation; `rsa.Validate`/`Precompute` are modelled from the Go library's documented code |
| `internal/randutil`, non-Unix `x509/root_*.go` | - | not modelled (randutil is not used by the code; the others are not built on Linux) |

Constant-time behaviour, timing and goroutine scheduling below the level of locks and atomic operations are not expressible here.

## Plan and state per property

| id | property | state | how |
|----|----------|-------|-----|
