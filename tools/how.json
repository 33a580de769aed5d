{
 "C01": "refinement: after any history the digest represents the concatenated bytes; specification transcribed from GB/T 32905",
 "C02": "refinement: after any history the digest represents the concatenated bytes; specification transcribed from GB/T 32905",
 "C03": "refinement: after any history the digest represents the concatenated bytes; specification transcribed from GB/T 32905",
 "C04": "Feistel inversion; whole-table kernel evaluation lifted by xor-linearity; list induction for modes and padding; exact panic sets",
 "C05": "Feistel inversion; whole-table kernel evaluation lifted by xor-linearity; list induction for modes and padding; exact panic sets",
 "C06": "Feistel inversion; whole-table kernel evaluation lifted by xor-linearity; list induction for modes and padding; exact panic sets",
 "C07": "Feistel inversion; whole-table kernel evaluation lifted by xor-linearity; list induction for modes and padding; exact panic sets",
 "C08": "Feistel inversion; whole-table kernel evaluation lifted by xor-linearity; list induction for modes and padding; exact panic sets",
 "C09": "Feistel inversion; whole-table kernel evaluation lifted by xor-linearity; list induction for modes and padding; exact panic sets",
 "C56": "effect on the caller's backing array as a function",
 "C10": "algebra in ZMod n over `Lawful` curves; list algebra for encodings",
 "C11": "algebra in ZMod n over `Lawful` curves; list algebra for encodings",
 "C12": "algebra in ZMod n over `Lawful` curves; list algebra for encodings",
 "C13": "algebra in ZMod n over `Lawful` curves; list algebra for encodings",
 "C14": "algebra in ZMod n over `Lawful` curves; list algebra for encodings",
 "C15": "algebra in ZMod n over `Lawful` curves; list algebra for encodings",
 "C16": "algebra in ZMod n over `Lawful` curves; list algebra for encodings",
 "C17": "algebra in ZMod n over `Lawful` curves; list algebra for encodings",
 "C18": "algebra in ZMod n over `Lawful` curves; list algebra for encodings",
 "C19": "algebra in ZMod n over `Lawful` curves; list algebra for encodings",
 "C20": "algebra in ZMod n over `Lawful` curves; list algebra for encodings",
 "C57": "amd64 curve: invariants of the recoding loops, addition chains as powers; primality certificate; witnesses in the kernel",
 "C58": "amd64 curve: invariants of the recoding loops, addition chains as powers; primality certificate; witnesses in the kernel",
 "C59": "amd64 curve: invariants of the recoding loops, addition chains as powers; primality certificate; witnesses in the kernel",
 "C60": "amd64 curve: invariants of the recoding loops, addition chains as powers; primality certificate; witnesses in the kernel",
 "C61": "amd64 curve: invariants of the recoding loops, addition chains as powers; primality certificate; witnesses in the kernel",
 "C62": "amd64 curve: invariants of the recoding loops, addition chains as powers; primality certificate; witnesses in the kernel",
 "C63": "amd64 curve: invariants of the recoding loops, addition chains as powers; primality certificate; witnesses in the kernel",
 "C64": "amd64 curve: invariants of the recoding loops, addition chains as powers; primality certificate; witnesses in the kernel",
 "C65": "amd64 curve: invariants of the recoding loops, addition chains as powers; primality certificate; witnesses in the kernel",
 "C21": "byte-level round trips, exact accepted forms, witnesses",
 "C22": "byte-level round trips, exact accepted forms, witnesses",
 "C23": "byte-level round trips, exact accepted forms, witnesses",
 "C66": "byte-level round trips, exact accepted forms, witnesses",
 "C67": "byte-level round trips, exact accepted forms, witnesses",
 "C68": "byte-level round trips, exact accepted forms, witnesses",
 "C69": "byte-level round trips, exact accepted forms, witnesses",
 "C24": "invariants over histories of the connection, refinement of the stream",
 "C25": "invariants over histories of the connection, refinement of the stream",
 "C26": "invariants over histories of the connection, refinement of the stream",
 "C27": "invariants over histories of the connection, refinement of the stream",
 "C28": "invariants over histories of the connection, refinement of the stream",
 "C29": "invariants over histories of the connection, refinement of the stream",
 "C30": "invariants over histories of the connection, refinement of the stream",
 "C31": "invariants over histories of the connection, refinement of the stream",
 "C78": "invariants over histories of the connection, refinement of the stream",
 "C32": "round trip and totality for every message, then the dispatch",
 "C33": "round trip and totality for every message, then the dispatch",
 "C34": "direct, with cipher laws",
 "C35": "direct, with cipher laws",
 "C70": "direct, with cipher laws",
 "C71": "direct, with cipher laws",
 "C36": "refinement of an LRU list",
 "C37": "decision logic, both directions where possible",
 "C38": "decision logic, both directions where possible",
 "C39": "decision logic, both directions where possible",
 "C40": "decision logic, both directions where possible",
 "C51": "decision logic, both directions where possible",
 "C52": "decision logic, both directions where possible",
 "C75": "decision logic, both directions where possible",
 "C76": "decision logic, both directions where possible",
 "C77": "decision logic, both directions where possible",
 "C41": "list induction on P_hash; transcript invariant of the hash object",
 "C42": "list induction on P_hash; transcript invariant of the hash object",
 "C43": "list induction on P_hash; transcript invariant of the hash object",
 "C72": "list induction on P_hash; transcript invariant of the hash object",
 "C73": "list induction on P_hash; transcript invariant of the hash object",
 "C74": "list induction on P_hash; transcript invariant of the hash object",
 "C44": "inversion of each function, agreement from the laws, exact panic sets",
 "C45": "inversion of each function, agreement from the laws, exact panic sets",
 "C46": "inversion of each function, agreement from the laws, exact panic sets",
 "C81": "inversion of each function, agreement from the laws, exact panic sets",
 "C82": "inversion of each function, agreement from the laws, exact panic sets",
 "C83": "inversion of each function, agreement from the laws, exact panic sets",
 "C47": "inversion of the run of the server; policy table as specification",
 "C48": "induction on the search; explicit chain specification; counterexamples",
 "C49": "induction on the search; explicit chain specification; counterexamples",
 "C50": "induction on the search; explicit chain specification; counterexamples",
 "C80": "induction on the search; explicit chain specification; counterexamples",
 "C53": "addresses, omega",
 "C54": "invariant over all calls on a connection; composition of two handshakes",
 "C87": "invariant over all calls on a connection; composition of two handshakes",
 "C55": "inversion of the loaders",
 "C79": "inversion of the run of the client",
 "C84": "inversion of the run of the client",
 "C85": "inversion of the run of the client",
 "C86": "inversion of the run of the client",
 "C88": "forward evaluation of both ends on each other's messages",
 "C89": "Induction over the write loop; each record is computed by writeOne and shown equal to a separate wire specification (Spec.explicitRecords / Spec.chainedRecords).",
 "C90": "inversion of the calls; the alert record by the write-loop theorem of C28",
 "C91": "two-byte case split; the byte facts are decided over all 256 bytes",
 "C92": "length bound of the two's complement encoding and the round trip of DER integers",
 "C93": "round-trip lemma for each of the ten extensions, composed over the loop of the parser",
 "C94": "induction over the loop of the parser",
 "C95": "inversion of the ten blocks of the builder",
 "C96": "violated: general theorem for IP lengths, explicit templates for the others",
 "C97": "case analysis over the finite tables (key kinds × algorithms), kernel-evaluated completely",
 "C98": "DER round trip composed field by field from the element lemmas of Asn1/CertRound; extensions by C91",
 "C99": "C98 composed with C10",
 "C100": "inversion of the outer parser: the TBS is parsed from its own bytes only",
 "C101": "violated: general theorem over all certificates and junk; partial from C100",
 "C102": "C94 composed with C48",
 "C103": "C98, C99, C48 and completeness of the path builder",
 "C104": "violated: general theorems on check and signer",
 "C105": "DER round trip as for C98, composed with C10; violations are general theorems over all templates",
 "C106": "exact characterisation of when the template changes",
 "C107": "DER round trip with lists by induction (marshalAll_parse), composed with C10",
 "C108": "inversion of the outer parser as for C100",
 "C109": "symbolic run of the flight; message lists compared with a separate specification `Spec.flight`",
 "C110": "inversion of the parsers; the GM violation is a general theorem",
 "C111": "DER of a general NameConstraints value written in the specification, read back by induction over the subtrees; loop invariant over the extensions; the violation is a concrete pair of extensions",
 "C112": "inversion of the parser; concrete violation",
 "C113": "the assembly text is translated instruction by instruction (tools/asm2lean.py) into a machine model with carry flag; symbolic execution for every state gives a number-level function; that function is Montgomery multiplication if every reduction step is exact; kernel evaluation of the violating operands",
 "C114": "execution theorems for the point routines from any state, then a simulation between real, checked and ideal field arithmetic, then the group law of C57",
 "C115": "simulation: every operation of the Go code over the real arithmetic is related to the same operation over a checked arithmetic that records lost carries, and over the field; kernel evaluation of the violating inputs",
 "C116": "execution from any state; concrete violating points",
 "C117": "execution from any state",
 "C118": "statement-by-statement model of crypto/elliptic (Go 1.16) over the integers, cast to the field; completeness of the addition by cases; induction over the bits of the scalar",
 "C119": "the arm64 curve object is a `Lawful` curve without exceptions, so the general theorems apply",
 "C120": "the generic multiplication computes in the group of the curve through the given point; kernel evaluation of two SM3 values for the fixed ciphertext",
 "C121": "transition system of n goroutines with a step for every lock operation and every access to the status; invariant by induction over executions; wait-for graph ranked",
 "C122": "same transition system; invariant: every record sent is below the current (epoch, sequence number), and only the holder of `out` is between taking and storing it",
 "C123": "inversion of both ends' code over arbitrary item lists; the two ends composed for honest peers, from the hellos on (C77, C34)",
 "C124": "the two-certificate model with a build flag; inversion of the client's code (an iff for the identity check), reduction of the server's choice to the two-certificate server; the two ends composed (C88)",
 "C125": "transition system of caller, handshake goroutine and timer, invariant over all reachable states; induction over the address; the ticket part of Clone with C34",
 "C126": "transition system of serverInit against SetSessionTicketKeys, invariant; fold over histories of connections and rotations for two Configs",
 "C127": "DER reader of the number sequence and Validate as code; Fermat and the Chinese remainder theorem (Mathlib) for usability; round trip through the DER encoder",
 "C128": "fold over files and directories; induction over histories with the cached result as state",
 "C130": "blocks and their arrays as objects with identity in a heap, free list, transport as a script of moves; refinement to the stream connection of C28-C30 (one record: readOnce_matches), invariant that no block or array is used twice, then an invariant on the application data still to come",
 "C129": "Configs as objects with identity and a one-time initialization; the run behind the callback compared with the run of a server started with the returned Config",
 "C131": "the translated instructions executed on the machine model for all states (blocks, Montgomery steps, loop induction); a reduction step of the squaring related to the exact one by the carry it loses, and the final error shown to vanish modulo n only if no carry is lost",
 "C132": "the translated SSE instructions executed on the machine model; loop invariant (counter lanes, accumulated entry) for the two table scans; byte reversal by arithmetic on bytes",
 "C133": "length of one record by cases on the cipher kind (CBC padding arithmetic); the segment payload is the largest with a record of at most 1208 bytes, for every suite of the tables; induction over the write loop gives the list of sizes of a separate specification function, whose consequences are proved by induction",
 "C135": "the client as a program over the connection model (reads, writes, flushes, alerts, key changes); a simulation shows that every completed run over bytes is a run of the message-level model on the items delivered; then C84, C46, C123 apply",
 "C134": "every refusal of the client program has an alert (structural induction over the program); the reader leaves the sending side alone or fails with an alert as the last thing sent; induction over the run; the flush at the end of Handshake puts it on the wire",
 "C136": "every part of the client program is shown to change no keys, except the two exchanges of Finished and establishKeys (structural induction over programs); reading and writing preserve prepared keys; composition over the two kinds of handshake",
 "C137": "the same composition for the version fields; the reader's cases for a connection whose version is not pinned",
 "C138": "the server as a program over the connection (reads, writes, alerts, flushes, key changes in the order of the Go code); a run on bytes is a run on the list of messages and ChangeCipherSpecs read (structural induction over programs), the program on items is the function of C47/C92, whose inversion gives the statement",
 "C139": "a predicate over programs (every failure follows an alert, or comes from reading) proved of each part of the server program and shown sound by induction over programs; the violation is computed in the kernel on a toy instance",
 "C140": "every part of the server program is shown to change no keys, except the two exchanges of Finished and establishKeys; a server never accepts a handshake record in place of a ChangeCipherSpec; composition over the two kinds of handshake; for the pair, agreement of the two key derivations (C41) and the pairing of the ciphers",
 "C141": "a precondition calculus for handshake programs (what may be buffered, how many ChangeCipherSpecs, which assignments), sound for runs by induction over programs; each write is a sequence of records (induction over the loop of writeRecordLocked); without keys a record is a frame; the shape of the client and the server program is established in the calculus",
 "C142": "the same calculus: a read is allowed only in a state in which nothing may be held back; soundness for the list of connection states at the reads, by induction over programs",
 "C143": "an invariant of the connection in use (cipher of a suite of the tables in both directions, sequence numbers left), shown to be kept by every call; termination of the reading loops by the bytes left in the stream, of the writing loop by the bytes left to write; sequence numbers paid from a budget (one record for each byte written, two for an alert); the invariant holds after key derivation and after every completed handshake of the programs of C135-C140",
 "C144": "a second transcription of the record layer with slice expressions that panic out of range, modulo that panics at zero, block modes that panic on wrong lengths, fixed-size additional data and stale buffer bytes, proved equal to the first for every input (reader, message reader, writer)",
 "C145": "the fields ConnectionState reads are derived from the run of the handshake programs (what was sent and received, the final state); agreement follows from the two runs having the same messages, with C37/C38/C77 for the choices and the order of messages for the resumption flag; channel binding through C135/C84; the GM client's VerifiedChains are proved to be those of the last certificate (C48), which violates the last sentence",
 "C146": "state machine over the calls made to the cache and the handshakes begun and completed; the cache is the LRU model of C36, the handshakes are the programs of C135 over arbitrary connections; induction over the history: every session in the cache under a name has a source; the two violations are proved with C36_retention",
 "C147": "loop over the model of asn1.Unmarshal into a certificate (C98); each element takes at least a byte and does not depend on what follows it (Prefix), so by induction the input is the concatenation of the Raw fields",
 "C148": "chains of completed handshakes as an inductive predicate on tickets; each link by C138 (any connection, any delivery) and C51; the invariant is that the ticket was sealed for the session of the origin; the hypothesis on tickets by C34"
}