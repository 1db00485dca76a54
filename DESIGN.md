# Design of the siotls formal model

Target: `Julien00859/siotls` as found in `/repo` (a sans-IO TLS 1.3 stack in Python).
Tool: Lean 4.33.0. Everything lives in `lean/Verif/`, is imported from `lean/Verif.lean`
and is built with `lake build`.

## 1. Shape of the model

Python code is modelled as small, total, computable Lean functions that mirror the Python
functions branch by branch:

* bytes / bytearray: `List UInt8`; unbounded ints: `Nat` (or `Int` where it can go negative);
  IntEnum members: their integer value (`==`/`in` on IntEnum compare values; the few `is`
  comparisons are modelled by constructors); `str`: `List Char`; dict: insertion-ordered
  association list.
* exceptions are values: `Exn` has one constructor per exception class that the code (or the
  runtime, e.g. AttributeError on a misspelled attribute) raises.
* parsers are functions `Stream -> Except Exn (a x Stream)`; connection methods are functions
  `Conn -> Except Exn a x Conn`: mutations done before an exception are kept, as in Python.
* loops recurse on a decreasing measure or on a fuel proved sufficient.
* the connection carries a ghost trace (`tr`) that no modelled code reads: records emitted,
  AEAD calls, handshake messages entering the transcript, data delivered.

Modules, `Verif/Model`: `Bytes`, `Exn`, `Iana`, `Serial` (serial.py), `SerialObject` (the same as a mutable object, with `lookahead`), `Extensions`, `Handshakes`,
`Contents` (contents/), `Env` (external calls), `Hkdf`, `Ciphers` (crypto/), `Transcript`, `Config`,
`Frozen` (configuration.py), `Conn` (the fields of a connection), `Connection` (record layer, sending
and receiving), `Client`, `Server` (states/), `Api` (public methods), `Ocsp` (trust store and OCSP),
`KeyExchange` (FFDHE), `Utils`, `Wrapper` (wrapper.py over a socket oracle). `Toy*` are a concrete environment and concrete histories, used only in
`example`s and counterexamples.

`Verif/Spec` holds the specifications, which do not mention the model's helpers (RFC formulas,
handshake grammar, list specifications, what is read off a history) and the assumptions on external
code. `Verif/Proofs` holds helper lemmas, `Verif/Props` the property theorems, each with an `example`
showing that its hypotheses can be met.

How the proofs over all histories work: `Lts` defines atomic steps of a connection with guards that
record what the code checked before; `Run*`/`LtsSim` show that every API method is a sequence of such
steps whatever its input and whether or not it raises. An invariant is then proved for the atomic
steps once and holds in every history (`KeyInv`, `Nonces`, `Phase`, `OrderInv`, `OrderServer`, `Retry`,
`SinceInv`, `AuthInv`, `CertInv`, `DoneInv`, `AlgInv`, `Mfl`, `Alive`, `Hear`, `NegInv`, `NegClient`, `Suites`, `KeyLog`).
Equational facts about whole methods use `Built` (methods as programs over primitives), `Frame`,
`Effect`, `Flow`, `Loop`, `Split`, `Read`, `Refuse`.

Two endpoints end to end (C56): `Session` and `Flight` evaluate sending and receiving symbolically, up to
ghost events (`Gives`); `Handlers` does so for every handler of an honest handshake; `Smooth` shows
that a stream of such records may be cut anywhere; `Meet` plays the three flights; `EndToEnd` derives its
hypotheses from `Spec.Compatible` configurations and a correct `Spec.Library`.

## 2. Trusted base

* Lean's kernel. Theorems may only depend on `propext`, `Classical.choice`, `Quot.sound`
  (`#print axioms`). No own axioms, no `sorry`, no `native_decide`/`bv_decide`.
* The hand translation from Python to Lean: every definition cites the lines it models.
* External code appears as the fields of a structure `Env` over which theorems quantify:
  hashlib/hmac digests, the AEAD ciphers, key exchange primitives, signatures, X.509 parsing
  and path validation, OCSP DER parsing, IDNA, `ip_address`. Nothing is assumed about them
  unless a theorem says so in an explicit hypothesis (e.g. "open after seal gives back the
  plaintext").
  The named assumptions, all explicit hypotheses and all true of the toy environment:
  `Env.Sized` (digests have the size of their algorithm), `Env.Outside` (which exceptions external calls
  raise), `Env.Seals` (sealing adds a tag), `Env.Opens` (opening what was sealed gives it back),
  `Env.Shares` (a shared secret is not the empty string), `NoForgery` (what a receiver opens under the
  sender's current key was sealed by the sender: the ideal AEAD, per history), `Env.Blind` (C91: ciphertexts
  depend on the plaintext only through its length; met by `Env.blindfold` of any environment), `Spec.Limited` (a
  suite has a usage limit: every suite but the CCM ones).
  `Spec.Library` (C56) collects what a correct library does: sealing and opening, Diffie-Hellman
  agreement, signatures that verify, certificates that load back, and sizes.
* An `Env` also holds the random choices of one endpoint (key pairs, signatures). C56 runs the client in
  `E` and the server in `E.elsewhere kex sign`, which has the same functions and other random choices.
* `service.cache`/`uncache` and loggers are assumed not to raise. The lines given to the key logger are
  ghost events (`Ev.logged`).
* Random values are inputs (constructor arguments or an oracle indexed by a counter).
* Not modelled: logging (but key logging is), `repr`, argument parsing, docs, tests, the
  real sockets/HTTP/time (inputs), garbage collection,
  memory exhaustion, thread interleavings (the library is not thread safe by design).

## 3. Properties and plan

"F" marks properties which reading the code shows to be false in general: for these the plan
is a theorem proving the negation on a concrete witness plus the strongest `_partial` theorem.

| id | what is modelled | how it is proved |
|----|------------------|------------------|
| C01 | `SerialIO` readers/writers | equational proof, induction on lists |
| C02 | `SerialIO.limit`, programs of reads as an inductive type | induction on programs |
| C03 | `Alert.parse/serialize` | case analysis, big-endian lemmas |
| C04 (F) | every extension class | per-class round trip; negation for the classes that cannot be serialized |
| C05 | every handshake message | composition of C01/C04 |
| C06 (F) | whole receive path | witnesses; partial: exact list of exception classes a parser can raise |
| C07 (F) | `receive_data` loop | simulation on the drain loop; witness for short handshake fragments |
| C08 | `_read_next_record` | unfolding, induction on the number of CCS records |
| C09 (F) | `_send_content` / `_read_next_content` | induction on fragments; false when a full encrypted fragment overflows |
| C10 (F) | `_encrypt` padding arithmetic | arithmetic; exact characterization of the overflowing sizes |
| C11 | idem | arithmetic |
| C12 (F) | `_read_next_record` | the alert is internal_error: negation, partial: always refused, nothing buffered |
| C13 (F) | `_read_next_content` | witness + general: always internal_error |
| C14, C15 | ciphers + all API histories | invariant on the ghost trace, XOR injectivity |
| C16 | two connections | composition of C09 and C07 along any schedule |
| C17 | receiver against arbitrary bytes | invariant by induction on the history, ideal-AEAD hypothesis |
| C18 | all histories | invariant |
| C19 (F) | all histories | witnesses (close_notify in the clear); partial: histories without closing |
| C20, C21, C22 | client/server states | state invariant carrying the crypto facts |
| C23 (F) | all histories | witness (close_receiving_end); partial without it |
| C24 (F) | all histories | witness (peer close_notify resets the flags); partial |
| C25 (F) | idem | witness; partial for close_receiving_end |
| C26 | `State.process` for alerts | case analysis over states |
| C27 (F) | `receive_data` | witness when the sending end is closed; partial otherwise |
| C28 | `Transcript.update` | automaton refinement to a grammar, induction |
| C29 (F) | `Transcript` + states | invariant; client HRR transcript is wrong: negation |
| C30 (F) | states | server: invariant; client: witness of unbounded retries |
| C31 | API | unfolding |
| C32 | API | frame/commutation lemmas, induction on histories |
| C33-C36, C38 | server/client negotiation | decision logic vs list specification |
| C37 | client | state invariant |
| C39 (F) | ClientHello construction | negation: no ClientHello ever carries the extension; partial: server side |
| C40 (F) | hellos | server side proved; client side negated |
| C41-C44 | hkdf, `_TLSSecrets`, `TLSCipherSuite` | refinement to RFC 8446 formulas, injectivity of encodings |
| C45 (F) | server wait-finished | witness; partial for clients and connected servers |
| C46 | FFDHE mixin with modular exponentiation | number theory |
| C47 (F) | suites table | CCM suites: negation for every handshake; partial: others |
| C48 | `validate_ocsp` | decision logic iff |
| C49 | `ocsp_over_http` cache | invariant by induction on operations |
| C50 | configuration checks | decision logic iff |
| C51 (F) | negotiated configuration | first half by induction; `freeze` never called: negation |
| C52 | `peekable` | refinement to a list, induction |
| C53 | CA path lookup | decision logic |
| C54 (F) | HTTP templates | UTF-8 length; witness |
| C55 (F) | wrapper + socket oracle | witness with short send; partial for sockets accepting everything |
| C56 (F) | two connections, end to end | symbolic execution with round-trip lemmas; witness: small max_fragment_length |
| C57 (F) | raw keys | negation: the server always fails |
| C58 (F) | host name | witness; partial when lengths agree |
| C59 | client certificate state | state invariant |
| C60 | hexdump | round trip with a decoder |
| C61-C64 | see properties.jsonl | decision logic, parsing soundness, termination measure, invariant |
| C65, C67 | wrapper + socket oracle | induction over calls |
| C68 | server negotiation | decision logic; refusal over all histories |
| C69, C70, C71 | hellos, EncryptedExtensions, heartbeat mode | guards of the atomic steps, invariant over all histories |
| C72 (F) | Certificate, CertificateRequest | same; witness: schemes narrowed after a retry |
| C73 (F) | refusals of credentials | decision logic of the state, lifted to `receive_data` over all histories |
| C74 (F) | the transcript of a client after a HelloRetryRequest | invariant over all histories on the hash inputs; length argument; witness of the failure |
| C75 (F) | groups, signature schemes, defaults | decision logic; invariants over all histories; witness: rsa_pkcs1 |
| C76 | key log | invariant over all histories against a reader of the NSS format |
| C77 | start of a client, default configurations | total serialization of the hello (sizes), composed with C56 |
| C78 | log_keys changes nothing but the log | non-interference: two runs of any history related by a projection |
| C79 (F) | server_hostnames | non-interference (they have no influence), witness: a connected server |
| C80 | conversation in both directions at once | invariant of a two-party system over all schedules, composed with C56 and C77 |
| C81 | orderly end of a conversation, half-closed ends | as C80, with closures of both sending ends |
| C82 (F) | whether the end of the stream can be told from a cut | witness; universal: non-interference of the peer's closure with every later call |
| C83 | two wrapped sockets, `do_handhskake` with any cuts | the digests of C56 commute with draining; no early end on the way through a flight |
| C84 | two wrapped sockets, `write`/`read`/`close` in any order | refinement: calls of the wrapper are moves of C81 |
| C85 | the five FFDHE group objects | each prime against the formula of RFC 7919 with the real number e (partial sums of the exponential bound the floor) |
| C86 F | `FFDHE.resume` | the least accepted value; witness y = 2 |
| C87 | the systems of C81 and C84 | the list of messages travels through the invariant of C81 |
| C88 | the two example programs over the wrapped sockets of C84 | programs as trees of calls; invariant over all schedules; C84 and C87 give every step |
| C89 | `handle_one`'s decision | words of the first line; UTF-8 of Lean's core library |
| C90 F | `handle_one`'s log line | false for requests that are not UTF-8 |
| C91 | non-interference of the data sent, with a cipher that hides contents (hypothesis `Blind`) or any cipher (`Even`: lengths only); adaptive attackers | proved |
| C92 (F) | server with an OCSP service whose responder fails | C56 generalised to OCSP services at both ends; C72 for all executions; witness |
| C93 | `examples/simple_client.py` against `examples/simple_server.py` from their configurations | C83 and C88 composed, for the configurations the programs make |
| C94 (F) | client: OCSP status of the chain | evidence carried by the C20 invariant; witness |
| C95 (F) | client with an OCSP service, certificates that name no responder | C56 with services; C94 for all executions; witness |
| C96 | look-ups through the OCSP service (`request`, `validate_ocsp`, `cache`/`uncache`) | invariant on the cache and the trace of outcomes, by induction on the history |
| C97 (F) | the same: no second query before the expiry | invariant by induction while nothing is evicted; witness with two certificates and 66 look-ups |
| C98 (F) | `ocsp_over_http.request` | decision logic; witness |
| C99 | two connections, client limit below 4096 | first half of C56; a record refused by its header for all cuts |
| C100 F | `__main__.py`, the configurations of the example programs | false: `log_keys` is never set; C76 for every program over the connection or the wrapped socket |
| C101 (F) | `main` after `parse_args`, the accept loop of `serve` | case analysis over the options; induction over the clients that come |
| C102 F | the two input buffers of `receive_data` | where the loop stops, by induction over its turns; false for records shorter than a handshake header |
| C103 F | all codecs of contents, handshake messages and extensions, against the layouts of the RFCs | relation between values and bytes; both directions; trace invariant for what a connection sent; false for what C04 and C58 name |
| C104 (F) | `derive_early_secrets` and the derivations after it, any history of calls | refinement to the RFC 8446 formulas with a pre-shared key; invariant over histories; witness: the master secrets twice |
| C105 | `split_extensions` | equivalence with the RFC layout, error set, agreement with the message layouts |
| C106 (F) | handshake messages received once the handshake is over, any history | refutation for every connection and message; alert and state by induction over the loop; RFC layouts of NewSessionTicket and KeyUpdate |
| C107 (F) | `SerialIO` as a mutable object, `lookahead`, in-place writes | refinement of the functional stream by induction on programs; placement of bytes; witness of a stale limit |
| C108 (F) | `WrappedSocket` clients and servers against someone without keys | universal attack by induction on the program's calls; wrapper programs refine histories without close, then C19/C65; witness |
| C109 | all API methods after the handshake | invariant over all histories on the transition system |
| C110 | all API methods, both roles; configuration.py | non-interference: hiding the settings commutes with every method |
| C111 | all API methods; private key and signature scheme | non-interference: replacing the key commutes with every method, under one assumption on signatures |
| C112 | client: the states from ServerHello to Finished, record layer, key schedule, transcript | simulation: one reply, described by the RFC's layouts and key schedule only, is driven through the state machine; segmentation by the lemmas of C47 and C56 |
| C113 | server: the states from ClientHello to Finished, record layer, key schedule, transcript | simulation: one ClientHello and one Finished, described by the RFC's layouts and key schedule only, are driven through the state machine; the reply is shown to be one in the sense of the RFC's layouts |
| C114 | record layer and connected state: reading application data | induction over the records and over the pieces that arrive; the records are described by the RFC's layout and key schedule only, the padding is arbitrary |
| C115 | record layer: `_send_content`, `_encrypt` for application data | induction over the calls and the records; the records are described by the RFC's layout and key schedule only. Partial: a fragment that is full is padded beyond the limit (C10) |
| C66 (F) | wrapper | universal description of the failure; partial: handshake is over |

Outside the model in every property: timing/side channels, interpreter-level failures.

## 4. Disagreements between the code and its intent, found on the way

Each is a theorem (`…_false`, or a universal statement) unless marked "read".

* Records. A full-size encrypted fragment is padded beyond the limit and its peer refuses it (C09, C10,
  C16). Too long a record raises AttributeError (`alerts.RecordOverFlow` does not exist), so
  internal_error is sent (C12). Several handshake messages in one record are refused (C13). A handshake
  record shorter than 4 bytes stalls the loop until more arrives (C07). Change-cipher-spec records are
  accepted without limit and after the handshake (C08). The outer type of a record is not looked at when
  decrypting (read). A failed decryption is decrypt_error, not bad_record_mac (C17, read).
* Closing and failing. close_notify in the clear makes a connection that is not authenticated look
  connected, and lets clear application data in and out (C19, C22). close_receiving_end on a failed
  connection makes it send again (C23); during the handshake it fails the connection silently (C31). The
  peer's close_notify re-opens both directions (C24, C25). A program cannot find out whether the peer
  closed or the connection was cut: no method tells (C82). Errors while the sending end is closed neither
  fail the connection nor tell the peer (C26, C27). After records were skipped by a closed receiving end
  the next ones are out of sequence (C17). An unknown fatal alert, or user_canceled as a fatal alert, is
  a TypeError.
* HelloRetryRequest. A client accepts any number of them (C30), leaves them out of its transcript
  (C29) so that no handshake with a HelloRetryRequest completes with a conforming server (C74), hashes its first hello with the first hash of a set (read), and does not look at their
  supported_versions (C36).
* Negotiation. The client never sends max_fragment_length; it enforces its own value until
  EncryptedExtensions, then 16384 (C37, C39). So a client configured with a small value refuses the padded
  flight of every server of this library and never connects (C56; for all configurations and all cuts, C99);
  the error is an AttributeError, as the alert is misspelled (`alerts.RecordOverFlow`, connection.py:219). It ignores the session id (C40). A ServerHello that selects
  TLS 1.2 is a ValueError of the parser, hence internal_error. A server may sign with rsa_pkcs1 schemes if
  so configured, which RFC 8446 forbids in CertificateVerify (C75). Configurations are not checked against
  what is implemented: an unknown group is a KeyError of `initiate_connection` (C75). The `server_hostnames` of a server have
  no influence on anything; whatever name a client asks for, it is served (C79).
* Certificates. A wrong signature is internal_error instead of decrypt_error, an empty certificate list
  bad_certificate instead of decode_error (C73). After a HelloRetryRequest the CertificateRequest lists only the scheme the server itself
  signs with (C72). Client authentication never works with a server (TypeError, C22/C57), raw public keys
  neither (C57); cert-type extensions cannot be serialized (C04) and compare equal whatever they
  contain. The revocation list is ignored without a trust store and a TypeError with one (C59).
* Messages. NewSessionTicket cannot be received (C06), heartbeat cannot be sent, pre_shared_key cannot be
  serialized, the length of an internationalized server name is that of its Unicode form (C04, C58).
* Keys. CCM suites have no usage limit: whoever negotiates one never connects (C47); `derive_master_secrets` can be
  called twice (C45).
* OCSP. `get_ocsp_url` and the request of the server are outside its `try`: no response means no handshake with
  clients that ask for stapling (C92). A negative Content-Length reads without bound (C98), Content-Length counts characters (C54), a response
  without nextUpdate is a TypeError, signature_hash_algorithm is compared as an object, InvalidSignature
  without arguments is an IndexError (read).
* `assert`s guard several invariants and vanish under `python -O`; the model keeps them (they raise).
* The negotiated configuration is never frozen (C51).
* FFDHE. `min_key_length` (225, 275, ...) is RFC 7919's size *in bits* of private exponents, but `resume` compares
  it with the number of significant *bytes* of the peer's public value: a valid public value below
  256^224 (for ffdhe2048) is answered with insufficient_security (C86). An honest peer meets this with
  probability 2^-248 only.
* Examples. `handle_one` of the example server logs `request_line`, which is not bound when the request is not
  UTF-8: the 400 answer is written, then UnboundLocalError leaves the block (C90).
* OCSP. A client asks about the certificates that are followed by their issuer in the chain (`pairwise`,
  client/wait_certificate.py:103): never about the last one, so a revoked certificate sent alone is accepted
  (C94). A certificate without AIA extension makes `get_ocsp_url` raise, outside any `try`: a client with an
  OCSP service cannot connect to such a server (C95).
* OCSP. `del _cache[…]` and `uncache` leave the date in `_cache_limits` (ocsp_over_http.py:26, 77-78): each
  renewal of a response takes one of the 64 places, and an old date evicts a renewed response (C97).
* `--keylogfile` logs nothing: the handler is added, but no configuration of the example programs sets
  `log_keys` (C100).
* The message about an unreadable private key names the certificate file (__main__.py:82); a key log path
  whose last part is `-` logs to standard error; a key log file that cannot be opened is a traceback (C101).
* A handshake record that leaves less than four bytes makes `_read_next_content` return None, as if no record
  was there: each `receive_data` then takes one record only, and the rest piles up in the input buffer (C102).
* What a conforming peer writes is read also where the library cannot write it: certificate types, pre-shared
  keys and international names (C103). The lower bounds that RFC 8446 sets for the lengths of vectors are not
  part of the layouts of C103; the parsers enforce few of them (C04, C05).
* `derive_early_secrets` has no caller. It follows the RFC (C104); but `derive_handshake_secrets` replaces both
  directions at once, so a state machine that used it could neither protect EndOfEarlyData with the early keys after
  the ServerHello nor read early data that arrives after it.
* NewSessionTicket and KeyUpdate have no `parse_body` of their own, and `Connected.process` takes no
  handshake message: a client dies (decode_error) on the first ticket of any server that issues some,
  and no endpoint follows a key update of its peer (C106).
* `SerialIO.limit` has no `finally`: after an exception inside it the limit stays on the stack, and
  `lookahead`, which only restores the cursor, does not remove it (C107). No caller uses `lookahead`,
  and callers drop a stream that raised, so the functional model of `Serial` loses nothing (C107).
* A close_notify in the clear ends any handshake "normally" with `is_connected()` true, no cipher and both
  directions open: a wrapped client or server then exchanges clear application data with anyone (C108, from
  C19). No configuration prevents it.
* Settings of the other role. The private key and the certificates of a client are never used (client
  authentication is not implemented: a client asked for a certificate raises NotImplementedError after
  the server's Finished). Of the trust settings of a server only their presence matters: what is in its
  trust store, its trusted public keys, its revocation list and max_chain_depth have no influence (C110).
* Wrapper. The count returned by `send` is ignored: what a short or raising send left is lost for ever
  (C55). An end of file during the handshake makes `do_handhskake` return normally (C66).

## 5. Mutation testing

`seeded/LOG.jsonl` has one line per wrong program tried: the definition, the edit, the claim it breaks,
the lemmas that stopped compiling, the property theorems that depend on them, and what was tightened
when a mutant survived.

How to read it:

* `failed` are the declarations where the build stopped. `property_theorems_failed` are the property theorems
  whose proofs use one of them. These are not proved for the mutant; that each of them is false of it does not
  follow. A mutant that only stops a helper lemma may still satisfy the statements above it.
* The latest mutants were built with only the modules of the claims they aim at and what these import. Theorems
  of other modules were not tried on them; `property_theorems_failed` is computed from the dependencies of the proofs all the same.
* To save time the scratch copy does not evaluate concrete runs: in `…_false` theorems, `example`s and facts
  about the toy runs, `decide` is replaced by `sorry`, there and nowhere else. So `survived: true` means that
  no universal theorem failed, and refutations are not tried. Where a refutation was tried by a build of its
  own the note says so.
