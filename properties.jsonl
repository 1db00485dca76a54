{"id": "C01", "title": "Primitive wire codec round-trips", "statement": "Whatever the stream writer accepts (an integer in n bytes, a length-prefixed byte string, a length-prefixed list of integers, a length-prefixed list of byte strings) is read back as exactly the same value by the matching reader, which leaves the stream positioned right after what was written; and the writer refuses (OverflowError) exactly the values that do not fit.", "quantifier": "every width n >= 1, every integer / byte string / list, every trailing data after the written value", "why_tests_cant": "the value space and the trailing bytes are unbounded; tests only sample a few widths", "anchors": ["src/siotls/serial.py:SerialIO.read_int", "src/siotls/serial.py:SerialIO.write_int", "src/siotls/serial.py:SerialIO.read_var", "src/siotls/serial.py:SerialIO.write_var", "src/siotls/serial.py:SerialIO.read_listint", "src/siotls/serial.py:SerialIO.write_listint", "src/siotls/serial.py:SerialIO.read_listvar", "src/siotls/serial.py:SerialIO.write_listvar"]}
{"id": "C02", "title": "Reads inside a limit never cross it", "statement": "Inside `with stream.limit(n)` no sequence of read calls, however nested with further limits, returns a byte past the n-th, and when the block is left normally exactly n bytes have been consumed; otherwise an exception is raised.", "quantifier": "every stream content, every n, every program made of reads and nested limits", "why_tests_cant": "quantifies over all programs of reads; a bug may need a particular nesting and particular lengths", "anchors": ["src/siotls/serial.py:SerialIO.read", "src/siotls/serial.py:SerialIO.read_exactly", "src/siotls/serial.py:SerialIO.limit"]}
{"id": "C03", "title": "Alerts: two bytes on the wire, lossless", "statement": "Every alert serializes to exactly two bytes that parse back to an alert with the same level and description; any two received bytes whose first is 1 or 2 parse to an alert carrying those two bytes and any other first byte is refused with illegal_parameter; anything that is not two bytes long is refused with decode_error.", "quantifier": "every level, every description code (registered or unknown), every received byte string", "why_tests_cant": "the parser must be total over all byte strings including unknown descriptions", "anchors": ["src/siotls/contents/alerts.py:Alert.parse", "src/siotls/contents/alerts.py:Alert.serialize"]}
{"id": "C04", "title": "Extensions survive serialization", "statement": "Every extension that the library can build serializes to bytes that the library parses back to an equal extension in every handshake message in which that extension is allowed.", "quantifier": "every extension class, every field value within the wire limits, every handshake message type carrying extensions", "why_tests_cant": "field values are unbounded lists and byte strings; some classes (certificate types, use_srtp, certificate_authorities, pre_shared_key, IDN host names) are never exercised by the test-suite", "anchors": ["src/siotls/contents/handshakes/extensions/__init__.py:Extension.parse", "src/siotls/contents/handshakes/extensions/__init__.py:Extension.serialize", "src/siotls/contents/handshakes/extensions/"]}
{"id": "C05", "title": "Handshake messages survive serialization", "statement": "Every ClientHello, ServerHello, HelloRetryRequest, EncryptedExtensions, CertificateRequest, Certificate, CertificateVerify and Finished message the library sends is parsed back by the library on the other side to an equal message (type, fields, extensions), with no byte left over.", "quantifier": "every message built from wire-representable fields and round-tripping extensions", "why_tests_cant": "unbounded lists of extensions, suites, certificates of any length", "anchors": ["src/siotls/contents/handshakes/__init__.py:Handshake.parse", "src/siotls/contents/handshakes/__init__.py:Handshake.serialize", "src/siotls/contents/handshakes/client_hello.py", "src/siotls/contents/handshakes/server_hello.py", "src/siotls/contents/handshakes/encrypted_extensions.py", "src/siotls/contents/handshakes/certificate.py", "src/siotls/contents/handshakes/certificate_request.py", "src/siotls/contents/handshakes/certificate_verify.py", "src/siotls/contents/handshakes/finished.py"]}
{"id": "C06", "title": "Garbage in, TLS alert out", "statement": "Whatever bytes a peer sends, receive_data either returns or raises a TLS alert exception (TLSFatalAlert); it never leaks a programming error (AttributeError, KeyError, TypeError, ValueError, ...).", "quantifier": "every byte string received in every reachable connection state", "why_tests_cant": "tests send a handful of malformed messages; the claim is about all byte strings", "anchors": ["src/siotls/connection.py:TLSConnection.receive_data", "src/siotls/contents/__init__.py:Content.get_parser", "src/siotls/contents/handshakes/__init__.py:Handshake.parse", "src/siotls/contents/handshakes/extensions/__init__.py:Extension.parse"]}
{"id": "C07", "title": "Delivery does not depend on TCP segmentation", "statement": "Feeding the bytes a then b with two receive_data calls leads to the same connection (state, pending output, readable data, raised exception) as feeding a+b with one call.", "quantifier": "every connection state, every split of every byte string", "why_tests_cant": "exponentially many segmentations; bugs depend on where record boundaries fall in the chunks", "anchors": ["src/siotls/connection.py:TLSConnection.receive_data", "src/siotls/connection.py:TLSConnection._read_next_record", "src/siotls/connection.py:TLSConnection._read_next_content"]}
{"id": "C08", "title": "ChangeCipherSpec records are invisible", "statement": "A dummy ChangeCipherSpec record (14 xx xx 00 01 01) received at a record boundary never changes anything: receive_data behaves as if the six bytes had not been there.", "quantifier": "every connection state with no partial record buffered, every number of such records, every following data", "why_tests_cant": "must hold in every state of the connection and whatever follows", "anchors": ["src/siotls/connection.py:startswith_change_cipher_spec", "src/siotls/connection.py:TLSConnection._read_next_record"]}
{"id": "C09", "title": "Content sent is content received", "statement": "Any application data, alert or handshake message sent by one endpoint, whatever its size and hence however many records it is cut into, is read by an endpoint holding the matching read key (or both in plaintext) as the same content type and the same bytes, in the order sent.", "quantifier": "every content, every fragment length, every sequence of sends, every AEAD that decrypts what it encrypted", "why_tests_cant": "quantifies over message sizes around every multiple of the fragment size, and over all AEADs/keys/sequence numbers", "anchors": ["src/siotls/connection.py:TLSConnection._send_content", "src/siotls/connection.py:TLSConnection._encrypt", "src/siotls/connection.py:TLSConnection._decrypt", "src/siotls/connection.py:TLSConnection._read_next_record", "src/siotls/connection.py:TLSConnection._read_next_content"]}
{"id": "C10", "title": "Emitted records respect the fragment limit", "statement": "Every record an endpoint emits is accepted by the record-size check of a peer using the same maximum fragment length: at most max_fragment_length bytes in plaintext, at most max_fragment_length + 256 when encrypted.", "quantifier": "every content length, every allowed maximum fragment length, every cipher tag length", "why_tests_cant": "the violation only shows at payload sizes at or above the fragment length, and depends on padding arithmetic", "anchors": ["src/siotls/connection.py:TLSConnection._send_content", "src/siotls/connection.py:TLSConnection._encrypt", "src/siotls/connection.py:TLSConnection._read_next_record"]}
{"id": "C11", "title": "Padding hides plaintext length up to the block", "statement": "The length of every encrypted record is a positive multiple of min(max_fragment_length, 4096), and two single-record payloads falling in the same block produce records of equal length.", "quantifier": "every payload length, every maximum fragment length", "why_tests_cant": "a statement about all lengths", "anchors": ["src/siotls/connection.py:TLSConnection._encrypt"]}
{"id": "C12", "title": "Over-long records are refused with record_overflow", "statement": "As soon as the 5-byte header of a record announcing more than the allowed length is available, receive_data raises and the peer is sent a record_overflow alert, without waiting for (buffering) the body.", "quantifier": "every announced length above the limit, every state, every amount of body already received", "why_tests_cant": "depends on header/body arrival and on the negotiated limit", "anchors": ["src/siotls/connection.py:TLSConnection._read_next_record", "src/siotls/contents/alerts.py:RecordOverflow"]}
{"id": "C13", "title": "Coalesced handshake messages are accepted", "statement": "Several handshake messages packed in one record are processed exactly as if each came in its own record.", "quantifier": "every pair of handshake messages a peer may coalesce", "why_tests_cant": "test peers happen not to coalesce; the claim is on every packing", "anchors": ["src/siotls/connection.py:TLSConnection._read_next_content"]}
{"id": "C14", "title": "AEAD nonces never repeat under a key", "statement": "During the lifetime of a connection no two records are encrypted with the same write key and the same nonce, whatever the sequence of API calls and received data.", "quantifier": "every history of API calls and received bytes, every IV, every cipher suite; the handshake and application traffic keys being different (a property of HKDF)", "why_tests_cant": "needs an argument over up to 2^64 records and all histories", "anchors": ["src/siotls/crypto/ciphers.py:TLSCipherSuite.encrypt", "src/siotls/crypto/ciphers.py:TLSCipherSuite.derive_handshake_secrets", "src/siotls/crypto/ciphers.py:TLSCipherSuite.derive_master_secrets", "src/siotls/utils.py:peekable"]}
{"id": "C15", "title": "A key is never used past its usage limit", "statement": "No more than usage_limit records are ever encrypted, nor accepted, under one key: beyond, sending fails instead of reusing or wrapping the counter.", "quantifier": "every history of sends and receives of any length", "why_tests_cant": "the limit is 11863283 records for AES-GCM and 2^64 for ChaCha20: unreachable by tests", "anchors": ["src/siotls/crypto/ciphers.py:TLSCipherSuite", "src/siotls/connection.py:TLSConnection.rekey"]}
{"id": "C16", "title": "Reliable in-order delivery between two connected endpoints", "statement": "Once two endpoints hold matching application keys, for any sequence of send_data calls on one side and any segmentation of the resulting bytes in receive_data calls on the other side, the concatenation of what data_to_read returns is the concatenation of what was passed to send_data.", "quantifier": "every sequence of payloads, every segmentation, every read schedule", "why_tests_cant": "infinite histories and segmentations", "anchors": ["src/siotls/connection.py:TLSConnection.send_data", "src/siotls/connection.py:TLSConnection.receive_data", "src/siotls/connection.py:TLSConnection.data_to_read", "src/siotls/connection.py:TLSConnection.data_to_send"]}
{"id": "C17", "title": "Stream integrity against an active attacker", "statement": "If the AEAD only opens what the peer sealed under that nonce, then whatever bytes the network delivers to a connected endpoint, the application data it hands out is a prefix of the concatenation of the payloads the peer sent: no reordering, replay, insertion or modification.", "quantifier": "every adversarial byte stream, every segmentation, every sequence of API calls on the receiver", "why_tests_cant": "quantifies over all attacker strategies", "anchors": ["src/siotls/connection.py:TLSConnection._read_next_record", "src/siotls/connection.py:TLSConnection._decrypt", "src/siotls/crypto/ciphers.py:TLSCipherSuite.decrypt", "src/siotls/states/connected.py:Connected.process"]}
{"id": "C18", "title": "No plaintext once keys are installed", "statement": "Once an endpoint has installed read keys every content it acts upon comes out of a successful AEAD decryption, and once it has installed write keys every record it emits (except the dummy ChangeCipherSpec) is AEAD output; keys are never uninstalled.", "quantifier": "every history of API calls and received data of a program that does not call receive_data again after a receive_data that raised without even sending an alert", "why_tests_cant": "an invariant of all histories", "anchors": ["src/siotls/connection.py:TLSConnection._read_next_record", "src/siotls/connection.py:TLSConnection._send_content", "src/siotls/crypto/ciphers.py:TLSCipherSuite.must_encrypt", "src/siotls/crypto/ciphers.py:TLSCipherSuite.must_decrypt"]}
{"id": "C19", "title": "No application data before the handshake is complete", "statement": "An endpoint never delivers application data (data_to_read) and never accepts to send application data (send_data) before its handshake is complete, i.e. before it has verified the peer's Finished message (for sending, a server may send after its own Finished).", "quantifier": "every history of API calls and received bytes", "why_tests_cant": "the bad interleavings (close in mid-handshake, injected close_notify) are not on any happy path", "anchors": ["src/siotls/states/__init__.py:State.process", "src/siotls/states/closed.py", "src/siotls/states/connected.py", "src/siotls/connection.py:TLSConnection.send_data"]}
{"id": "C20", "title": "A connected client has authenticated the server", "statement": "If a client whose configuration has a trust store gets out of the handshake as connected (without closing), then the server's certificate chain was verified against that trust store for the requested hostname, the server proved possession of the leaf key with a signature by an algorithm the client allows over the transcript, and the server's Finished MAC over the transcript was verified.", "quantifier": "every byte stream a server or attacker may send, every segmentation, every crypto library behaviour", "why_tests_cant": "quantifies over all adversarial servers", "anchors": ["src/siotls/states/client/wait_certificate.py", "src/siotls/states/client/wait_certificate_verify.py", "src/siotls/states/client/wait_finished.py"]}
{"id": "C21", "title": "A connected server has verified the client's Finished", "statement": "If a server gets out of the handshake as connected then the client's Finished MAC, keyed by the client handshake traffic secret derived from the key exchange, was verified over the transcript of the whole handshake.", "quantifier": "every byte stream a client or attacker may send", "why_tests_cant": "quantifies over all adversarial clients", "anchors": ["src/siotls/states/server/wait_finished.py", "src/siotls/crypto/ciphers.py:TLSCipherSuite.verify_finish"]}
{"id": "C22", "title": "A server requiring client authentication never lets anonymous clients in", "statement": "A server configured with a trust store or trusted public keys never becomes connected with a client that did not authenticate.", "quantifier": "every byte stream a client may send, every sequence of API calls", "why_tests_cant": "quantifies over all clients", "anchors": ["src/siotls/states/server/wait_client_hello.py:ServerWaitClientHello._request_user_certificate", "src/siotls/states/server/wait_flight2.py"]}
{"id": "C23", "title": "Failure is final", "statement": "Once a connection has failed it stays failed: it never emits, delivers or accepts application data again, whatever the application or the peer does.", "quantifier": "every history after the failure", "why_tests_cant": "all continuations of all failing histories", "anchors": ["src/siotls/states/failed.py", "src/siotls/connection.py:TLSConnection._fail", "src/siotls/connection.py:TLSConnection.close_receiving_end"]}
{"id": "C24", "title": "close_notify is the last thing sent", "statement": "After close_sending_end nothing but (at most) one close_notify alert is ever emitted: no application data and no second close_notify.", "quantifier": "every history after close_sending_end, including what the peer sends", "why_tests_cant": "needs all continuations, including the peer's own close_notify arriving later", "anchors": ["src/siotls/connection.py:TLSConnection.close_sending_end", "src/siotls/states/closed.py", "src/siotls/states/__init__.py:State.process"]}
{"id": "C25", "title": "Nothing is delivered after the peer's close_notify", "statement": "Application data received after a close_notify from the peer is ignored, and so is everything received after close_receiving_end.", "quantifier": "every continuation of the byte stream after a close_notify", "why_tests_cant": "all continuations", "anchors": ["src/siotls/states/__init__.py:State.process", "src/siotls/states/closed.py:Closed.process", "src/siotls/connection.py:TLSConnection.close_receiving_end"]}
{"id": "C26", "title": "A fatal alert from the peer ends the connection", "statement": "When a fatal alert (other than close_notify) is received, whatever its description, receive_data raises and the connection is no longer usable in either direction.", "quantifier": "every description code, every state", "why_tests_cant": "all alert codes in all states", "anchors": ["src/siotls/states/__init__.py:State.process", "src/siotls/contents/alerts.py"]}
{"id": "C27", "title": "An error while receiving fails the connection and alerts the peer", "statement": "Whenever receive_data raises because of what was received, exactly one fatal alert record is appended to the output (the raised one, internal_error for other exceptions) and the connection is failed.", "quantifier": "every state, every received byte string", "why_tests_cant": "all error paths in all states", "anchors": ["src/siotls/connection.py:TLSConnection.receive_data", "src/siotls/connection.py:TLSConnection._fail"]}
{"id": "C28", "title": "Handshake messages are only accepted in protocol order", "statement": "The sequence of handshake messages exchanged (sent and accepted) by a connection is always a prefix of: ClientHello [HelloRetryRequest ClientHello] ServerHello EncryptedExtensions [CertificateRequest] Certificate CertificateVerify Finished(server) [EndOfEarlyData] [Certificate] [CertificateVerify] Finished(client); a message out of that order fails the connection with unexpected_message.", "quantifier": "every sequence of messages, of any length", "why_tests_cant": "all sequences; the order is enforced by a table with skippable entries whose index is mutated even on failures", "anchors": ["src/siotls/transcript.py:ORDER", "src/siotls/transcript.py:Transcript.update"]}
{"id": "C29", "title": "The transcript hash covers exactly the exchanged handshake messages", "statement": "At any time during the handshake the transcript digest is the hash of the exact bytes of the handshake messages exchanged so far in order, with the ClientHello replaced by message_hash(ClientHello1) when a HelloRetryRequest was exchanged (RFC 8446 4.4.1); hence both peers compute the same digest.", "quantifier": "every handshake, with and without HelloRetryRequest, every initial order of the candidate hash functions", "why_tests_cant": "the HelloRetryRequest path mixes two hash objects and an arbitrary set iteration order", "anchors": ["src/siotls/transcript.py:Transcript.post_init", "src/siotls/transcript.py:Transcript.do_hrr_dance", "src/siotls/transcript.py:Transcript.update", "src/siotls/states/client/wait_server_hello.py", "src/siotls/states/server/wait_client_hello.py"]}
{"id": "C30", "title": "At most one HelloRetryRequest per connection", "statement": "A server sends at most one HelloRetryRequest per connection and a client accepts at most one, failing the connection on a second.", "quantifier": "every history", "why_tests_cant": "unbounded retry sequences", "anchors": ["src/siotls/states/server/wait_client_hello.py:ServerWaitClientHello.process", "src/siotls/states/client/wait_server_hello.py:ClientWaitServerHello.process"]}
{"id": "C31", "title": "API misuse is refused without side effect", "statement": "receive_data(b'') raises ValueError, send_data in a state that cannot send application data raises TLSError, initiate_connection when already initiated raises, receiving after close_receiving_end raises: in each case no byte is emitted and the connection is unchanged.", "quantifier": "every reachable state", "why_tests_cant": "all states", "anchors": ["src/siotls/connection.py:TLSConnection.receive_data", "src/siotls/connection.py:TLSConnection.send_data", "src/siotls/connection.py:TLSConnection.initiate_connection"]}
{"id": "C32", "title": "Output and input buffers are drained exactly once", "statement": "The concatenation of everything data_to_send ever returned plus what is still pending is exactly the concatenation of the records produced, in order; same for data_to_read; and draining at any point never changes what is produced later.", "quantifier": "every interleaving of drains with other API calls", "why_tests_cant": "all interleavings", "anchors": ["src/siotls/connection.py:TLSConnection.data_to_send", "src/siotls/connection.py:TLSConnection.data_to_read"]}
{"id": "C33", "title": "Server picks its preferred mutually supported cipher suite", "statement": "The cipher suite a server announces is the first of its configured list that the client offered; when there is none the server fails the handshake with handshake_failure.", "quantifier": "every ClientHello, every server configuration", "why_tests_cant": "all pairs of lists", "anchors": ["src/siotls/states/server/wait_client_hello.py:ServerWaitClientHello._find_common_cipher_suite"]}
{"id": "C34", "title": "Server picks its preferred mutually supported group and signature scheme", "statement": "The group used by a server is the first of its configured groups that the client lists, used with a key share of that very group (a HelloRetryRequest is sent when it is missing); the signature scheme is the first of its configured ones that the client lists and that fits the certificate's key.", "quantifier": "every ClientHello, every server configuration", "why_tests_cant": "all pairs of lists", "anchors": ["src/siotls/states/server/wait_client_hello.py:ServerWaitClientHello._negociate"]}
{"id": "C35", "title": "ALPN selection is sound and complete", "statement": "When both sides have ALPN protocols the server selects the first of its protocols offered by the client or fails with no_application_protocol; the client only accepts a protocol it offered; no ALPN is negotiated when either side has none.", "quantifier": "every pair of protocol lists, every server response", "why_tests_cant": "all pairs of lists, adversarial responses", "anchors": ["src/siotls/states/server/wait_client_hello.py:ServerWaitClientHello._negociate_alpn", "src/siotls/states/client/wait_encrypted_extensions.py"]}
{"id": "C36", "title": "Only TLS 1.3 is ever negotiated", "statement": "A server answers with a ServerHello or HelloRetryRequest only when the client offered TLS 1.3 in supported_versions, and a client continues only when the server selected TLS 1.3; otherwise the handshake fails with protocol_version (or missing_extension).", "quantifier": "every hello message", "why_tests_cant": "all hello messages", "anchors": ["src/siotls/states/server/wait_client_hello.py", "src/siotls/states/client/wait_server_hello.py"]}
{"id": "C37", "title": "A client only ends up with parameters it offered", "statement": "When a client is connected, the negotiated cipher suite, ALPN, maximum fragment length and certificate types are among what its configuration allows, and the key share used is of a group it generated a key for.", "quantifier": "every adversarial server", "why_tests_cant": "all adversarial servers", "anchors": ["src/siotls/states/client/wait_server_hello.py", "src/siotls/states/client/wait_encrypted_extensions.py"]}
{"id": "C38", "title": "Parameters announced in a HelloRetryRequest are binding", "statement": "After a HelloRetryRequest the handshake continues with the cipher suite and the group announced in it or fails, on both sides, and the second ClientHello must carry the same random.", "quantifier": "every second ClientHello / every ServerHello following a HelloRetryRequest", "why_tests_cant": "all adversarial peers", "anchors": ["src/siotls/states/server/wait_client_hello.py", "src/siotls/states/client/wait_server_hello.py"]}
{"id": "C39", "title": "The configured maximum fragment length is negotiated", "statement": "A client configured with a maximum fragment length offers it to the server, and both sides enforce the same value once negotiated.", "quantifier": "every client configuration", "why_tests_cant": "all configurations", "anchors": ["src/siotls/states/client/start.py", "src/siotls/states/client/wait_encrypted_extensions.py", "src/siotls/states/server/wait_client_hello.py"]}
{"id": "C40", "title": "The server echoes the ClientHello's session id and client checks it", "statement": "Every ServerHello or HelloRetryRequest carries the session id of the ClientHello it answers, and a client rejects a ServerHello carrying another one.", "quantifier": "every session id, every ServerHello", "why_tests_cant": "all values", "anchors": ["src/siotls/states/server/wait_client_hello.py", "src/siotls/states/client/wait_server_hello.py"]}
{"id": "C41", "title": "The key schedule is RFC 8446's", "statement": "The traffic keys, IVs, finished keys and exporter/resumption secrets used by an endpoint are those of RFC 8446 section 7 applied to the shared secret and the transcript hashes at ServerHello, server Finished and client Finished.", "quantifier": "every hash function, shared secret and transcript", "why_tests_cant": "RFC vectors check one input per stage", "anchors": ["src/siotls/crypto/hkdf.py", "src/siotls/crypto/ciphers.py:_TLSSecrets"]}
{"id": "C42", "title": "Both sides derive mirrored keys", "statement": "A client and a server fed the same shared secret and transcript hashes derive keys such that each side's write key, IV and finished key are the other side's read ones, at both the handshake and the application stage, and the two directions/stages use different labels.", "quantifier": "every shared secret, every transcript, every cipher suite", "why_tests_cant": "all inputs", "anchors": ["src/siotls/crypto/ciphers.py:TLSCipherSuite", "src/siotls/crypto/ciphers.py:_TLSSecrets"]}
{"id": "C43", "title": "HKDF-Expand-Label has the requested length and separates domains", "statement": "hkdf_expand_label returns exactly the requested number of bytes when it is at most 255 hash lengths (and raises beyond), the shortcut taken for a single block agrees with the general algorithm, and two calls differing by label, context or length feed different inputs to HMAC.", "quantifier": "every hash, secret, label, context and length", "why_tests_cant": "all lengths and labels", "anchors": ["src/siotls/crypto/hkdf.py"]}
{"id": "C44", "title": "Secrets can only be derived in order", "statement": "The derivation steps early, handshake, master can only be executed in this order, each once; finished MACs are refused before the handshake secrets exist; any other order raises and changes nothing.", "quantifier": "every sequence of calls", "why_tests_cant": "all sequences", "anchors": ["src/siotls/crypto/ciphers.py:_TLSSecrets", "src/siotls/crypto/ciphers.py:TLSCipherSuite"]}
{"id": "C45", "title": "Application data is only protected with application keys", "statement": "Every application data record is encrypted with the sender's application traffic key, never with a handshake traffic key.", "quantifier": "every history", "why_tests_cant": "all interleavings of send_data with the handshake", "anchors": ["src/siotls/states/server/wait_finished.py", "src/siotls/connection.py:TLSConnection.send_data"]}
{"id": "C46", "title": "Finite-field Diffie-Hellman: agreement and public value validation", "statement": "Two parties using the same FFDHE group compute the same shared secret when both accept the other's share, an accepted share y satisfies 1 < y < p-1, and the share and the secret have the byte length of p.", "quantifier": "every private exponent, every received share, each of the five groups", "why_tests_cant": "exponent space is huge", "anchors": ["src/siotls/crypto/key_exchanges.py:_FFDHEMixin"]}
{"id": "C47", "title": "Every registered cipher suite can be used", "statement": "A client and a server that negotiate any cipher suite the library registers can complete the handshake with it.", "quantifier": "every registered suite", "why_tests_cant": "suites outside the default list are not covered", "anchors": ["src/siotls/crypto/ciphers.py"]}
{"id": "C48", "title": "A stapled or fetched OCSP response is accepted only if it vouches for the certificate now", "statement": "validate_ocsp returns a validity date only when the response is successful, says the certificate is good, is about that very certificate and issuer, is within its validity window at the current time and is signed by the issuer with an accepted algorithm; otherwise it raises.", "quantifier": "every response, certificate, issuer, request and clock value", "why_tests_cant": "combinatorial space of response fields", "anchors": ["src/siotls/crypto/ocsp.py:validate_ocsp"]}
{"id": "C49", "title": "OCSP cache never serves stale data and never grows past its bound", "statement": "A cached OCSP response is returned only for the very request it was cached for and only before its expiry; the cache never holds more than 64 responses. Caching a response drops another one only if that one, or an earlier response to the same request, was to expire no later than everything that is held.", "quantifier": "every sequence of cache, uncache and request calls at any non decreasing or arbitrary clock values", "why_tests_cant": "all histories, eviction order interplay between dict and heap", "anchors": ["src/siotls/ocsp_over_http.py"]}
{"id": "C50", "title": "A configuration object is valid by construction", "statement": "A TLSConfiguration can be constructed if and only if it has cipher suites, groups and signature algorithms and (server) a private key with a certificate or public key and the default maximum fragment length, (client) no server_hostnames; a rejected one raises ValueError.", "quantifier": "every combination of settings", "why_tests_cant": "all combinations", "anchors": ["src/siotls/configuration.py:TLSConfiguration.__post_init__"]}
{"id": "C51", "title": "Negotiated configuration is immutable once frozen, and is frozen after the handshake", "statement": "After freeze() every attribute assignment or deletion on the negotiated configuration raises TypeError and changes nothing; and a connected connection's negotiated configuration is frozen.", "quantifier": "every sequence of assignments, deletions and freezes", "why_tests_cant": "all sequences", "anchors": ["src/siotls/configuration.py:TLSNegotiatedConfiguration"]}
{"id": "C52", "title": "Peeking an iterator never loses, duplicates or reorders elements", "statement": "For any interleaving of peek() and next() on a peekable, the values returned by next are those of the underlying iterator in order, and peek returns what the following next will return.", "quantifier": "every iterator, every interleaving", "why_tests_cant": "all interleavings", "anchors": ["src/siotls/utils.py:peekable"]}
{"id": "C53", "title": "CA bundle selection", "statement": "The CA bundle path chosen is that of the distribution ID when known, else of the first known ID_LIKE, else an error is raised.", "quantifier": "every os-release content", "why_tests_cant": "all os-release files", "anchors": ["src/siotls/trust_store.py:get_ca_certificates_path"]}
{"id": "C54", "title": "Content-Length matches the body", "statement": "The Content-Length header of HTTP messages built by make_http11_request/response equals the number of bytes of the encoded body.", "quantifier": "every body string", "why_tests_cant": "needs non-ASCII bodies", "anchors": ["src/siotls/utils.py:make_http11_request", "src/siotls/utils.py:make_http11_response"]}
{"id": "C55", "title": "The socket wrapper writes everything the connection produced, in order", "statement": "After any sequence of do_handshake/read/write/close on a wrapped socket, the bytes accepted by the socket are exactly the bytes produced by the connection, in order, even when an operation raises.", "quantifier": "every behaviour of the socket (partial sends, EOF), every sequence of wrapper calls", "why_tests_cant": "partial sends never happen on test sockets", "anchors": ["src/siotls/wrapper.py:WrappedSocket"]}
{"id": "C56", "title": "Two compatible endpoints complete the handshake", "statement": "A client and a server whose configurations share a cipher suite, the client's first group and a signature scheme fitting the server's certificate, exchanging bytes over a reliable transport, both become connected, with the same negotiated parameters and mirrored keys, and can then exchange data.", "quantifier": "every pair of compatible configurations, every correct crypto library, all random values", "why_tests_cant": "tests cover a few configurations against OpenSSL", "anchors": ["src/siotls/states/", "src/siotls/connection.py"]}
{"id": "C57", "title": "Raw public keys can be negotiated", "statement": "A server having only a raw public key completes the handshake with a client trusting that key.", "quantifier": "every such pair of configurations", "why_tests_cant": "not covered by the test-suite", "anchors": ["src/siotls/states/server/wait_client_hello.py:ServerWaitClientHello._negociate_signature_algorithms", "src/siotls/contents/handshakes/extensions/certificate_type.py", "src/siotls/states/client/wait_certificate.py"]}
{"id": "C58", "title": "Internationalized server names reach the server", "statement": "The server name extension sent by a client for any hostname is parsed by a server as that hostname.", "quantifier": "every hostname encodable by IDNA", "why_tests_cant": "tests use ASCII names, for which the character count happens to equal the encoded length", "anchors": ["src/siotls/contents/handshakes/extensions/server_name.py:HostName.serialize_body"]}
{"id": "C59", "title": "Certificate revocation is honoured", "statement": "A client configured with a revocation list never becomes connected to a server presenting a revoked certificate.", "quantifier": "every certificate chain, every revocation list", "why_tests_cant": "all chains; the test-suite has no CRL", "anchors": ["src/siotls/states/client/wait_certificate.py"]}
{"id": "C60", "title": "hexdump is faithful", "statement": "hexdump prints every input byte exactly once in order, 16 per line with a fixed width offset, so the input can be recovered from the output.", "quantifier": "every byte string", "why_tests_cant": "all lengths, including those crossing offset widths", "anchors": ["src/siotls/utils.py:hexdump"]}
{"id": "C61", "title": "Every primitive value has one encoding", "statement": "Whatever read_int, read_var, read_listint and read_listvar accept is exactly what the matching writer produces for the value returned: the consumed bytes are the canonical encoding (no odd-sized integer list, no partial item, no slack), so no two different byte strings decode to the same value.", "quantifier": "every stream content, position and limit, every width", "why_tests_cant": "all byte strings; rejecting every non-canonical encoding is a universal statement", "anchors": ["src/siotls/serial.py:SerialIO.read_int", "src/siotls/serial.py:SerialIO.read_var", "src/siotls/serial.py:SerialIO.read_listint", "src/siotls/serial.py:SerialIO.read_listvar"]}
{"id": "C62", "title": "Accepted hellos have the legacy fields RFC 8446 requires", "statement": "Whenever Content.parse accepts bytes as a ClientHello, those bytes are exactly: type 1, the 24-bit length, legacy_version 0x0303, a 32-byte random, the session id, a non-empty list of cipher suites, a compression list that is exactly the null method, and a well-formed block of extensions whose types are those of the returned object; pre_shared_key, when present, is the last extension and comes with psk_key_exchange_modes. Whenever it accepts a ServerHello or HelloRetryRequest the bytes are type 2, length, 0x0303, random, session id, one suite, compression 0 and the extensions, and the message is a HelloRetryRequest exactly when the random is the special value.", "quantifier": "for all byte strings, all contents of every field, all extension blocks", "why_tests_cant": "The set of accepted byte strings is infinite; a test only shows that a few malformed hellos are rejected, not that every accepted one has the required shape.", "anchors": ["src/siotls/contents/handshakes/client_hello.py:ClientHello.parse_body", "src/siotls/contents/handshakes/client_hello.py:ClientHello.__init__", "src/siotls/contents/handshakes/server_hello.py:ServerHello.parse_body", "src/siotls/contents/handshakes/__init__.py:Handshake.parse", "src/siotls/contents/handshakes/extensions/__init__.py:Extension.parse"]}
{"id": "C63", "title": "receive_data terminates", "statement": "Whatever bytes arrive in whatever state, the loops of receive_data end: every turn handles one content and consumes at least five bytes of the input buffer, so there are at most len(buffer)/5 turns, and the outcome is uniquely determined.", "quantifier": "every connection state, every buffered input, every chunk", "why_tests_cant": "non-termination would only show on the one input that makes no progress; needs a decreasing measure", "anchors": ["src/siotls/connection.py:TLSConnection.receive_data", "src/siotls/connection.py:TLSConnection._read_next_content", "src/siotls/connection.py:TLSConnection._read_next_record"]}
{"id": "C64", "title": "Worn-out keys are noticed in time", "statement": "Whenever receive_data returns normally while the connection encrypts, more than 1024 records (the rekey threshold) can still be encrypted under the current write key before the usage limit of its cipher suite.", "quantifier": "every history of API calls, every received byte string, every cipher suite with a usage limit", "why_tests_cant": "the limits are about 2^23.5 and 2^64 records: no test sends so many", "anchors": ["src/siotls/crypto/ciphers.py:TLSCipherSuite.should_rekey", "src/siotls/connection.py:TLSConnection.receive_data"]}
{"id": "C65", "title": "The socket wrapper's read loses and reorders nothing", "statement": "For every history of calls to do_handhskake, read, write and close on a wrapped socket, the bytes returned by the read calls, followed by the bytes the connection still holds for the application, are exactly the application data the connection decrypted, in order, also when calls raise and whatever the socket does.", "quantifier": "every socket behaviour (contents and sizes of recv results, errors), every sequence of calls with every argument", "why_tests_cant": "a test uses one socket and one segmentation; the claim is about every interleaving of errors, short reads and end of file", "anchors": ["src/siotls/wrapper.py:WrappedSocket.read", "src/siotls/wrapper.py:WrappedSocket.do_handhskake"]}
{"id": "C66", "title": "do_handhskake returns only when connected", "statement": "When do_handhskake returns without raising, the connection is connected.", "quantifier": "every socket, every peer", "why_tests_cant": "an end of file in the middle of a handshake must be tried at every possible place", "anchors": ["src/siotls/wrapper.py:WrappedSocket.do_handhskake"]}
{"id": "C67", "title": "The wrapper stops reading a socket at end of file", "statement": "Once recv has returned no bytes, the method of the wrapper that called it makes no further recv call.", "quantifier": "every socket, every method, every state of the connection", "why_tests_cant": "a busy loop on a half-closed socket only shows for the states in which the loop condition stays true", "anchors": ["src/siotls/wrapper.py:WrappedSocket.do_handhskake", "src/siotls/wrapper.py:WrappedSocket.read"]}
{"id": "C68", "title": "A ClientHello without a mandatory extension is refused", "statement": "A ClientHello without supported_groups or without signature_algorithms makes receive_data raise: one alert is sent and the connection is failed. When the hello offers TLS 1.3 the negotiation raises missing_extension for the first of the two that is absent, and handshake_failure when no group is shared.", "quantifier": "every history of a server, every ClientHello, every configuration", "why_tests_cant": "which alert answers which combination of absent extensions depends on the order of the checks; a test tries a handful of hellos", "anchors": ["src/siotls/states/server/wait_client_hello.py"]}
{"id": "C69", "title": "A client's hellos say what its configuration says", "statement": "The first ClientHello has the random given to the constructor, an empty session id, the suites of the configuration, and exactly the extensions the configuration calls for, each once, with one share, of the first group. The hello that answers a HelloRetryRequest has the same random, only the suite and group of the request, a share of that group, the request's cookie when there is one, and otherwise the same extensions.", "quantifier": "every client configuration, every history, every HelloRetryRequest", "why_tests_cant": "a test compares hellos of a few configurations; what must not be there (a second share, a stale cookie, an unasked extension) has to be excluded for all of them", "anchors": ["src/siotls/states/client/start.py:ClientStart.initiate_connection", "src/siotls/states/client/wait_server_hello.py:ClientWaitServerHello._process_hello_retry_request"]}
{"id": "C70", "title": "EncryptedExtensions answers exactly what was asked", "statement": "Each extension of a server's EncryptedExtensions answers one of the ClientHello heard last, with the value the configuration prefers; each extension of that hello that the server can answer is answered; none is there twice.", "quantifier": "every configuration, every ClientHello, every history", "why_tests_cant": "absence of unsolicited extensions and the preferred choice must hold for every pair of hello and configuration", "anchors": ["src/siotls/states/server/wait_client_hello.py"]}
{"id": "C71", "title": "Heartbeats are negotiated", "statement": "A connected endpoint may send heartbeats iff the peer's extension (ClientHello, EncryptedExtensions) said peer_allowed_to_send, and echoes them iff its own configuration says so and the peer mentioned the extension.", "quantifier": "every configuration, every peer, every history that ends connected", "why_tests_cant": "the two directions are easily swapped and agree in symmetric tests", "anchors": ["src/siotls/states/server/wait_client_hello.py", "src/siotls/states/client/wait_encrypted_extensions.py"]}
{"id": "C72", "title": "A server's Certificate and CertificateRequest are those of its configuration", "statement": "The Certificate message has an empty context and presents the raw public key or the chain in order, as the hello heard last asked, with an OCSP response on the leaf iff the client asked for one and a good one is at hand. A CertificateRequest is sent only by a server that authenticates its peer and lists the signature schemes of its configuration.", "quantifier": "every configuration, every ClientHello, every OCSP responder, every history", "why_tests_cant": "every combination of certificate types, stapling and retries", "anchors": ["src/siotls/states/server/wait_client_hello.py"]}
{"id": "C73", "title": "Refused credentials are answered with the alert of RFC 8446", "statement": "A client answers decode_error to an empty certificate list, bad_certificate to a chain its trust store does not vouch for, illegal_parameter to a CertificateVerify with a scheme it did not offer, decrypt_error to a CertificateVerify with a wrong signature; either side answers decrypt_error to a Finished whose MAC is not the one the key exchange and the transcript define. Exactly this alert is sent, the call raises, the connection is failed.", "quantifier": "every history, every peer, every configuration, every way the records are cut", "why_tests_cant": "which alert a peer sees depends on which exception reaches the last handler; tests look at one failure of each kind", "anchors": ["src/siotls/states/client/wait_certificate.py", "src/siotls/states/client/wait_certificate_verify.py", "src/siotls/states/client/wait_finished.py", "src/siotls/states/server/wait_finished.py", "src/siotls/connection.py:TLSConnection.receive_data"]}
{"id": "C74", "title": "A handshake with a HelloRetryRequest completes", "statement": "When a server answers the first ClientHello with a HelloRetryRequest, client and server both hash the transcript of RFC 8446 4.4.1 (message_hash of the first ClientHello, the HelloRetryRequest, what follows), so that they derive the same keys and the client gets connected.", "quantifier": "every history of a client that received a HelloRetryRequest, every configuration, every server", "why_tests_cant": "a test that replays a HelloRetryRequest against the library's own client alone sees a well-formed second ClientHello; whether the transcripts agree depends on the order of hashing and of restarting the hash", "anchors": ["src/siotls/transcript.py:Transcript.do_hrr_dance", "src/siotls/states/client/wait_server_hello.py", "src/siotls/connection.py:TLSConnection.receive_data"]}
{"id": "C75", "title": "Groups and signature schemes are those RFC 8446 allows", "statement": "The key exchange groups that are implemented are the ten of RFC 8446, and a client whose first group is another one cannot start (KeyError, nothing changed); the signature schemes that are implemented are those meant for a kind of key; a CertificateVerify that a server sends, or that an authenticated client accepted, has a scheme RFC 8446 allows in CertificateVerify (no RSASSA-PKCS1-v1_5); the default configuration only has implemented groups, suites and schemes that RFC 8446 allows.", "quantifier": "every group and scheme identifier, every configuration, every history", "why_tests_cant": "all identifiers times all configurations times all peers", "anchors": ["src/siotls/crypto/key_exchanges.py", "src/siotls/crypto/signatures.py", "src/siotls/configuration.py:TLSConfiguration", "src/siotls/states/server/wait_client_hello.py", "src/siotls/states/client/wait_certificate_verify.py"]}
{"id": "C76", "title": "The key log reveals exactly the traffic secrets, and only on demand", "statement": "Without log_keys nothing is ever logged. With it, every line is in the NSS key log format, names the random of a ClientHello of this connection, and gives the secret of the key schedule of RFC 8446 that its label stands for; the key and nonce of every record encrypted or decrypted come from a secret that was logged before under a label for its direction; a connected endpoint has logged all five labels.", "quantifier": "every history, every configuration, every peer", "why_tests_cant": "that no line is ever logged without the option, and that every record can be decrypted from the log, are statements on all histories", "anchors": ["src/siotls/crypto/ciphers.py:TLSCipherSuite.derive_handshake_secrets", "src/siotls/crypto/ciphers.py:TLSCipherSuite.derive_master_secrets", "src/siotls/configuration.py:TLSConfiguration.log_keys"]}
{"id": "C77", "title": "Clients start, and the default configurations work together", "statement": "initiate_connection of a new client with a usable configuration (a first group whose keys can be generated, bounded lists, an encodable host name) never raises and leaves a ClientHello to send. A client given nothing but a trust store and a server given nothing but a key and a certificate chain that this store vouches for pass the checks, get constructed, complete the handshake with ChaCha20-Poly1305 and x25519 however the network cuts the bytes, and exchange data.", "quantifier": "every usable configuration, every host name, every kind of certificate key, all random values, every correct crypto library, every segmentation", "why_tests_cant": "the sizes of the hello, the kinds of keys and the segmentations are unbounded", "anchors": ["src/siotls/connection.py:TLSConnection.initiate_connection", "src/siotls/states/client/start.py:ClientStart.initiate_connection", "src/siotls/configuration.py:TLSConfiguration"]}
{"id": "C78", "title": "Key logging changes nothing but the log", "statement": "Take a connection and the same connection with the other value of log_keys, and make the same calls on both with the same peer bytes and the same random values. Every call returns the same value or raises the same exception on both. After every call both have the same state, the same negotiated parameters, the same keys, transcript and buffers, and have sent the same bytes. Only the key log differs.", "quantifier": "all configurations, both sides, all sequences of API calls, all bytes from the peer, all behaviours of the crypto library", "why_tests_cant": "a relation between two runs for every history; tests compare a few handshakes", "anchors": ["src/siotls/connection.py:TLSConnection", "src/siotls/configuration.py:TLSConfiguration.log_keys", "src/siotls/crypto/ciphers.py:TLSCipherSuite.__init__"]}
{"id": "C79", "title": "A server only serves the host names it was given", "statement": "A server configured with server_hostnames gets connected only to clients that ask for one of these names or for no name. (False of the code: the names a server is configured with have no influence on any result, state or byte.)", "quantifier": "all server configurations, all lists of names, all sequences of API calls, all bytes from the peer", "why_tests_cant": "absence of influence is a relation between all pairs of runs", "anchors": ["src/siotls/configuration.py:TLSConfiguration.server_hostnames", "src/siotls/states/server/wait_client_hello.py:ServerWaitClientHello"]}
{"id": "C80", "title": "Two ends converse in both directions at once", "statement": "After a handshake between compatible ends, let both programs send, read, take bytes to send and receive bytes in any order, and let the network keep the bytes as long as it likes and cut them anywhere. No call raises and both ends stay connected. At every moment what an end has read, followed by what it could read now, is a beginning of what the other end sent; once nothing is on the way it is all of it.", "quantifier": "all pairs of compatible configurations, all schedules of the two programs and of the network, all data (at most 16366 bytes per send_data, fewer than ten million calls per side)", "why_tests_cant": "the interleavings of two programs and the network are unbounded", "anchors": ["src/siotls/connection.py:TLSConnection.send_data", "src/siotls/connection.py:TLSConnection.receive_data", "src/siotls/connection.py:TLSConnection.data_to_read", "src/siotls/connection.py:TLSConnection.data_to_send"]}
{"id": "C81", "title": "Conversations end without loss", "statement": "As C80, and each program may also close its sending end at any moment, after which it no longer sends. No call raises. An end that closed still reads everything the other end goes on sending. An end that did not close leaves the connected state only after the peer closed and only when it has received every byte the peer ever sent; and once the peer closed and nothing is on the way it has left it.", "quantifier": "all pairs of compatible configurations, all schedules of the two programs and of the network, all moments of the two closures, all data (at most 16366 bytes per send_data, fewer than ten million calls per side)", "why_tests_cant": "the interleavings of two programs, two closures and the network are unbounded", "anchors": ["src/siotls/connection.py:TLSConnection.close_sending_end", "src/siotls/connection.py:TLSConnection.receive_data", "src/siotls/connection.py:TLSConnection.send_data"]}
{"id": "C82", "title": "A cut connection can be told from a closed one", "statement": "When the peer stops sending, the program can find out by calling the methods of the connection whether the peer closed its sending end (its close_notify arrived) or the connection was cut (truncation attack, RFC 8446 section 6.1).", "quantifier": "all established sessions, all conversations before the end, all sequences of calls after it", "why_tests_cant": "that no sequence of calls makes a difference is a statement about all programs; a test can only show that one of them sees none", "anchors": ["src/siotls/connection.py:TLSConnection.close_receiving_end", "src/siotls/connection.py:TLSConnection.is_connected", "src/siotls/states/closed.py:Closed", "src/siotls/states/__init__.py:State.process"]}
{"id": "C83", "title": "Two wrapped sockets with compatible configurations complete the handshake", "statement": "Wrap a client and a server connection with compatible configurations around sockets whose send takes everything it is given. However the system cuts the bytes of the peer into answers of recv, do_handhskake returns at both ends without an exception, at neither end before the last byte of the peer's flight was received; the two connections are then connected with the same parameters, transcripts and mirrored keys, every byte produced was given to the socket, and nothing is left in the buffers.", "quantifier": "all compatible configurations, random values, working cryptographic libraries, and all ways to cut the three flights", "why_tests_cant": "the cuts are as many as the compositions of thousands of bytes, and loops that stop one record early only fail for some of them", "anchors": ["src/siotls/wrapper.py:WrappedSocket.do_handhskake", "src/siotls/connection.py:TLSConnection.receive_data", "src/siotls/connection.py:TLSConnection.is_post_handshake", "src/siotls/connection.py:TLSConnection.data_to_send"]}
{"id": "C84", "title": "Two wrapped sockets carry a conversation in both directions", "statement": "After the handshake of two wrapped sockets, in whatever order the two programs call write, read and close (writes of at most 16366 bytes, fewer than ten million, none after the own close) and however the network delays and cuts the bytes: write and close return None, read returns a non-empty piece or goes on waiting, what an end has read is a prefix of what the peer wrote, and it is all of it when nothing is left on the way.", "quantifier": "all interleavings of calls of both programs, all payloads, all delays and cuts", "why_tests_cant": "interleavings of two programs with arbitrary network delays cannot be enumerated", "anchors": ["src/siotls/wrapper.py:WrappedSocket.write", "src/siotls/wrapper.py:WrappedSocket.read", "src/siotls/wrapper.py:WrappedSocket.close", "src/siotls/connection.py:TLSConnection.is_connected"]}
{"id": "C85", "title": "The finite-field groups are those of RFC 7919", "statement": "The key exchange objects of ffdhe2048, 3072, 4096, 6144 and 8192 are registered under the code points of RFC 8446 and hold the primes given by the formula of RFC 7919, p = 2^b - 2^(b-64) + (floor(2^(b-130) e) + X) 2^64 - 1 where e is Euler's number; q is (p-1)/2, the generator is 2 and key shares are as long as p.", "quantifier": "all five groups, all of their digits", "why_tests_cant": "a handshake of the library with itself succeeds with any number in the place of p; only the formula tells the right one", "anchors": ["src/siotls/crypto/key_exchanges.py:FFDHE2048", "src/siotls/crypto/key_exchanges.py:FFDHE3072", "src/siotls/crypto/key_exchanges.py:FFDHE4096", "src/siotls/crypto/key_exchanges.py:FFDHE6144", "src/siotls/crypto/key_exchanges.py:FFDHE8192"]}
{"id": "C86", "title": "Every public value RFC 7919 allows is accepted", "statement": "For a finite-field group and a peer's key share whose value y satisfies 1 < y < p-1 and that the cryptographic library takes, resume returns the shared secret. False: values with less significant bytes than min_key_length, which is a number of bits in RFC 7919, are answered with insufficient_security. True exactly from 256^(min_key_length-1) on.", "quantifier": "all five groups, all key shares, all private exponents", "why_tests_cant": "random public values almost never have so many leading zero bytes", "anchors": ["src/siotls/crypto/key_exchanges.py:_FFDHEMixin.resume"]}
{"id": "C87", "title": "A message that fits in one record arrives whole", "statement": "When two programs send messages of at most 16366 bytes each over established connections, then however the network delays and cuts the bytes and in whatever order the programs write, read and close, each read returns some whole messages of the peer that directly follow those returned before; a message is never split between two reads.", "quantifier": "all interleavings of calls, all messages, all delays and cuts", "why_tests_cant": "the cut that would split a message can be anywhere in any interleaving", "anchors": ["src/siotls/connection.py:TLSConnection.send_data", "src/siotls/connection.py:TLSConnection.receive_data", "src/siotls/connection.py:TLSConnection.data_to_read", "src/siotls/wrapper.py:WrappedSocket.read", "src/siotls/wrapper.py:WrappedSocket.write"]}
{"id": "C88", "title": "The example client gets the example server's answer", "statement": "Run the bodies of simple_client.connect and simple_server.handle_one over two wrapped sockets that completed the handshake. Whatever the order in which the programs advance and however the network delays and cuts the bytes: no call raises, the server's single read returns the whole request, the client's single read returns the whole answer, which for the request of the example client is the 200 page 'Hello from siotls', and the two programs never both wait while nothing is on the way.", "quantifier": "all schedules, delays and cuts, all host names, dates and versions (messages of at most 16366 bytes), all requests in the general form", "why_tests_cant": "both programs call read once; a test over loopback never sees the cuts for which a single read could return half a message", "anchors": ["src/siotls/examples/simple_client.py:connect", "src/siotls/examples/simple_server.py:handle_one", "src/siotls/wrapper.py:WrappedSocket.read", "src/siotls/wrapper.py:WrappedSocket.write", "src/siotls/utils.py:make_http11_request", "src/siotls/utils.py:make_http11_response"]}
{"id": "C89", "title": "The example server answers by the words of the first line", "statement": "For a request that is UTF-8 text, the status is 400 unless the first line (up to CRLF) has exactly three words, 405 if the first is not GET, else 404 if the second is not /, else 200 with the greeting as body; for bytes that are not UTF-8 it is 400.", "quantifier": "all requests", "why_tests_cant": "requests are unbounded; only a few lines are ever sent", "anchors": ["src/siotls/examples/simple_server.py:handle_one"]}
{"id": "C90", "title": "The example server ends every answered request without an exception", "statement": "After the answer was written, handle_one writes its line of log and returns. False: when the request is not UTF-8, request_line is not bound and UnboundLocalError is raised after the 400 answer. True exactly for requests that are UTF-8.", "quantifier": "all requests", "why_tests_cant": "only requests outside UTF-8 show it", "anchors": ["src/siotls/examples/simple_server.py:handle_one"]}
{"id": "C91", "title": "The wire tells nothing of the contents but the number of blocks", "statement": "Once a write key is installed, two programs that make the same calls and only differ by the data they send, where both take records of the same (padded) lengths, get the same result from every call; with a cipher whose output depends on the plaintext only through its length that includes every byte of data_to_send, otherwise its length. Nothing else of the connection differs. Hence an attacker who sees all results and chooses all other calls and all received bytes adaptively cannot tell two sequences of equally long data apart.", "quantifier": "all configurations, programs, peers, attackers' strategies, pairs of sequences of data", "why_tests_cant": "a statement about pairs of executions, over all strategies and all data; a test sees single executions", "anchors": ["src/siotls/connection.py:TLSConnection._send_content", "src/siotls/connection.py:TLSConnection._encrypt", "src/siotls/connection.py:TLSConnection.send_data", "src/siotls/connection.py:TLSConnection.data_to_send"]}
{"id": "C92", "title": "A server with an OCSP service serves whom it would serve without it", "statement": "Giving a server connection an OCSP service does not take clients away: a compatible client that asks for stapling gets connected whether or not the responder answers, and whether or not the answer is good. (False of the code: with a chain of two certificates and no response to be had - the certificate has no AIA extension, names no responder, or the responder is down - the exception leaves receive_data after the ServerHello, and the server never presents its chain to any client that asks for stapling. True when the responder answers, well or badly, and then for all cuts of the bytes.)", "quantifier": "all compatible configurations, chains, responders, random values, cuts of the bytes; the outage for all executions of a server with any peer", "why_tests_cant": "the negative part is about every execution with every peer, the positive one about every pair of compatible configurations and every responder", "anchors": ["src/siotls/states/server/wait_client_hello.py:ServerWaitClientHello._send_server_certificate", "src/siotls/crypto/ocsp.py:get_ocsp_url", "src/siotls/states/client/wait_certificate.py:ClientWaitCertificate._verify_statuses"]}
{"id": "C93", "title": "The example client, started against the example server, prints the page", "statement": "The client of examples/simple_client.py (with or without check_certificate) and the server of examples/simple_server.py, each with the configuration and OCSP service that its program gives it, accept their configurations, complete the handshake on http/1.1 however the system cuts the bytes, and then, however the network delivers: no call raises, a client that ends holds exactly the response 200 with \"Hello from siotls\", a server that ends ends well, and with nothing in flight nobody waits.", "quantifier": "all keys, chains, host names, trust stores that accept the chain, responders that answer, random values, orders of the hash set, cuts of the bytes, schedules of the network, versions, dates and phrases; any library that works", "why_tests_cant": "the programs are run by hand against one certificate on one machine; the theorem is for every chain, every cut and every schedule", "anchors": ["src/siotls/examples/simple_client.py:connect", "src/siotls/examples/simple_server.py:serve", "src/siotls/examples/simple_server.py:handle_one", "src/siotls/wrapper.py:WrappedSocket.do_handhskake"]}
{"id": "C94", "title": "A client with an OCSP service is never connected to a server with a revoked certificate", "statement": "A client with a trust store and an OCSP service is only connected to a server all of whose certificates that name a responder are vouched for by a valid OCSP response, stapled or fetched. (False of the code for the last certificate of the chain: a revoked certificate sent alone, without its issuer, is accepted. True of every certificate that is followed by its issuer.)", "quantifier": "all configurations, responders, libraries, byte streams from the server and sequences of API calls", "why_tests_cant": "the claim is about every chain and everything an active attacker may send before and after it; a test shows one revoked chain being refused", "anchors": ["src/siotls/states/client/wait_certificate.py:ClientWaitCertificate._verify_statuses", "src/siotls/crypto/ocsp.py:validate_ocsp", "src/siotls/crypto/ocsp.py:get_ocsp_url"]}
{"id": "C95", "title": "An OCSP service does not keep a client from servers whose certificates name no responder", "statement": "Giving a client an OCSP service does not take servers away: it completes the handshake with every compatible server whose certificates name no responder. (False of the code: for a certificate without Authority Information Access extension get_ocsp_url raises, and the client is never connected to a server that presents one followed by its issuer without stapled response. True of certificates that have the extension.)", "quantifier": "all compatible configurations, chains, random values, cuts of the bytes; the negative part for all executions of a client with any peer", "why_tests_cant": "the negative part is about every execution with every peer, the positive one about every pair of compatible configurations and every cut", "anchors": ["src/siotls/states/client/wait_certificate.py:ClientWaitCertificate._verify_statuses", "src/siotls/crypto/ocsp.py:get_ocsp_url"]}
{"id": "C96", "title": "The OCSP service gives again only what a responder gave and validation accepted", "statement": "The handshakes of a process look certificates up through ocsp_over_http: request, validate_ocsp, then cache or uncache. Whatever the history of look-ups, with any clocks, responders and issuers, a look-up succeeds only with a response that vouches for the certificate at that time; and an answer given without asking the responder is one that the responder gave to an earlier look-up of the very same request, found valid until the date it is given with, that no look-up of that request has found invalid since, and that date is still ahead.", "quantifier": "every history of look-ups, every clock value, every responder, every issuer", "why_tests_cant": "the cache is global state shared by all connections; the claim is about all histories of its uses, including evictions and failed validations", "anchors": ["src/siotls/states/client/wait_certificate.py:114-121", "src/siotls/states/server/wait_client_hello.py:176-189", "src/siotls/ocsp_over_http.py:19-78"]}
{"id": "C97", "title": "Nobody is asked again for an OCSP response that has not expired", "statement": "As long as a process looks up no more than 64 different certificates, the responder is not asked again for a certificate whose response was fetched, has been valid at every look-up since, and has not expired. False: the dates of renewed responses stay in the heap of limits, and an old date evicts the renewed response; two certificates are enough. It holds as long as responders have given at most 64 valid responses since the process began.", "quantifier": "every history of look-ups", "why_tests_cant": "it takes more than sixty renewals for the failure to show", "anchors": ["src/siotls/ocsp_over_http.py:19-26", "src/siotls/ocsp_over_http.py:68-78"]}
{"id": "C98", "title": "The OCSP service asks plain HTTP responders only, and reads at most 20 KiB", "statement": "A response fetched by ocsp_over_http.request is at most 20480 bytes long, and nobody is asked when the URL is not an http one with an authority or the request is empty. The first half is false: a negative Content-Length passes the check and then the whole body is read, however long. It holds for responses without Content-Length or with a non negative one.", "quantifier": "every cache state, clock, URL, request, HTTP answer", "why_tests_cant": "a claim about every answer a hostile responder can make", "anchors": ["src/siotls/ocsp_over_http.py:30-65"]}
{"id": "C99", "title": "A client that lowers its fragment limit below 4096 never connects to a server of this library", "statement": "Take a client and a server that complete the handshake, and lower the max_fragment_length of the client to 512, 1024 or 2048, values that the configuration accepts. The client does not tell the server, the server pads its encrypted records to 4096 bytes, and so the client refuses its flight: however the bytes are cut, receive_data raises AttributeError (the code names an alert that does not exist), and the connection is failed and stays failed.", "quantifier": "all compatible configurations, the three limits, all libraries and random values, all cuts of both flights, all calls afterwards", "why_tests_cant": "a test shows one configuration failing; that no configuration, certificate, host name, group or cut of the stream gets through with a lower limit is a universal claim", "anchors": ["src/siotls/connection.py:208-225", "src/siotls/states/client/start.py", "src/siotls/connection.py:_encrypt"]}
{"id": "C100", "title": "--keylogfile exports the secrets of the connection", "statement": "`python -m siotls client|server --keylogfile F` exports the TLS secrets of its connections to F (or to standard error for `-`): when a connection of the command is connected, lines of the key log format were given to the key logger. (False of the code: the configurations of the example programs never set `log_keys`; whatever happens, no line is given to the key logger.)", "quantifier": "all options, keys, chains, trust stores, peers, libraries, sequences of calls on the connection or on the wrapped socket", "why_tests_cant": "that no line is ever logged is a statement about all executions with all peers", "anchors": ["src/siotls/__main__.py:56-58", "src/siotls/__main__.py:69-75", "src/siotls/examples/simple_client.py:10-14", "src/siotls/examples/simple_server.py:17-22", "src/siotls/configuration.py:70"]}
{"id": "C101", "title": "The command says what happened, and one client does not take the server down", "statement": "The command exits with 0 exactly when the side that was asked for was run, with the host, port, files and certificate checking that the options say, and returned; otherwise with 1, unless the key log file cannot be opened or the run was interrupted. Without `--insecure`, a client of the command that is connected authenticated the server against the trust store of the system for the host that was given. Nothing is run when a named file cannot be read, and no server without a certificate and a key. The page is printed unless `-s` is given more often than `-v`. The accept loop handles every client whatever happened to the ones before, closes each client exactly once and the listening socket when it ends. A message about an unreadable file names that file (false for the key: the certificate is named), and secrets go to standard error only for `-` (false for a file named `-` in a directory).", "quantifier": "all options, all states of the file system, all outcomes of the two sides, all sequences of clients and of ends of their visits", "why_tests_cant": "sequences of clients are unbounded, and so are the combinations of options and failures", "anchors": ["src/siotls/__main__.py:39-106", "src/siotls/examples/simple_server.py:25-50"]}
{"id": "C102", "title": "What a peer makes an endpoint keep is bounded", "statement": "When `receive_data` returned, less than one record is left in the input buffer (at most 16644 bytes), and at most one handshake message (2^24 + 3 bytes) is kept in the handshake buffer. The first half is false of the code: of many empty handshake records each call takes only one, so any client makes any server keep as many complete records as it likes before the handshake; it holds when every handshake message starts with a record that holds its whole header.", "quantifier": "all configurations, libraries, histories of calls, bytes received and ways to cut them", "why_tests_cant": "a bound on memory is about all byte streams of any length", "anchors": ["src/siotls/connection.py:89-131", "src/siotls/connection.py:203-287"]}
{"id": "C103", "title": "Messages are laid out as RFC 8446 says", "statement": "The bytes of every handshake message and extension that is written are those of the presentation language of RFC 8446 (and of the RFCs of the extensions), every message that has such an encoding is written, and whatever a conforming peer wrote that way is read as meant. Every handshake message that a connection sent was so written. False of the code for certificate types and pre-shared keys, which it reads but cannot write, and for international server names, which it writes with a wrong length.", "quantifier": "all messages, extensions, byte strings that follow, libraries; all configurations and histories of calls", "why_tests_cant": "a round trip only shows that the two halves of the library agree with each other; the layouts are a relation over all values and sizes", "anchors": ["src/siotls/contents/handshakes/__init__.py", "src/siotls/contents/handshakes/extensions/__init__.py", "src/siotls/serial.py:1-167", "src/siotls/connection.py:289-344"]}
{"id": "C104", "title": "The key schedule with a pre-shared key", "statement": "TLSCipherSuite.derive_early_secrets(psk, mode, hash) computes the binder key, the early exporter secret and the early traffic key and IV of RFC 8446 section 7.1 for an external or a resumption key, keys only the client's writing and the server's reading with them, gives the early traffic secret (and nothing else) to the key log when there is one, and the handshake and master derivations that follow are those of the RFC with that pre-shared key; skipping the early secrets is the same as a key of zeros without the traffic keys; client and server mirror each other; any other mode is refused and changes nothing; over any history of calls the derivations happen in order and a refused call changes nothing (but the master secrets can be derived again). The CCM suites raise TypeError half-way.", "quantifier": "all hashes and HMACs of the right sizes, suites, sides, pre-shared keys, modes, shared secrets, transcript hashes, and all histories of calls", "why_tests_cant": "no test vector covers all keys and hashes, and no state calls this entry point, so no handshake test reaches it; a wrong label or salt only shows against another implementation", "anchors": ["src/siotls/crypto/ciphers.py:54-69", "src/siotls/crypto/ciphers.py:209-228", "src/siotls/crypto/hkdf.py:7-40"]}
{"id": "C105", "title": "split_extensions splits exactly the extension lists of RFC 8446", "statement": "split_extensions returns a list of (type, data) exactly for the bytes that RFC 8446 section 4.2 gives for that list (two length bytes, then each extension as two bytes of type and a vector with two length bytes) with nothing after; on any other bytes it raises one of the two errors of a stream too short or too long; no list has two encodings and no bytes two lists; on the extensions of a message it returns the types and data that the message's own parser reads, in the same order.", "quantifier": "all byte strings and all lists of extensions", "why_tests_cant": "the claim is about all byte strings, including those that end in the middle of any field or whose inner lengths run over the outer one", "anchors": ["src/siotls/contents/handshakes/extensions/__init__.py:11-22", "src/siotls/serial.py:52-83", "src/siotls/serial.py:140-167"]}
{"id": "C106", "title": "A connected endpoint survives the messages that may follow the handshake", "statement": "RFC 8446 section 4.6 lets a server send NewSessionTicket to any client, and either peer send KeyUpdate, once the handshake is over; a connected endpoint that receives one goes on (receive_data returns, the connection stays connected). False of the code, and not only for some messages: whatever handshake message is read once the handshake is over, receive_data raises; for these two it raises DecodeError, the connection is failed and decode_error is the one alert sent.", "quantifier": "all configurations, cryptographic libraries, histories of calls, ways of cutting the input, tickets and key updates", "why_tests_cant": "the claim is about every message that a conforming peer may send at any later moment, alone or amid other records, and about every history that led there", "anchors": ["src/siotls/contents/handshakes/new_session_ticket.py:9-12", "src/siotls/contents/handshakes/key_update.py:9-12", "src/siotls/contents/handshakes/__init__.py:41-51", "src/siotls/states/connected.py:11-16", "src/siotls/states/__init__.py:35-53", "src/siotls/connection.py:98-128"]}
{"id": "C107", "title": "The stream object does what its functional model says, and looking ahead leaves no trace", "statement": "For every program of reads and limits, the SerialIO object (a buffer with a cursor and a stack of limits, mutated in place, exceptions included) gives the value or the exception of the functional stream used everywhere else, never changes its buffer, and ends with the limits it started with; its loops end. Each writing method places exactly the bytes of its functional counterpart at the cursor (write_listvar goes back to its placeholder), or raises the same exception and leaves what precedes the cursor. `with stream.lookahead()` leaves the stream as it found it, whatever happens inside. The last clause is false of the code: the buffer and the cursor are always restored, and everything is when nothing raises, but an exception inside a `limit` inside a `lookahead` leaves that limit on the stack, and bytes that could be read before no longer can.", "quantifier": "all buffers, cursors, stacks of limits, programs of reads nested with limits and lookaheads in any way, all values written at any place", "why_tests_cant": "the programs, their nesting and the state in which an exception leaves the object are unbounded; tests read one structure from a fresh stream", "anchors": ["src/siotls/serial.py:47-50", "src/siotls/serial.py:52-70", "src/siotls/serial.py:72-123", "src/siotls/serial.py:126-132", "src/siotls/serial.py:134-167"]}
{"id": "C108", "title": "What a wrapped socket reads was said by a peer whose handshake was verified", "statement": "Whatever a program that uses WrappedSocket as a client does (handshake, reads and writes in any order, exceptions caught or not), as long as neither it nor the socket is closed, application data is read or written only after the server's CertificateVerify was received and its Finished was verified over the transcript; likewise what a wrapped server reads, it reads after the client's Finished was verified, if the program stops when a call raises. Proved when no close_notify was received. False otherwise: for every configuration, on either side, whatever it trusts, someone who knows no key sends a close_notify in the clear and then clear records; do_handhskake returns normally, is_connected() is true, every read returns the next of their words as the peer's, and every write puts the program's data on the wire in the clear.", "quantifier": "all configurations and trust stores, both sides, all environments, all sockets that never reach end of file, all programs of wrapper calls; for the negative part all words and all interleavings of reads and writes", "why_tests_cant": "a test shows one conversation with one configuration; here no configuration protects, and the positive part speaks of all programs against all sockets", "anchors": ["src/siotls/wrapper.py:15-45", "src/siotls/states/__init__.py:35-53", "src/siotls/states/closed.py", "src/siotls/connection.py:TLSConnection.receive_data", "src/siotls/connection.py:TLSConnection.send_data"]}
{"id": "C109", "title": "What was agreed in the handshake stays", "statement": "Once is_post_handshake() is true it remains true for ever; the configuration, the negotiated configuration, the host name, the signature scheme, both randoms, the cipher suite and the keys and IVs of both directions never change again, whatever is called and received and whether it raises or not (closing, failing, and closing after failing included). No key is installed or logged any more, every record sealed or opened afterwards uses the keys of that moment, and initiate_connection raises NotImplementedError and changes nothing.", "quantifier": "all connections after the handshake (connected, closed or failed), all environments, all histories of API calls and received bytes", "why_tests_cant": "it speaks of every later history, including handshake messages injected after the handshake and errors at any point; nothing is frozen in the code (C51), so only the absence of any path that writes these fields guarantees it", "anchors": ["src/siotls/connection.py:71-185", "src/siotls/states/connected.py", "src/siotls/states/closed.py", "src/siotls/states/failed.py"]}
{"id": "C110", "title": "The settings of the other role have no influence", "statement": "Two clients whose configurations differ only in the private key, in which certificates are in their chain and in which public key they have (each present in both or absent in both; the private key may be absent in one) get the same result or exception from every call of every program, and send the same bytes, negotiate the same, keep the same state and keys: nothing a client does reveals or uses its private key. Likewise two servers whose configurations differ only in what is in the trust store and in the trusted public keys (present in both or absent in both), in the revocation list and in max_chain_depth: a server judges no client by them.", "quantifier": "all environments, all configurations, all replacements of these settings, all programs of API calls and all bytes received", "why_tests_cant": "it compares two runs of every program against every peer; a leak of the private key or a use of the trust store on one rare path (a CertificateRequest, a HelloRetryRequest, an error) would escape any sample", "anchors": ["src/siotls/configuration.py:46-104", "src/siotls/states/client/start.py:35-77", "src/siotls/states/client/wait_finished.py:18-53", "src/siotls/states/server/wait_client_hello.py:80-92", "src/siotls/states/server/wait_client_hello.py:254-288"]}
{"id": "C111", "title": "A private key only signs CertificateVerify messages", "statement": "If two private keys make the same signatures of the content that RFC 8446 section 4.4.3 prescribes for the CertificateVerify of a server (64 spaces, the context string, a zero byte, a transcript hash), then an endpoint with the one cannot be told from an endpoint with the other: every call of every program returns or raises the same, and the bytes sent, the data delivered, the state, the negotiated parameters and the traffic keys are the same. So the key is used for nothing else and signs nothing else.", "quantifier": "all environments, all configurations with a private key, all pairs of keys that sign these contents alike, all programs of API calls and all bytes received", "why_tests_cant": "it compares two runs of every program against every peer; any other use of the key (in a log, an error path, a second signature context, the random values) on any path would break it", "anchors": ["src/siotls/states/server/wait_client_hello.py:157-202", "src/siotls/states/server/wait_client_hello.py:278-288", "src/siotls/configuration.py:46-104"]}
{"id": "C112", "title": "A client completes the handshake with conforming servers of any make", "statement": "A client has sent its ClientHello. Whatever reply comes, if it is the reply of a server that follows RFC 8446 in a full handshake without HelloRetryRequest, client authentication or stapled OCSP response, with an AES-GCM or ChaCha20-Poly1305 suite and each message in a record of its own (a cipher suite the client offered, TLS 1.3, a share of the group offered, EncryptedExtensions with any extensions allowed there in any order, at most one application protocol and of those offered, a chain the client believes in, a valid CertificateVerify with a scheme offered, the Finished of section 4.4.4; the messages laid out as the RFC says, the records padded in any way and not larger than the client takes, with or without change_cipher_spec), then, however the bytes are cut on the way, the client digests the reply without raising, does not call the handshake complete before the last byte, and then is connected: it agreed to what the server chose, its output is change_cipher_spec and the Finished message of the RFC in a record under the handshake keys of the RFC, and it holds the application keys of the RFC.", "quantifier": "all environments that work, all client configurations (all five fragment sizes), host names and OCSP settings, all ClientHellos such a client sends, all conforming replies, all ways to cut the bytes", "why_tests_cant": "tests talk to the few servers at hand; the claim is about all choices, extension orders, paddings and segmentations the RFC leaves open, for every configuration", "anchors": ["src/siotls/states/client/wait_server_hello.py:29-115", "src/siotls/states/client/wait_encrypted_extensions.py:24-91", "src/siotls/states/client/wait_certificate.py:28-130", "src/siotls/states/client/wait_certificate_verify.py:25-50", "src/siotls/states/client/wait_finished.py:20-49", "src/siotls/connection.py:98-128"]}
{"id": "C113", "title": "A server completes the handshake with conforming clients of any make", "statement": "A server without demands on the client's identity waits. Whatever ClientHello comes, if it is one of a client that follows RFC 8446 and has the suite, group (with a share) and signature scheme that the server prefers (any session id, any further suites, versions, shares, schemes and extensions in any order, but no max_fragment_length and no server_certificate_type extension; a protocol in common if both name some; the message in any number of plaintext records, its header in one piece), then, however the bytes are cut on the way, the server digests it without raising and replies as the RFC asks: a ServerHello that echoes the session id, EncryptedExtensions that answer only what was asked, its chain, its signature over the messages so far and its Finished, in records under the handshake keys of the RFC. When the Finished message of the RFC comes, in a record with any padding, with or without change_cipher_spec, and cut in any way, the server digests it without raising, does not call the handshake complete before the last byte, and then is connected with the application keys of the RFC, nothing left to send and nothing left over.", "quantifier": "all environments that work, all server configurations with a chain and default fragments, all conforming ClientHellos and Finished records, all ways to cut the bytes", "why_tests_cant": "tests talk to the few clients at hand; the claim is about all session ids, extension orders, fragmentations, paddings and segmentations the RFC leaves open, for every configuration", "anchors": ["src/siotls/states/server/wait_client_hello.py:60-353", "src/siotls/states/server/wait_finished.py:16-35", "src/siotls/connection.py:98-128"]}
{"id": "C114", "title": "A connection reads the application data of conforming peers of any make", "statement": "Let a connection, with any history, be connected or have only its sending side closed, with nothing left aside, far enough from the limit at which it wants to send a key update. Its peer, of whatever make, sends application data in records under its traffic secret (RFC 8446 sections 5.2, 5.4 and 7.3): any number of records below the limit of the suite, any lengths, also empty ones, any padding, each within the agreed fragment length. However the bytes are cut on the way, and however many of them have come so far, no call raises; the data of exactly the records that are complete is handed over, in order; the bytes of the next record are kept; and apart from the counter of the records read nothing else of the connection changes.", "quantifier": "all environments that work, all reachable connections, traffic secrets, record counters, sequences of records with any lengths and paddings, all ways to cut the bytes and all prefixes", "why_tests_cant": "tests read what the library's own sending side or a few clients write; the claim is about all paddings, record lengths, prefixes and segmentations at every counter value", "anchors": ["src/siotls/connection.py:89-131", "src/siotls/connection.py:203-287", "src/siotls/states/connected.py", "src/siotls/crypto/ciphers.py:145-160"]}
{"id": "C115", "title": "What a connection sends is application data that peers of any make can read", "statement": "Whatever is given to send_data, call after call, what comes out are records of application data as RFC 8446 sections 5.2, 5.4 and 7.3 describe them: sealed with the keys of the sender's traffic secret, numbered one after the other from where the sender stood, each the data, the type byte and zeros. Together they carry exactly what was given, in order. No record holds more data than the agreed fragment length, nor, with padding and tag, is it larger than a peer has to accept. Apart from the counter of the records written and the output nothing of the connection changes.", "quantifier": "all environments, connections with application keys, traffic secrets, counters, agreed fragment lengths and sequences of successful send_data calls with payloads of any length", "why_tests_cant": "tests decrypt a few records of a few sizes; the claim is about all payload sizes, counters, suites and fragment lengths", "anchors": ["src/siotls/connection.py:133-134", "src/siotls/connection.py:289-371", "src/siotls/crypto/ciphers.py:159-168"]}
