{"claims": [
{"property": "C01", "status": "proved", "theorems": ["C01_int", "C01_int_refused", "C01_var", "C01_var_refused", "C01_listint", "C01_listint_refused", "C01_listvar", "C01_listvar_refused"], "note": ""},
{"property": "C02", "status": "proved", "theorems": ["C02_limit", "C02_limit_consumes"], "note": ""},
{"property": "C03", "status": "proved", "theorems": ["C03_roundtrip", "C03_parse"], "note": ""},
{"property": "C04", "status": "partial", "theorems": ["C04_extensions_partial", "C04_format", "C04_false_cert_type", "C04_false_psk", "C04_false_idn"], "note": "The full statement (C04_statement) is false of the code: certificate-type and pre_shared_key extensions cannot be serialized, IDN server names get a wrong length; negations proved, every other extension proved."},
{"property": "C05", "status": "proved", "theorems": ["C05_roundtrip", "C05_boundary", "C05_format"], "note": ""},
{"property": "C06", "status": "partial", "theorems": ["C06_partial", "C06_parse_partial", "C06_false"], "note": "False of the code: content type 0, heartbeats, unknown alerts, over-long records, some handshake messages raise KeyError, NotImplementedError, TypeError, AttributeError (C06_false). Proved after the handshake for the other contents."},
{"property": "C07", "status": "partial", "theorems": ["C07_chunks_partial", "C07_split_partial", "C07_raised_partial", "C07_false"], "note": "False in general: a record leaving less than the 4 bytes of a handshake header stops the loop (C07_false). Proved for all other inputs; exceptions raised after the loop because keys are worn out are excluded."},
{"property": "C08", "status": "proved", "theorems": ["C08_before", "C08_alone", "C08_between"], "note": "Every state with no partial record buffered, any number of records. C08_between (middle of a chunk) assumes no handshake header is cut over records before."},
{"property": "C09", "status": "partial", "theorems": ["C09_partial", "C09_refused", "C09_false"], "note": "Proved for payloads whose fragments are shorter than the limit. Full-size fragments are refused by the peer (C09_refused, C09_false)."},
{"property": "C10", "status": "partial", "theorems": ["C10_plain", "C10_partial", "C10_full", "C10_false"], "note": "Proved for plaintext records and for protected fragments strictly shorter than the limit. The code pads a full-size fragment past the limit; C10_full proves the violation for every full fragment, C10_false is a concrete run."},
{"property": "C100", "status": "partial", "theorems": ["C100_false", "C100_nothing"], "note": "false of the code: the command never sets log_keys, so nothing is ever logged (C100_nothing, for all executions)"},
{"property": "C101", "status": "partial", "theorems": ["C101_status", "C101_failure", "C101_nothing", "C101_prints", "C101_authenticated", "C101_serves", "C101_closes", "C101_names_false", "C101_dash_false"], "note": "exit status, what is run and the accept loop proved; two clauses are false of the code (the message about the key file, a file named - in a directory)"},
{"property": "C102", "status": "partial", "theorems": ["C102_partial", "C102_handshake", "C102_unbounded", "C102_false"], "note": "the bound on the handshake buffer holds for all programs whose receive_data returned (C102_handshake); that of the input buffer is false for every server (C102_unbounded) and holds when handshake headers are not cut over records (C102_partial)"},
{"property": "C103", "status": "partial", "theorems": ["C103_extension_partial", "C103_message_partial", "C103_sent_partial", "C103_extension_read", "C103_message_read", "C103_unambiguous", "C103_false"], "note": "Layouts are a separate relation (Spec/Encoding.lean). Written = laid out, both directions, for all extensions but those that C04 and C58 show wrong; read as meant for all extensions; every handshake message that a connection sent is laid out as the RFC says, when the name of the server has an IDNA encoding as long as itself. Not included: lower bounds on the lengths of vectors."},
{"property": "C104", "status": "partial", "theorems": ["C104_schedule", "C104_skip", "C104_mirrored", "C104_labels", "C104_mode", "C104_order_partial", "C104_false_once", "C104_ccm"], "note": "derive_early_secrets and what follows equal the RFC 8446 formulas with a pre-shared key; the order holds over all histories of calls but for the master secrets, which can be derived again (C104_false_once)."},
{"property": "C105", "status": "proved", "theorems": ["C105_split", "C105_error", "C105_unambiguous", "C105_agrees"], "note": "split_extensions returns l on b iff b is the RFC 8446 layout of l."},
{"property": "C106", "status": "partial", "theorems": ["C106_raises", "C106_refused", "C106_heard", "C106_never", "C106_false"], "note": "The full claim (C106_statement) is false: C106_never shows that every connected endpoint raises for every such message in a record of its own, C106_raises that any handshake message read after the handshake raises, C106_refused the alert and the failed state. The latter assumes that the write key is not worn out."},
{"property": "C107", "status": "partial", "theorems": ["C107_new", "C107_reads", "C107_terminates", "C107_lookahead", "C107_lookahead_ok", "C107_false", "C107_eof", "C107_writes", "C107_append"], "note": "Proved in full but for the last clause, which is false of the code (C107_false: a limit left behind by an exception inside a lookahead). What holds of it is C107_lookahead (buffer and cursor, always) and C107_lookahead_ok (everything, when nothing raises)."},
{"property": "C108", "status": "partial", "theorems": ["C108_fooled", "C108_partial", "C108_server_partial", "C108_false"], "note": "False as stated (C108_false); C108_fooled proves the attack for every configuration, side and program; C108_partial (clients, all programs) and C108_server_partial (servers, programs that stop when a call raises) prove the claim when no close_notify was received. Missing: the clear close_notify."},
{"property": "C109", "status": "proved", "theorems": ["C109_settled", "C109_once"], "note": "For every connection whose handshake is over (reachable or not) and every history."},
{"property": "C11", "status": "proved", "theorems": ["C11_multiple", "C11_equal"], "note": "Every protected record the connection emits has inner length a multiple of the padding unit and data of equal padded size gives equal record lengths."},
{"property": "C110", "status": "proved", "theorems": ["C110_client", "C110_server"], "note": "Non-interference over all programs and all received bytes: results, bytes sent, state, keys, negotiated parameters and events are equal. Presence of chain, public key, trust store and trusted keys is kept (it decides which extensions are sent); presence of the private key of a client, the revocation list and the depth of a server is not."},
{"property": "C111", "status": "proved", "theorems": ["C111_private_key"], "note": "Non-interference over all programs and all received bytes. The key is a byte string; the empty string stands for no key and is excluded."},
{"property": "C112", "status": "proved", "theorems": ["C112_client"], "note": "For replies with one certificate message without stapled OCSP response or CertificateRequest, each message in a record of its own, AES-GCM and ChaCha20-Poly1305 suites. The server is described by RFC 8446 only (Spec/Interop.lean), no function of the model writes its bytes."},
{"property": "C113", "status": "proved", "theorems": ["C113_server"], "note": "For ClientHellos that need no HelloRetryRequest, server without OCSP service and without client authentication, AES-GCM and ChaCha20-Poly1305 suites. The client is described by RFC 8446 only (Spec/InteropServer.lean), no function of the model writes its bytes."},
{"property": "C114", "status": "proved", "theorems": ["C114_reads", "C114_all"], "note": "The connection is any reachable one; far from the key update limit, because the library raises there (rekey is not implemented)."},
{"property": "C115", "status": "partial", "theorems": ["C115_partial", "C10_false"], "note": "Missing: the size of the record when a payload fills a fragment; there the code pads beyond the limit (C10_false). Everything else holds for all payloads."},
{"property": "C12", "status": "partial", "theorems": ["C12_partial", "C12_alert", "C12_false"], "note": "Proved: an over-long record raises at once, nothing of it is read or handed over. Missing: the alert is internal_error instead of record_overflow because the exception class the code names does not exist (C12_alert, C12_false)."},
{"property": "C13", "status": "partial", "theorems": ["C13_partial", "C13_refused", "C13_false"], "note": "Proved for one message cut in any way over records with at least the 4 header bytes in the first. Two messages in one record are refused by the code (C13_refused, C13_false)."},
{"property": "C14", "status": "proved", "theorems": ["C14_epoch", "C14_nonces", "C14_installs"], "note": "Distinctness of the installed keys is a hypothesis of C14_nonces (it is a cryptographic property of HKDF); C14_epoch is unconditional, C14_installs bounds the installations."},
{"property": "C15", "status": "proved", "theorems": ["C15_sent", "C15_accepted", "C15_keyless", "C15_refused"], "note": ""},
{"property": "C16", "status": "partial", "theorems": ["C16_partial", "C16_refused", "C16_false"], "note": "Proved for messages whose fragments are shorter than the limit. Full-size fragments are refused by the peer (C16_refused, C16_false)."},
{"property": "C17", "status": "partial", "theorems": ["C17_subsequence", "C17_partial", "C17_false"], "note": "C17_subsequence: for every call sequence and network behaviour, what is handed over is a subsequence of the records the peer sent (no modification, insertion, replay, reordering). C17_partial: a prefix, when every raising receive_data leaves is_connected false. C17_false: without that, a half-closed receiver skips a record after a forged one."},
{"property": "C18", "status": "proved", "theorems": ["C18_reading", "C18_delivering", "C18_writing", "C18_kept"], "note": "Histories of careful programs (Spec/History.lean)."},
{"property": "C19", "status": "partial", "theorems": ["C19_client_partial", "C19_server_partial", "C19_false"], "note": "proved as long as neither side closes the connection; false otherwise: a plaintext close_notify opens the door to plaintext application data"},
{"property": "C20", "status": "proved", "theorems": ["C20_authenticated", "C20_finished"], "note": "all histories; after a HelloRetryRequest the hashes cover a synthetic message with a digest of the first hello plus every message since"},
{"property": "C21", "status": "proved", "theorems": ["C21_finished"], "note": "careful programs (see Careful); random bytes differ from the HelloRetryRequest constant"},
{"property": "C22", "status": "partial", "theorems": ["C22_partial", "C22_false"], "note": "the connected state is never reached and nothing is delivered as long as nobody closes; is_connected() can be fooled by a plaintext close_notify"},
{"property": "C23", "status": "partial", "theorems": ["C23_partial", "C23_false"], "note": "False of the code: close_receiving_end revives a failed connection (C23_false). Proved for every program that does not call it."},
{"property": "C24", "status": "partial", "theorems": ["C24_partial", "C24_again", "C24_false"], "note": "False of the code once the peer sends its own close_notify (C24_false). Proved until then."},
{"property": "C25", "status": "partial", "theorems": ["C25_partial", "C25_false"], "note": "The half about close_receiving_end is proved in every state; the half about the close_notify of the peer is false of the code (C25_false)."},
{"property": "C26", "status": "partial", "theorems": ["C26_raises", "C26_partial", "C26_false"], "note": "receive_data always raises (C26_raises); the connection becomes failed only when an alert can be sent back (C26_partial, C26_false)."},
{"property": "C27", "status": "partial", "theorems": ["C27_partial", "C27_false"], "note": "False when the sending end is closed (C27_false); also not claimed when the write key is worn out or a CCM suite is used. Proved otherwise."},
{"property": "C28", "status": "partial", "theorems": ["C28_server", "C28_client_partial", "C28_false", "C28_accepted_server", "C28_accepted_client", "C28_refused_server", "C28_refused_client"], "note": "proved in full for servers; a client accepts any number of HelloRetryRequests (C28_false), otherwise the same order is proved"},
{"property": "C29", "status": "partial", "theorems": ["C29_server", "C29_client_partial", "C29_false", "C29_agree"], "note": "proved for servers; for clients without HelloRetryRequest only: after one the transcript of a client lacks it (C29_false)"},
{"property": "C30", "status": "partial", "theorems": ["C30_server", "C30_false"], "note": "proved for servers; false of clients (C30_false)"},
{"property": "C31", "status": "partial", "theorems": ["C31_empty", "C31_send", "C31_initiate", "C31_receive", "C31_closed_partial", "C31_false"], "note": "False after close_receiving_end during the handshake: receive_data then returns normally (C31_false)."},
{"property": "C32", "status": "proved", "theorems": ["C32_output", "C32_input", "C32_transparent", "C32_total"], "note": "All programs over a new connection."},
{"property": "C33", "status": "proved", "theorems": ["Siotls.C33_hello", "Siotls.C33_retry", "Siotls.C33_refused"], "note": "Over every history of a checked server. After a HelloRetryRequest (or a re-setup) the list is the one of the hello that was answered first, same random. Assumes E.Shares."},
{"property": "C34", "status": "proved", "theorems": ["Siotls.C34_hello", "Siotls.C34_retry", "Siotls.C34_scheme"], "note": "Over every history of a checked server."},
{"property": "C35", "status": "proved", "theorems": ["Siotls.C35_server", "Siotls.C35_server_done", "Siotls.C35_server_refused", "Siotls.C35_offer", "Siotls.C35_client", "Siotls.C35_client_refused"], "note": "no_application_protocol is proved of the function _negociate, provided the hello goes through without its ALPN extension."},
{"property": "C36", "status": "partial", "theorems": ["Siotls.C36_hello", "Siotls.C36_retry", "Siotls.C36_server_refused", "Siotls.C36_server_alert", "Siotls.C36_client_partial", "Siotls.C36_client_refused", "Siotls.C36_client_alert", "Siotls.C36_false"], "note": "False of a client that receives a HelloRetryRequest without supported_versions: it answers. The rest is proved; a ServerHello that selects TLS 1.2 is a ValueError of the parser, internal_error for the peer."},
{"property": "C37", "status": "partial", "theorems": ["Siotls.C37_partial", "Siotls.C37_refused", "Siotls.C37_false"], "note": "False of the maximum fragment length: 16384 when the server does not announce one, whatever the configuration. Certificate types default to X.509."},
{"property": "C38", "status": "proved", "theorems": ["Siotls.C38_server", "Siotls.C38_server_refused", "Siotls.C38_client_hello", "Siotls.C38_client"], "note": "A second hello with another random is refused with 40 or 47."},
{"property": "C39", "status": "partial", "theorems": ["Siotls.C39_silent", "Siotls.C39_server_partial", "Siotls.C39_server_echo", "Siotls.C39_client_partial", "Siotls.C39_false"], "note": "False: a client never sends the extension."},
{"property": "C40", "status": "partial", "theorems": ["Siotls.C40_hello", "Siotls.C40_retry", "Siotls.C40_ignored", "Siotls.C40_false"], "note": "The server echoes; the client does not look at the session id."},
{"property": "C41", "status": "proved", "theorems": ["C41_schedule"], "note": "TLSCipherSuite secrets, keys and IVs equal the RFC 8446 §7.1/7.3 formulas over an abstract hash."},
{"property": "C42", "status": "proved", "theorems": ["C42_mirrored", "C42_labels"], "note": "Read keys of one side are the write keys of the other."},
{"property": "C43", "status": "proved", "theorems": ["C43_length", "C43_shortcut", "C43_label_injective", "C43_separated"], "note": "HKDF-Expand-Label is RFC 5869/8446, labels are injectively encoded."},
{"property": "C44", "status": "partial", "theorems": ["C44_order_partial", "C44_false_once"], "note": "Skipping a step raises; deriving the master secrets twice is possible: the \"exactly once\" half is refuted on a witness."},
{"property": "C45", "status": "partial", "theorems": ["C45_partial", "C45_false"], "note": "False for servers before the client Finished: C45_false. Proved from the moment the connection was connected."},
{"property": "C46", "status": "proved", "theorems": ["C46_params", "C46_share", "C46_accepted", "C46_refused", "C46_agreement"], "note": "FFDHE groups; the primality of p and q is not proved; the range checks of the cryptography library are an arbitrary predicate."},
{"property": "C47", "status": "partial", "theorems": ["C47_ccm", "C47_connected", "C47_false", "Siotls.C56_partial"], "note": "False: no connection whatsoever that only allows CCM suites becomes connected or protects a record (C47_ccm), connected implies a non-CCM suite of the configuration. The positive direction for the other three suites is C56_partial, under its hypotheses."},
{"property": "C48", "status": "proved", "theorems": ["C48_validate"], "note": "DER parsing and the signature check are parameters."},
{"property": "C49", "status": "proved", "theorems": ["C49_fresh", "C49_bounded", "C49_earliest"], "note": "All histories of cache/uncache/request with any clock values."},
{"property": "C50", "status": "proved", "theorems": ["C50_valid"], "note": ""},
{"property": "C51", "status": "partial", "theorems": ["C51_frozen", "C51_never", "C51_false"], "note": "First half proved (C51_frozen). Second half false: nothing ever freezes the negotiated configuration (C51_never)."},
{"property": "C52", "status": "proved", "theorems": ["C52_next", "C52_peek"], "note": ""},
{"property": "C53", "status": "proved", "theorems": ["C53_bundle"], "note": "The file system is a predicate."},
{"property": "C54", "status": "partial", "theorems": ["C54_length_partial", "C54_wrong_length", "C54_false"], "note": "True for ASCII bodies; refuted for others."},
{"property": "C55", "status": "partial", "theorems": ["C55_partial", "C55_order", "C55_lost", "C55_false"], "note": "False: a send that takes less than it is given, or raises, loses the rest for ever (C55_lost, C55_false). Proved for sockets whose send takes everything (C55_partial); in general the accepted bytes are a sublist, in order (C55_order)."},
{"property": "C56", "status": "partial", "theorems": ["Siotls.C56_partial", "Siotls.C56_false"], "note": "False in general: a client configured with max_fragment_length 512 never sends the extension and refuses the padded flight of a default server (C56_false). C56_partial: for all compatible configurations (client limit 4096 or 16384, server limit 16384) with a suite other than CCM, every correct library and all random values, with any cutting of the three flights into chunks, both become connected with the same parameters and mirrored keys, and data then travels both ways. OCSP services may be present at either end (hypothesis Vouched: the responders answer). HelloRetryRequest is C74, that initiate_connection returns is C77, data in both directions at once is C80. Missing: client authentication and raw public keys (they never work, C22/C57), non-ASCII host names, server messages longer than one record."},
{"property": "C57", "status": "partial", "theorems": ["C57_false"], "note": "the property is false: proved that no client trusting only raw keys is ever connected"},
{"property": "C58", "status": "partial", "theorems": ["C58_partial", "C58_longer", "C58_shorter", "C58_exact", "C58_sent", "C58_false"], "note": "False for internationalized names. Proved: exactly when the encoding is as long as the name does the server read it (C58_exact, with C58_longer/C58_shorter saying what happens otherwise); the hello carries the name for every host name that is not an IP address (C58_sent)."},
{"property": "C59", "status": "partial", "theorems": ["C59_list_partial", "C59_stapled", "C59_false"], "note": "with a trust store and a revocation list the client never connects; without trust store the list is ignored"},
{"property": "C60", "status": "proved", "theorems": ["C60_faithful", "C60_layout"], "note": ""},
{"property": "C61", "status": "proved", "theorems": ["C61_int", "C61_var", "C61_listint", "C61_listvar"], "note": "Added after the seeded bug serial-listint-mod survived."},
{"property": "C62", "status": "proved", "theorems": ["C62_client_hello", "C62_server_hello", "C62_hello_retry_request"], "note": "Exact byte layout of every accepted hello."},
{"property": "C63", "status": "proved", "theorems": ["C63_loop", "C63_receive", "C63_unique"], "note": "Big-step relation without fuel."},
{"property": "C64", "status": "proved", "theorems": ["C64_margin"], "note": "For configurations without the CCM suites, which have no usage limit."},
{"property": "C65", "status": "proved", "theorems": ["C65_read"], "note": "On any socket, for all calls, raising or not."},
{"property": "C66", "status": "partial", "theorems": ["C66_partial", "C66_eof", "C66_false"], "note": "False: an end of file during the handshake makes it return normally with a failed connection (C66_eof for every state, C66_false). What holds: it returns only post handshake."},
{"property": "C67", "status": "proved", "theorems": ["C67_eof"], "note": "Every method, every state, every socket."},
{"property": "C68", "status": "proved", "theorems": ["Siotls.C68_refused", "Siotls.C68_alert"], "note": "C68_refused: every history, every such hello. C68_alert fixes the alert at the negotiation, in any connection whose cipher suite was chosen; a hello that shares no suite is answered handshake_failure before (C33)."},
{"property": "C69", "status": "proved", "theorems": ["Siotls.C69_first", "Siotls.C69_retry"], "note": "iff description of the extensions of both hellos"},
{"property": "C70", "status": "proved", "theorems": ["Siotls.C70_extensions"], "note": ""},
{"property": "C71", "status": "proved", "theorems": ["Siotls.C71_server", "Siotls.C71_client"], "note": ""},
{"property": "C72", "status": "partial", "theorems": ["Siotls.C72_certificate", "Siotls.C72_request_partial", "Siotls.C72_request_narrow"], "note": "the claim on Certificate is proved; the claim on CertificateRequest is false after a HelloRetryRequest: C72_request_narrow is the witness, C72_request_partial what holds"},
{"property": "C73", "status": "partial", "theorems": ["Siotls.C73_chain", "Siotls.C73_scheme", "Siotls.C73_finished_client", "Siotls.C73_finished_server", "Siotls.C73_empty_bad", "Siotls.C73_signature_internal"], "note": "Proved for chain, scheme and Finished (the first Finished a connection hears). False for two: an empty list is bad_certificate (C73_empty_bad), a wrong signature internal_error (C73_signature_internal), for every history."},
{"property": "C74", "status": "partial", "theorems": ["C74_lost", "C74_connected", "C74_false", "C29_server"], "note": "False of the code for clients: do_hrr_dance is called after the HelloRetryRequest was hashed and starts the hash anew, so that message is lost. Proved of all histories: a client that got a HelloRetryRequest and then a ServerHello never has the transcript of RFC 8446 (C74_lost), and if it gets connected then the server hashed something else too (C74_connected). C74_false: two endpoints of this library that need a HelloRetryRequest fail. The server side is right: C29_server."},
{"property": "C75", "status": "partial", "theorems": ["C75_groups", "C75_unknown", "C75_schemes", "C75_server_partial", "C75_client_partial", "C75_default", "C75_false"], "note": "Full claim is false of the code: a server configured with RSASSA-PKCS1-v1_5 signs with it (C75_false). Proved for configurations without it, which include the default one."},
{"property": "C76", "status": "proved", "theorems": ["C76_silent", "C76_lines", "C76_sent", "C76_received", "C76_complete"], "note": ""},
{"property": "C77", "status": "proved", "theorems": ["C77_start", "C77_handshake", "C77_defaults"], "note": "Sizes are bounded generously (lists of at most 1000 entries, names of at most 2000 characters, shares of at most 2048 bytes) so that the hello fits its length fields. The default handshake inherits the assumptions of C56 on the library (Library) and on the size of the certificate chain."},
{"property": "C78", "status": "proved", "theorems": ["C78_log_keys"], "note": "Two runs with log_keys on and off: same results, same states, same bytes, same events apart from the log lines."},
{"property": "C79", "status": "partial", "theorems": ["C79_ignored", "C79_false"], "note": "The full statement (C79_statement) is false of the code: C79_false. C79_ignored describes the code for all inputs: the server_hostnames of a server change nothing."},
{"property": "C80", "status": "proved", "theorems": ["C80_duplex", "C80_session"], "note": "Invariant of the two-party system over all schedules. The bound of ten million sends per side stays below the rekey threshold of the suites: automatic rekeying raises NotImplementedError in the code (C64)."},
{"property": "C81", "status": "proved", "theorems": ["C81_farewell", "C81_session"], "note": "Invariant of the two-party system over all schedules. The programs close once and do not send after closing (what the code does then: C24, C31). Same bounds as C80."},
{"property": "C82", "status": "partial", "theorems": ["C82_undetected", "C82_alike", "C82_silent", "C82_false"], "note": "The full statement (C82_statement) is false of the code: C82_false. C82_undetected describes the code for all sessions and all programs: the close_notify of the peer changes nothing that a program can see."},
{"property": "C83", "status": "proved", "theorems": ["C83_handshake"], "note": "Sockets that take everything they are given (short sends lose bytes: C55). The bytes of each flight are cut arbitrarily; the blocking of recv is the running out of the answers. Compatible and Library are those of C56: certificates of the server only, no HelloRetryRequest."},
{"property": "C84", "status": "proved", "theorems": ["C84_correspond", "C84_session"], "note": "Sockets that take everything they are given. A read that waits is a call with outcome `fuel`, continued by the next read. Same configurations as C83."},
{"property": "C85", "status": "proved", "theorems": ["Ffdhe.C85_groups"], "note": "All digits of the five primes against the formula of RFC 7919 with the real number e."},
{"property": "C86", "status": "partial", "theorems": ["Ffdhe.C86_false", "Ffdhe.C86_partial"], "note": "The statement is false of the code (witness y = 2 in ffdhe2048). The partial theorem says exactly which values are refused."},
{"property": "C87", "status": "proved", "theorems": ["C87_unbroken", "C87_undivided"], "note": "For the connections and for the wrapped sockets."},
{"property": "C88", "status": "proved", "theorems": ["C88_answered", "C88_hello"], "note": "For any request, and for the one of the example client."},
{"property": "C89", "status": "proved", "theorems": ["C89_code", "C89_total", "C89_binary"], "note": "The four cases of texts, every text is one of them, and bytes that are not text."},
{"property": "C90", "status": "partial", "theorems": ["C90_false", "C90_partial"], "note": "False for the request ff; true exactly of UTF-8 requests."},
{"property": "C91", "status": "proved", "theorems": ["C91_blind", "C91_game", "C91_lengths", "C91_same_lengths", "C91_block"], "note": "From the installation of a write key on (before, C19_false: data may leave in the clear). The secrecy of the AEAD itself is the hypothesis Blind; Env.blindfold turns any cipher into one that meets it. Timing is not modelled."},
{"property": "C92", "status": "partial", "theorems": ["C92_partial", "C92_outage", "C92_false"], "note": "False of the code (C92_false: witness; C92_outage: for all executions with any peer, a server with an OCSP service and no response to be had never presents its chain to a client that asks for stapling). C92_partial: when the responder answers, validly or not, the handshake completes for all compatible configurations and cuts. C56, C77, C80, C81, C83 and C84 now allow OCSP services at both ends (Vouched)."},
{"property": "C93", "status": "proved", "theorems": ["C93_deployed"], "note": "From the configurations the programs make to the page; the handshake record sizes of the library are bounded as in Library and Vouched, request and page fit in one record."},
{"property": "C94", "status": "partial", "theorems": ["C94_partial", "C94_revoked_partial", "C94_false"], "note": "False of the code for the last certificate of the chain (C94_false: revoked certificate sent alone). For all executions, every certificate followed by its issuer has a validated response, stapled or fetched, or names no responder (C94_partial); servers that only present chains with a revoked certificate followed by its issuer are never connected to (C94_revoked_partial)."},
{"property": "C95", "status": "partial", "theorems": ["C95_partial", "C95_missing", "C95_false"], "note": "False of the code for certificates without AIA extension (C95_false: witness; C95_missing: for all executions). C95_partial: true when every certificate but the last has the extension."},
{"property": "C96", "status": "proved", "theorems": ["C96_hit", "C96_vouched"], "note": "Model: Ocsp.Cache.lookup, the sequence of calls of both callers; a history is a list of look-ups on the module-global cache."},
{"property": "C97", "status": "partial", "theorems": ["C97_partial", "C97_false"], "note": "False of the code: C97_false (two certificates, 66 look-ups). C97_partial: holds while responders have given at most 64 valid responses in all. Both assume that the empty string does not parse as an OCSP response."},
{"property": "C98", "status": "partial", "theorems": ["C98_partial", "C98_unasked", "C98_false"], "note": "The size bound is false of the code for a negative Content-Length (C98_false); C98_partial proves it otherwise. C98_unasked is the second half, without restriction."},
{"property": "C99", "status": "proved", "theorems": ["C99_refused"], "note": "For every pair of compatible configurations (hypotheses of C56) and every client limit below 4096 that the configuration accepts. That initiate_connection of the client returns is a hypothesis."}
]}
