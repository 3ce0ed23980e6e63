{"id": "C01", "title": "Reading never goes past the end of the received buffer", "statement": "For every input buffer and every sequence of decode operations, each successful read returns exactly the next bytes of the buffer, the number of consumed bytes never exceeds the buffer length, and a read that does not have enough bytes left fails without consuming anything.", "quantifier": "all buffers, all read lengths, all finite sequences of reads", "why_tests_cant": "unbounded input space and sequences of reads", "anchors": ["codec/src/codec.rs: Reader::{init,take,rest,used,left}"]}
{"id": "C02", "title": "Encoding never writes past the caller's buffer and reports truncation", "statement": "For every destination buffer size and every message, encoding either writes exactly the wire image and returns its length, or returns an error; bytes already in the buffer before the call are never altered, and what is written is always a prefix of the wire image that fits the buffer.", "quantifier": "all buffer capacities, all previously written contents, all messages", "why_tests_cant": "every capacity boundary and every field boundary of every message", "anchors": ["codec/src/codec.rs: Writer::{push,extend_from_slice}", "spdmlib/src/message/*.rs: spdm_encode"]}
{"id": "C03", "title": "Integers round-trip on the wire in little-endian order", "statement": "Every u8, u16, u24, u32 and u64 value is encoded as its little-endian bytes and decodes back to the same value whatever follows it in the buffer; conversely every sufficiently long byte string decodes to a value that re-encodes to the same bytes.", "quantifier": "all integer values and all trailing bytes", "why_tests_cant": "2^64 values and arbitrary trailing data", "anchors": ["codec/src/codec.rs: impl Codec for u8/u16/u24/u32/u64"]}
{"id": "C04", "title": "One-byte codes decode totally and without loss", "statement": "Every byte decodes as an SPDM version / request-response code / error code / other enumerated code, distinct bytes decode to distinct values and re-encoding gives back the same byte, so an unknown code is never mistaken for a known one.", "quantifier": "all bytes, all enumerations used on the wire", "why_tests_cant": "must hold for each code of each enumeration, including reserved ones", "anchors": ["codec/src/macros.rs: enum_builder", "spdmlib/src/protocol/version.rs", "spdmlib/src/message/mod.rs: SpdmRequestResponseCode", "spdmlib/src/message/error.rs: SpdmErrorCode"]}
{"id": "C05", "title": "Every SPDM message has the documented byte layout", "statement": "For every negotiated version and option set, encoding a message produces exactly the header (version, code, param1, param2) and field layout of the SPDM specification for that message, and the returned length is the number of bytes written.", "quantifier": "all messages, field values, negotiated versions, buffer capacities", "why_tests_cant": "infinite field-value space; layout depends on version and options", "anchors": ["spdmlib/src/message/*.rs: spdm_encode", "spdmlib/src/message/mod.rs: SpdmMessage::spdm_encode"]}
{"id": "C06", "title": "Messages survive encode/decode unchanged", "statement": "For every well-formed message, decoding its encoding under the same negotiated parameters returns the same message and leaves precisely the bytes that followed it.", "quantifier": "all well-formed messages of every type, all negotiated parameters, all trailing bytes", "why_tests_cant": "infinite value space", "anchors": ["spdmlib/src/message/*.rs: spdm_encode/spdm_read"]}
{"id": "C07", "title": "Peer-declared lengths are bounded before use", "statement": "A decoded message never carries a peer-declared length (opaque data, PSK hint/context, certificate portion, measurement record, vendor payload, algorithm list, version list) larger than the fixed storage for it, and never more than the bytes that actually arrived; otherwise decoding fails.", "quantifier": "all received byte strings", "why_tests_cant": "adversarial inputs", "anchors": ["spdmlib/src/message/*.rs: spdm_read", "spdmlib/src/common/opaque.rs"]}
{"id": "C08", "title": "Inconsistent requester capability flags are refused", "statement": "A GET_CAPABILITIES request is accepted only when its flags satisfy the consistency rules of the negotiated version (e.g. a session capability implies MAC, MUT_AUTH implies a certificate or public key, sizes: 42 <= DataTransferSize <= MaxSPDMmsgSize for 1.2).", "quantifier": "all received byte strings, all versions", "why_tests_cant": "2^32 flag combinations times versions", "anchors": ["spdmlib/src/message/capability.rs: SpdmGetCapabilitiesRequestPayload::spdm_read"]}
{"id": "C09", "title": "Inconsistent responder capability flags are refused", "statement": "A CAPABILITIES response is accepted only when its flags satisfy the consistency rules of the negotiated version (single measurement capability kind, session capability implies MAC, CERT/PUB_KEY exclusivity, SET_CERT/CSR/ALIAS rules and size rules for 1.2).", "quantifier": "all received byte strings, all versions", "why_tests_cant": "2^32 flag combinations times versions", "anchors": ["spdmlib/src/message/capability.rs: SpdmCapabilitiesResponsePayload::spdm_read"]}
{"id": "C10", "title": "Algorithm negotiation picks one mutually supported algorithm or none", "statement": "For every pair of offered and configured algorithm sets, the selected algorithm is a member of both; it is exactly the first entry of the local priority list that both support; and nothing is selected exactly when there is no common algorithm in the list.", "quantifier": "all pairs of algorithm bit sets, all algorithm families", "why_tests_cant": "2^n x 2^n combinations for each family", "anchors": ["spdmlib/src/protocol/algo.rs: prioritize", "spdmlib/src/responder/algorithm_rsp.rs"]}
{"id": "C11", "title": "Algorithm sizes are only asked of a single selected algorithm", "statement": "Digest, signature, key and IV sizes are defined precisely for the single-algorithm selections; asking the size of an empty or multiple selection aborts. A negotiation outcome that is nonempty therefore always has a size within the fixed buffers.", "quantifier": "all algorithm selections", "why_tests_cant": "must hold for every bit pattern", "anchors": ["spdmlib/src/protocol/algo.rs: get_size"]}
{"id": "C12", "title": "MCTP framing is lossless", "statement": "For every SPDM or secured message that fits, wrapping for MCTP and unwrapping yields the same message and the same secured flag; frames of other message types or too short are rejected; application payload framing likewise.", "quantifier": "all messages and buffer sizes", "why_tests_cant": "arbitrary payloads and lengths", "anchors": ["mctp_transport/src/header.rs: MctpTransportEncap"]}
{"id": "C13", "title": "PCI DOE framing is lossless up to dword padding", "statement": "For every message that fits, wrapping for PCI DOE and unwrapping yields the message followed by at most three padding zero bytes, with the same secured flag; wrong vendor, object type or inconsistent length is rejected.", "quantifier": "all messages and buffer sizes", "why_tests_cant": "arbitrary payloads and lengths", "anchors": ["pcidoe_transport/src/header.rs: PciDoeTransportEncap"]}
{"id": "C14", "title": "A secured message decrypts to what was sent", "statement": "If two endpoints hold the same key, salt, session id and sequence number for a direction, then whatever application bytes one encodes the other decodes to the same bytes, for every transport sequence-number width.", "quantifier": "all payloads, keys, salts, sequence numbers, session ids, buffer sizes", "why_tests_cant": "arbitrary payloads and states", "anchors": ["spdmlib/src/common/session.rs: encode_msg, decode_msg"]}
{"id": "C15", "title": "A secured message for another session, sequence number or length is rejected", "statement": "Decoding fails whenever the session id, the carried sequence-number bytes or the length in the record header differ from what the receiving session expects, and decoding only ever releases plaintext accepted by the AEAD under the key, the nonce for the current sequence number and the record header as associated data.", "quantifier": "all byte strings, all session states", "why_tests_cant": "adversarial inputs", "anchors": ["spdmlib/src/common/session.rs: decode_msg"]}
{"id": "C16", "title": "Sequence numbers advance and nonces never repeat under one key", "statement": "Across any history of messages sent in one direction between key changes, every message uses a fresh nonce, until the counter is exhausted; encoding is refused once the counter reaches its maximum.", "quantifier": "all histories of sends of any length", "why_tests_cant": "unbounded histories (2^64)", "anchors": ["spdmlib/src/common/session.rs: encode_spdm_secured_message"]}
{"id": "C17", "title": "Replayed and reordered secured messages are rejected", "statement": "A secured message accepted once is not accepted again later in the same direction under the same key, and messages are only accepted in the order they were produced.", "quantifier": "all histories", "why_tests_cant": "unbounded histories", "anchors": ["spdmlib/src/common/session.rs: decode_spdm_secured_message"]}
{"id": "C18", "title": "Key update keeps both peers in step and can be rolled back", "statement": "After a key update both ends hold the same new traffic keys with sequence number zero in the updated direction and unchanged keys in the other; discarding the update restores the previous key and sequence number exactly.", "quantifier": "all session states and update operations, any number of updates", "why_tests_cant": "unbounded sequences of updates", "anchors": ["spdmlib/src/common/session.rs: create_data_secret_update, activate_data_secret_update", "spdmlib/src/responder/key_update_rsp.rs", "spdmlib/src/requester/key_update_req.rs"]}
{"id": "C19", "title": "Key-derivation inputs are unambiguous", "statement": "The context string fed to each key derivation is the two-byte length, the 8-byte version prefix, the label and the hash; different purposes (labels), output lengths or transcripts give different derivation inputs; and it fails instead of truncating when it does not fit.", "quantifier": "all labels, lengths, contexts, versions", "why_tests_cant": "arbitrary contexts", "anchors": ["spdmlib/src/common/key_schedule.rs: binconcat and derive_*"]}
{"id": "C20", "title": "Both peers derive the same secrets with opposite directions", "statement": "Given the same shared secret and transcript hash, requester and responder derive identical handshake and data secrets; what one uses to send is what the other uses to receive; request- and response-direction derivation inputs differ.", "quantifier": "all secrets, transcripts, algorithms", "why_tests_cant": "arbitrary secrets", "anchors": ["spdmlib/src/common/session.rs: generate_handshake_secret, generate_data_secret"]}
{"id": "C21", "title": "Session table: at most the configured number of sessions, with unique ids", "statement": "In every reachable state of the session table all live sessions have distinct nonzero ids, a lookup returns the session with that id, and once all slots are in use a new session is refused and existing ones are untouched.", "quantifier": "all histories of session setup and teardown", "why_tests_cant": "unbounded histories", "anchors": ["spdmlib/src/common/mod.rs: get_session_via_id, get_next_avaiable_session, get_next_half_session_id", "spdmlib/src/common/session.rs: setup, teardown"]}
{"id": "C22", "title": "Ending a session erases it", "statement": "After a session ends its id is no longer found, its keys and transcript are back at the initial values and its slot is reusable; other sessions are unaffected.", "quantifier": "all session table states", "why_tests_cant": "all states", "anchors": ["spdmlib/src/common/session.rs: teardown, set_default"]}
{"id": "C23", "title": "Transcript hashes cover exactly the exchanged messages", "statement": "For every history of a connection the challenge, measurement and session transcripts are exactly the concatenation of the messages the SPDM specification prescribes, in order, since the last reset; a buffer overflow is reported and not silently truncated.", "quantifier": "all message contents and histories", "why_tests_cant": "unbounded histories", "anchors": ["spdmlib/src/common/mod.rs: append_message_*, reset_message_*, reset_buffer_via_request_code"]}
{"id": "C24", "title": "The responder enforces message order before a session", "statement": "A responder answers GET_CAPABILITIES, NEGOTIATE_ALGORITHMS, GET_DIGESTS/GET_CERTIFICATE/CHALLENGE/MEASUREMENTS/KEY_EXCHANGE positively only after the preceding negotiation step completed; otherwise its negotiation state is unchanged and it sends an UnexpectedRequest error (for KEY_EXCHANGE and PSK_EXCHANGE: nothing).", "quantifier": "all byte strings received in all reachable responder states", "why_tests_cant": "unbounded histories, adversarial input", "anchors": ["spdmlib/src/responder/*.rs", "spdmlib/src/responder/context.rs: dispatch_message"]}
{"id": "C25", "title": "GET_VERSION restarts negotiation from a clean state", "statement": "Whatever happened before, a successfully answered GET_VERSION leaves the responder with no sessions, default negotiated parameters and a transcript consisting of just that exchange.", "quantifier": "all prior histories", "why_tests_cant": "unbounded histories", "anchors": ["spdmlib/src/responder/version_rsp.rs", "spdmlib/src/common/mod.rs: reset_context"]}
{"id": "C26", "title": "No session is established without a verified FINISH", "statement": "On the responder a session enters the application phase only as a result of a FINISH or PSK_FINISH received in that session's handshake phase whose HMAC over the transcript verified under that session's finished key (PSK without responder context: only by a successful PSK exchange).", "quantifier": "all byte strings in all reachable responder states", "why_tests_cant": "adversarial histories", "anchors": ["spdmlib/src/responder/finish_rsp.rs", "spdmlib/src/responder/psk_finish_rsp.rs", "spdmlib/src/responder/context.rs: send_secured_message"]}
{"id": "C27", "title": "Each session phase only accepts its own requests", "statement": "In the handshake phase only FINISH / PSK_FINISH (and vendor requests) are processed and in the application phase only GET_DIGESTS, GET_CERTIFICATE, GET_MEASUREMENTS, HEARTBEAT, KEY_UPDATE, END_SESSION and vendor requests; any other request is answered with an error and changes no session.", "quantifier": "all requests, all session states", "why_tests_cant": "adversarial histories", "anchors": ["spdmlib/src/responder/context.rs: dispatch_secured_message"]}
{"id": "C28", "title": "Messages protected by one session cannot act on another", "statement": "A secured message received for one session changes at most that session; all other sessions keep their state, keys and sequence numbers.", "quantifier": "all byte strings, all responder states", "why_tests_cant": "adversarial histories", "anchors": ["spdmlib/src/responder/context.rs: process_message"]}
{"id": "C29", "title": "A failed handshake does not consume a session slot forever", "statement": "If a KEY_EXCHANGE or PSK_EXCHANGE does not complete, the session slot it took is available again.", "quantifier": "all failure points", "why_tests_cant": "every failure point must be considered", "anchors": ["spdmlib/src/responder/key_exchange_rsp.rs", "spdmlib/src/responder/psk_exchange_rsp.rs", "spdmlib/src/requester/key_exchange_req.rs"]}
{"id": "C30", "title": "Certificate chains transfer completely and correctly", "statement": "Reading a certificate chain in portions, whatever lengths are requested, yields exactly the provisioned chain; each response carries min(requested, available, limit) bytes at the requested offset, with the right remainder; an offset past the end is refused.", "quantifier": "all chains, offsets, lengths, portion schedules", "why_tests_cant": "unbounded schedules of portions", "anchors": ["spdmlib/src/responder/certificate_rsp.rs", "spdmlib/src/requester/get_certificate_req.rs"]}
{"id": "C31", "title": "The requester only keeps a verified certificate chain", "statement": "The requester stores a peer chain for a slot only after length, chain integrity, root hash and (if provisioned) root certificate checks passed; on any failure the previously stored chain for every slot is unchanged.", "quantifier": "all responses", "why_tests_cant": "adversarial responder", "anchors": ["spdmlib/src/requester/get_certificate_req.rs: send_receive_spdm_certificate, verify_spdm_certificate_chain"]}
{"id": "C32", "title": "Version selection uses a common version", "statement": "The requester selects the highest version that the responder offered and that it supports itself, and fails when there is none.", "quantifier": "all VERSION responses and configurations", "why_tests_cant": "adversarial responder", "anchors": ["spdmlib/src/requester/get_version_req.rs: handle_spdm_version_response"]}
{"id": "C33", "title": "The requester accepts only algorithms it offered", "statement": "After a successful algorithm negotiation every algorithm the requester will use is one it offered, exactly one per family.", "quantifier": "all ALGORITHMS responses and configurations", "why_tests_cant": "adversarial responder", "anchors": ["spdmlib/src/requester/negotiate_algorithms_req.rs: handle_spdm_algorithm_response"]}
{"id": "C34", "title": "Challenge success means the transcript signature verified", "statement": "send_receive_spdm_challenge succeeds only if the responder's signature verified, under the certificate stored for that slot, over the transcript of exactly the messages exchanged; the transcripts are cleared either way.", "quantifier": "all responses and prior histories", "why_tests_cant": "adversarial responder", "anchors": ["spdmlib/src/requester/challenge_req.rs"]}
{"id": "C35", "title": "Signed measurements are only reported if the signature verified", "statement": "When a signature was requested, measurements are returned only if the signature over the measurement transcript verified; the measurement transcript is then reset.", "quantifier": "all responses and prior histories", "why_tests_cant": "adversarial responder", "anchors": ["spdmlib/src/requester/get_measurements_req.rs"]}
{"id": "C36", "title": "Key exchange succeeds only with a verified signature and HMAC", "statement": "A key exchange returns a session id only if the signature over the session transcript verified under the slot's certificate, and (unless the handshake is in the clear) the responder's HMAC verified; the session is then in the handshake phase.", "quantifier": "all responses and prior histories", "why_tests_cant": "adversarial responder", "anchors": ["spdmlib/src/requester/key_exchange_req.rs"]}
{"id": "C37", "title": "An error response never counts as success", "statement": "For every request, an ERROR response (or a response with another code, a wrong version or a malformed body) makes the request fail with the documented status; a DecryptError tears the session down.", "quantifier": "all responses to all requests", "why_tests_cant": "adversarial responder", "anchors": ["spdmlib/src/requester/handle_error_response_req.rs", "spdmlib/src/requester/*_req.rs"]}
{"id": "C38", "title": "A failed FINISH leaves no session on the requester", "statement": "If finishing a session fails at any point the requester removes the session; if it succeeds the session is in the application phase with data keys derived from the full transcript.", "quantifier": "all failure points and responses", "why_tests_cant": "every failure point", "anchors": ["spdmlib/src/requester/finish_req.rs", "spdmlib/src/requester/psk_finish_req.rs"]}
{"id": "C39", "title": "Responder errors are well formed and state-neutral", "statement": "Every error response is the 4-byte (plus extended data) ERROR message with the negotiated version, code and data, and sending it does not change the connection or session state.", "quantifier": "all error paths", "why_tests_cant": "every error path", "anchors": ["spdmlib/src/responder/error_rsp.rs", "spdmlib/src/responder/context.rs"]}
{"id": "C40", "title": "Signing contexts separate purposes", "statement": "For SPDM 1.2 the data signed for CHALLENGE_AUTH, MEASUREMENTS, KEY_EXCHANGE_RSP and FINISH is a 100-byte version/purpose prefix followed by the transcript hash; prefixes for different purposes differ, so a signature for one purpose never verifies data for another.", "quantifier": "all transcript hashes", "why_tests_cant": "arbitrary hashes", "anchors": ["spdmlib/src/protocol/algo.rs: SPDM_*_SIGN_CONTEXT, SPDM_VERSION_1_2_SIGNING_PREFIX_CONTEXT"]}
{"id": "C41", "title": "Two endpoints that talk to each other agree", "statement": "When a requester's init_connection succeeds against this implementation's responder over a transport that delivers what is sent (padding allowed), both sides hold the same negotiated version, capabilities, sizes and algorithms and the same negotiation transcript. As long as the operations that follow succeed, in any order, they also hold the same open sessions, with the same identifiers, phases, secrets, keys and sequence numbers, so that each opens what the other seals; and the certificate chain the requester obtained is the one the responder serves.", "quantifier": "all pairs of configurations, all environments (randomness, devices, cryptography), all sequences of successful operations", "why_tests_cant": "all pairs of configurations and histories", "anchors": ["spdmlib/src/requester/context.rs: init_connection", "spdmlib/src/requester", "spdmlib/src/responder"]}
{"id": "C42", "title": "Opaque data version selection parses what the peer sends", "statement": "The secured-message version list a requester places in its exchange request is recovered by the responder, and the version selection a responder sends is recovered by the requester.", "quantifier": "all negotiated versions and opaque formats", "why_tests_cant": "all versions and formats", "anchors": ["spdmlib/src/common/opaque.rs"]}
{"id": "C43", "title": "TDISP interface state follows the lock/start/stop protocol", "statement": "In every history of TDISP requests the interface reaches RUN only by LOCK followed by START, leaves RUN only by STOP or an error, and confidential data is erased whenever it returns to unlocked or enters the error state.", "quantifier": "all histories of requests and device failures", "why_tests_cant": "unbounded histories", "anchors": ["tdisp/src/state_machine.rs", "tdisp/src/tdisp_responder/*.rs"]}
{"id": "C44", "title": "Certificate chain parsing stays in bounds and walks consecutive certificates", "statement": "For every byte string, the DER length parsing never reads out of bounds, a reported certificate lies within the chain, and certificates of consecutive indices are adjacent.", "quantifier": "all byte strings", "why_tests_cant": "adversarial certificates", "anchors": ["spdmlib/src/crypto/x509v3.rs", "spdmlib/src/crypto/spdm_ring/cert_operation_impl.rs"]}
{"id": "C45", "title": "Secrets are wiped", "statement": "When a session is torn down all of its secrets are overwritten with their initial value.", "quantifier": "all session states", "why_tests_cant": "all states", "anchors": ["spdmlib/src/common/session.rs: set_default"]}
{"id": "C46", "title": "Application data is only exchanged in established sessions", "statement": "The responder hands received data to the application only if it arrived as application data of a session in its application phase; for any other packet the application is not involved.", "quantifier": "all packets, all responder states, all applications", "why_tests_cant": "adversarial histories; every application", "anchors": ["spdmlib/src/responder/context.rs: process_message, dispatch_secured_app_message"]}
{"id": "C47", "title": "The responder selects and announces algorithms consistently", "statement": "Whatever NEGOTIATE_ALGORITHMS arrives in whatever state, the responder answers with an ERROR, or with the ALGORITHMS message announcing, for each family, the first algorithm of its priority list that was offered and is configured (or none); exactly the announced selection is what it uses from then on.", "quantifier": "all requests, all responder states, all configurations", "why_tests_cant": "every combination of offer, configuration and earlier history", "anchors": ["spdmlib/src/responder/algorithm_rsp.rs: write_spdm_algorithm"]}
{"id": "C48", "title": "The responder records and announces capabilities consistently", "statement": "Whatever GET_CAPABILITIES arrives in whatever state, the responder answers with an ERROR, or with the CAPABILITIES message announcing its configured capabilities; it then has recorded exactly the requester's announced capabilities and its own, under the version of the request, which must be one it offered.", "quantifier": "all requests, all responder states, all configurations", "why_tests_cant": "every request and history", "anchors": ["spdmlib/src/responder/capability_rsp.rs: write_spdm_capability_response"]}
{"id": "C54", "title": "The certificate chain served is the provisioned one", "statement": "In every history the chain served for a slot is: its total size, two zero bytes, the hash of the provisioned root certificate under the negotiated hash algorithm, and the provisioned certificates; every provisioned slot is served once algorithms are negotiated, and no packet changes the provisioned data.", "quantifier": "all packet histories, all provisioned chains", "why_tests_cant": "unbounded histories including renegotiation", "anchors": ["spdmlib/src/common/mod.rs: construct_my_cert_chain", "spdmlib/src/responder/algorithm_rsp.rs"]}
{"id": "C52", "title": "Key exchange answers are authenticated and bind the session to the transcript", "statement": "Whenever the responder answers a KEY_EXCHANGE or PSK_EXCHANGE with other than ERROR, the answer carries the signature (KEY_EXCHANGE) and HMAC over exactly the messages that precede it, the session opened holds the keys the key schedule derives from the shared or pre-shared secret and that transcript, and it is in the handshake phase (for PSK without responder context: established).", "quantifier": "all requests, all reachable responder states, all cryptographic libraries", "why_tests_cant": "every request and history; placement of every byte of the transcript", "anchors": ["spdmlib/src/responder/key_exchange_rsp.rs", "spdmlib/src/responder/psk_exchange_rsp.rs"]}
{"id": "C56", "title": "ECDSA signatures reach the verifier as the same pair of integers", "statement": "Every raw ECDSA signature of the negotiated size is converted, without panic, to the DER encoding of exactly its two integers r and s in shortest form; a signature with r or s zero is converted to an empty string; two signatures with the same encoding denote the same r and s.", "quantifier": "all 64- and 96-byte signatures", "why_tests_cant": "every pair of integers, including leading zeroes and top bits", "anchors": ["spdmlib/src/crypto/spdm_ring/asym_verify_impl.rs: ecc_signature_bin_to_der"]}
{"id": "C53", "title": "KEY_UPDATE at the responder changes exactly the keys the operation names", "statement": "In an established session UpdateKey replaces the request-direction keys by the next ones, UpdateAllKeys those of both directions, VerifyNewKey none; new keys start at sequence number zero, the saved old request secret is erased by UpdateAllKeys and VerifyNewKey, the answer is KEY_UPDATE_ACK with the same operation and tag sealed with the response keys now in force, and any other operation is answered by ERROR with all keys unchanged.", "quantifier": "all session states, operations, tags and cryptographic primitives", "why_tests_cant": "arbitrary keys and cryptographic primitives", "anchors": ["spdmlib/src/responder/key_update_rsp.rs: write_spdm_key_update_response", "spdmlib/src/common/session.rs: create_data_secret_update, activate_data_secret_update"]}
{"id": "C57", "title": "Messages fit the other side's declared data transfer size", "statement": "Whatever packet the responder receives, and however its processing ends, every packet it sends carries a message no larger than the data transfer size the requester declared in GET_CAPABILITIES; a larger response is replaced by ERROR ResponseTooLarge, the connection and its sessions staying as they are; at most one packet answers a request. Every request the requester sends is no larger than the size the responder declared in CAPABILITIES; an operation whose request does not fit fails without sending.", "quantifier": "all packets, states, histories and operations", "why_tests_cant": "arbitrary packets, certificate chains, measurements and histories", "anchors": ["spdmlib/src/responder/context.rs: send_message, send_secured_message", "spdmlib/src/requester/context.rs: send_message, send_secured_message", "spdmlib/src/responder/capability_rsp.rs", "spdmlib/src/requester/vendor_req.rs"]}
{"id": "C49", "title": "DIGESTS announces exactly the chains that are served", "statement": "Whatever GET_DIGESTS arrives in whatever state, the responder answers with an ERROR, or with the DIGESTS message whose slot mask names exactly the provisioned slots and which lists, in slot order, the hash of the chain served for each of them.", "quantifier": "all requests, all responder states, all provisioned chains", "why_tests_cant": "arbitrary chains, slots and hash functions", "anchors": ["spdmlib/src/responder/digest_rsp.rs: write_spdm_digest_response"]}
{"id": "C50", "title": "CHALLENGE_AUTH proves possession of the key of the chain asked for", "statement": "Whatever CHALLENGE arrives in whatever state, the responder answers with an ERROR, or with one CHALLENGE_AUTH carrying the slot asked for, the mask of the provisioned slots, the hash of the chain served for that slot, a fresh nonce, the measurement summary asked for and the signature over M1/M2 of everything before the signature; a refused request does not authenticate the connection.", "quantifier": "all requests, all responder states, all devices and crypto libraries", "why_tests_cant": "arbitrary requests, chains, histories, failing signatures", "anchors": ["spdmlib/src/responder/challenge_rsp.rs: write_spdm_challenge_response"]}
{"id": "C51", "title": "MEASUREMENTS reports what the device measured", "statement": "Whatever GET_MEASUREMENTS arrives in whatever state, the responder answers with an ERROR, or with one MEASUREMENTS message carrying exactly what the device reports for the operation asked for (the total number of measurements, all of them, or the one with the index), a fresh nonce, whether the content changed, and, if asked for, the signature over L1/L2.", "quantifier": "all requests, all responder states, all devices and crypto libraries", "why_tests_cant": "arbitrary requests, measurement collections, histories, failing signatures", "anchors": ["spdmlib/src/responder/measurement_rsp.rs: write_spdm_measurement_response", "spdmlib/src/message/measurement.rs: SpdmMeasurementsResponsePayload"]}
{"id": "C58", "title": "Old answers are not accepted again", "statement": "Every request and answer that is to be fresh (CHALLENGE, signed GET_MEASUREMENTS, KEY_EXCHANGE, PSK_EXCHANGE and their answers) contains bytes drawn from the random generator for that very message. If those bytes differ, two answers of a responder differ, and a requester does not accept the same answer for two requests, whatever happened before or between, unless two hash inputs collide or one signature (HMAC) verifies for two messages.", "quantifier": "all pairs of operations in all histories, all cryptographic libraries", "why_tests_cant": "every pair of histories and every replayed message; a negative over all adversaries", "anchors": ["spdmlib/src/requester/challenge_req.rs", "spdmlib/src/requester/get_measurements_req.rs", "spdmlib/src/requester/key_exchange_req.rs", "spdmlib/src/requester/psk_exchange_req.rs", "spdmlib/src/responder/psk_exchange_rsp.rs: write_spdm_psk_exchange_response"]}
{"id": "C59", "title": "Attestation inside a session", "statement": "Inside an established session GET_DIGESTS, GET_CERTIFICATE and GET_MEASUREMENTS are answered, sealed for that session, by what they are answered by outside. A signed GET_MEASUREMENTS is signed over exactly: the negotiation messages (from SPDM 1.2 on), the unsigned GET_MEASUREMENTS exchanges of this session since the last signed one or the last other request in it, the request, and the answer up to the signature; what happens in other sessions or outside does not enter it, and a new session starts with nothing.", "quantifier": "all histories inside and around a session, all requests, devices and cryptographic libraries", "why_tests_cant": "arbitrary interleavings of sessions and packets", "anchors": ["spdmlib/src/responder/measurement_rsp.rs", "spdmlib/src/responder/digest_rsp.rs", "spdmlib/src/responder/certificate_rsp.rs", "spdmlib/src/common/mod.rs: append_message_m, reset_buffer_via_request_code"]}
{"id": "C60", "title": "Vendor-defined messages", "statement": "A vendor-defined request reaches the vendor's handler with exactly its length and data, outside and inside sessions (in either phase); the answer names the registry and vendor of the request and carries exactly what the handler returned, and nothing else changes. A well-formed request whose answer fits is answered. A requester that sends one gets the data of the response, in the session it names, and keeps its connection.", "quantifier": "all requests, vendor ids, handlers, states and sessions", "why_tests_cant": "arbitrary payloads, handlers and states", "anchors": ["spdmlib/src/responder/vendor_rsp.rs: write_spdm_vendor_defined_response", "spdmlib/src/requester/vendor_req.rs: send_spdm_vendor_defined_request", "spdmlib/src/message/vendor.rs"]}
{"id": "C55", "title": "Fetching a certificate chain ends", "statement": "A requester fetching a certificate chain makes a bounded number of requests whatever the peer answers: every accepted response brings it forward, fewer than 4096 responses with a non-empty portion are accepted, and from a responder of this library holding a chain of n bytes it asks max(1, ceil(n/512)) times.", "quantifier": "all peers, chains, slots, histories and numbers of exchanges", "why_tests_cant": "the loop's length is decided by the peer; a test runs one peer for finitely many steps", "anchors": ["spdmlib/src/requester/get_certificate_req.rs: send_receive_spdm_certificate, send_receive_spdm_certificate_partial, handle_spdm_certificate_partial_response", "spdmlib/src/responder/certificate_rsp.rs: write_spdm_certificate_response"]}
{"id": "C61", "title": "Key update at the requester", "statement": "A key update that succeeds at the requester sends the operation sealed with the old keys and VerifyNewKey sealed with the new request key, accepts only an acknowledgement that opens with the updated keys, and advances exactly the directions asked for by one step of the key schedule with sequence numbers counted from zero. Other operations are refused before anything is sent. When the update does not succeed the session goes on with the old keys, and only the acknowledgement of this very request counts.", "quantifier": "all sessions, operations, tags, responses and cryptographic providers", "why_tests_cant": "depends on the order of sending, deriving and receiving, for every response", "anchors": ["spdmlib/src/requester/key_update_req.rs: send_receive_spdm_key_update_op, handle_spdm_key_update_op_response, send_receive_spdm_key_update", "spdmlib/src/common/session.rs: create_data_secret_update, activate_data_secret_update"]}
{"id": "C62", "title": "Reading the real-time clock", "statement": "The time used for certificate validity is the time the CMOS clock shows: a reading of registers showing a moment says that moment, in binary and BCD and in the 12- and 24-hour formats, and a clock that ticks while it is read is never read as a mixture of two moments.", "quantifier": "all moments, register contents, formats, and all interleavings of ticks and register accesses", "why_tests_cant": "a torn read depends on where the tick falls among 13 register accesses; formats depend on the machine", "anchors": ["sys_time/src/rtc.rs: read_rtc, read_date_time, read_hour_register, read_datetime_register, bcd_to_binary"]}
{"id": "C63", "title": "Incremental hashing", "statement": "A hash context fed any pieces and finished gives the digest of the pieces joined, a copied context continues from what the original had been fed, and neither is disturbed by other contexts, whatever other threads do between; a finished or default context is refused.", "quantifier": "all schedules of any number of threads, all addresses the allocator may choose, all pieces and hashes", "why_tests_cant": "the contexts live in one shared table indexed by heap address; interference depends on interleaving and address reuse", "anchors": ["spdmlib/src/crypto/spdm_ring/hash_impl.rs: hash_ctx_init, hash_ctx_update, hash_ctx_dup, hash_ctx_finalize, insert_to_table", "spdmlib/src/crypto/mod.rs: hash::SpdmHashCtx"]}
{"id": "C64", "title": "Authenticated encryption", "statement": "The default encryption callback seals with exactly the given cipher, key, initialisation vector and associated data and returns ciphertext and tag; decryption gives out a plaintext only if it was authenticated, and inverts encryption; arguments of a wrong size are refused without a panic.", "quantifier": "all ciphers, keys, vectors, data, buffer sizes", "why_tests_cant": "sizes and contents are unbounded", "anchors": ["spdmlib/src/crypto/spdm_ring/aead_impl.rs: encrypt, decrypt, make_key"]}
{"id": "C65", "title": "Hash, HMAC and HKDF callbacks", "statement": "For SHA-256, SHA-384 and SHA-512 the default callbacks compute the digest, the HMAC and HKDF-Extract and HKDF-Expand of RFC 5869 with that hash, accept a MAC exactly when it is the HMAC of the data under the key, give results of the right size, and do not panic.", "quantifier": "all keys, data, labels, lengths and the three hashes", "why_tests_cant": "unbounded inputs", "anchors": ["spdmlib/src/crypto/spdm_ring/hash_impl.rs: hash_all", "spdmlib/src/crypto/spdm_ring/hmac_impl.rs: hmac, hmac_verify", "spdmlib/src/crypto/spdm_ring/hkdf_impl.rs: hkdf_extract, hkdf_expand"]}
{"id": "C66", "title": "Filling a buffer with random bytes", "statement": "A successful request for random bytes replaces every byte of the buffer, whatever its length, by fresh generator output used once and in order; if the generator fails the request fails; it never panics.", "quantifier": "all buffer lengths and contents and all generators", "why_tests_cant": "the loop works in blocks of 64 bytes; boundary errors show at particular lengths", "anchors": ["spdmlib/src/crypto/spdm_ring/rand_impl.rs: get_random"]}
{"id": "C67", "title": "Signatures are verified with the key that path validation accepted", "statement": "Path validation succeeds exactly when the chain is an anchor, intermediate certificates and an end entity that the X.509 library validates at the current time. A signature is accepted exactly when it has the size of the negotiated algorithm, the chain has the required form, and the X.509 library verifies the signature, in the scheme negotiated (ECDSA in DER), with the key of the chain's last certificate; and that certificate is the end entity path validation accepted.", "quantifier": "every byte string as chain, data and signature, every pair of algorithms, every behaviour of the X.509 library, overflow-checking and release builds", "why_tests_cant": "The two parsers that find the end entity agree on every chain a test contains; the chains on which they differ are adversarial.", "anchors": ["spdmlib/src/crypto/spdm_ring/cert_operation_impl.rs: verify_cert_chain, get_cert_from_cert_chain", "spdmlib/src/crypto/spdm_ring/asym_verify_impl.rs: asym_verify", "spdmlib/src/requester/get_certificate_req.rs: verify_spdm_certificate_chain"]}
{"id": "C68", "title": "Exactly which configurations connect", "statement": "Over a link that loses nothing, `init_connection` of a requester that has not negotiated before succeeds and selects version v exactly when the two configurations are compatible in v: v is the highest version both are configured for, each side's capability flags are consistent, from 1.2 the data transfer sizes hold the 52 bytes of ALGORITHMS and the 48 of NEGOTIATE_ALGORITHMS, and there is a common algorithm for everything the capabilities call for. In particular there is no fallback to a lower version.", "quantifier": "all pairs of configurations with defined bits, all versions, all earlier histories of either side, all provisioned chains with a first certificate, both transports", "why_tests_cant": "the space of configuration pairs (versions, 32-bit capabilities, six algorithm masks, sizes on both sides) cannot be enumerated, and interoperability tests only sample it", "anchors": ["spdmlib/src/requester/context.rs init_connection", "spdmlib/src/requester/get_version_req.rs", "spdmlib/src/requester/get_capabilities_req.rs", "spdmlib/src/requester/negotiate_algorithms_req.rs", "spdmlib/src/responder/version_rsp.rs", "spdmlib/src/responder/capability_rsp.rs", "spdmlib/src/responder/algorithm_rsp.rs", "spdmlib/src/message/algorithm.rs", "spdmlib/src/message/capability.rs"]}
{"id": "C69", "title": "Encapsulated messages on the wire", "statement": "GET_ENCAPSULATED_REQUEST, ENCAPSULATED_REQUEST, DELIVER_ENCAPSULATED_RESPONSE and ENCAPSULATED_RESPONSE_ACK are written as their published byte layout (the acknowledgement with the 1.2 fields only from 1.2, with a slot byte exactly when a slot is asked for), encoding stops at the end of the buffer, decoding gives the message back and leaves what follows, and no bytes make a decoder panic or read past the end.", "quantifier": "all field values, version bytes, buffer capacities and input buffers", "why_tests_cant": "round trip and totality are claims about every message and every byte string", "anchors": ["spdmlib/src/message/encapsulated.rs"]}
{"id": "C70", "title": "What a requester answers to encapsulated requests", "statement": "Asked through the encapsulated flow, a requester answers GET_DIGESTS with the hash of its own chain in slot 0 (when it is the only one), GET_CERTIFICATE with exactly the requested portion of that chain and the number of bytes that remain, and everything else, any other slot included, with ERROR; the answer carries the number of the request, fits, and there always is one.", "quantifier": "all requesters' contexts, all request bytes, all request numbers", "why_tests_cant": "the responder is untrusted: any bytes may arrive inside ENCAPSULATED_REQUEST", "anchors": ["spdmlib/src/requester/encap_digest.rs", "spdmlib/src/requester/encap_certificate.rs", "spdmlib/src/requester/encap_error.rs", "spdmlib/src/requester/mutual_authenticate.rs"]}
{"id": "C71", "title": "Mutual authentication on the requester's side", "statement": "Between KEY_EXCHANGE and FINISH the requester takes part in the encapsulated flow only with version 1.1, ENCAP_CAP of both sides; whatever the responder sends, the exchange changes nothing but the record counters of this session and the slot number used for FINISH, and every record it sends holds GET_ENCAPSULATED_REQUEST or a DELIVER_ENCAPSULATED_RESPONSE as in C70; it succeeds only on an acknowledgement that says the flow is over or names one of the requester's slots.", "quantifier": "all responders (any received bytes), all mut_auth attributes, any number of rounds, all sessions and contexts", "why_tests_cant": "the responder decides what comes and for how long; only an invariant over the loop covers it", "anchors": ["spdmlib/src/requester/mutual_authenticate.rs", "spdmlib/src/requester/context.rs start_session"]}
{"id": "C72", "title": "A responder holds a requester's certificate chain only if it was delivered through a handshake session and validated", "statement": "In the build with mutual authentication, whatever packets arrive: a certificate chain the responder holds for its peer is in slot 0, is shorter than 4096 bytes, is the concatenation, in order, of portions delivered to it in DELIVER_ENCAPSULATED_RESPONSE messages inside sessions in the handshake phase, and passed path validation, the length field check, the root digest check and (when a root is provisioned) the provisioned-root check. Encapsulation messages change nothing else: not a session's phase or keys, not the negotiation, not the provisioned data.", "quantifier": "every history of packets, environments and sessions from a responder with no peer chain and no session", "why_tests_cant": "The chain is assembled across many packets interleaved with anything else the peer sends, and from any session; no finite set of dialogues covers the histories.", "anchors": ["spdmlib/src/responder/encap_rsp.rs", "spdmlib/src/responder/encap_get_certificate.rs", "spdmlib/src/responder/encap_get_digest.rs", "spdmlib/src/responder/context.rs"]}
{"id": "C73", "title": "The encapsulated flow is guarded by the negotiated capability, kept per session, and refused cleanly", "statement": "A responder accepts a chain from its peer only if encapsulation was negotiated and the chain matches the digest the peer sent; portions delivered in different sessions are not combined; and a response it cannot use is answered by a well-formed message. (The code violates all three; the theorems exhibit the violations.)", "quantifier": "every history; the third for every response code other than DIGESTS and CERTIFICATE and every body", "why_tests_cant": "The violating histories need sessions, partial deliveries and interleavings no unit test in the project drives.", "anchors": ["spdmlib/src/responder/encap_rsp.rs", "spdmlib/src/responder/encap_get_certificate.rs", "spdmlib/src/responder/encap_get_digest.rs"]}
{"id": "C74", "title": "With mutual authentication a session is established only by a requester that proved a validated identity", "statement": "In a responder built with mutual authentication, a session opened by KEY_EXCHANGE enters its application phase only by a FINISH that carries a signature which verifies under the leaf key of a certificate chain that the requester delivered portion by portion inside sessions, that was validated against the provisioned root, and that the responder holds; the signature covers the session's transcript, the digest of that chain and the start of FINISH. PSK sessions need PSK_FINISH instead.", "quantifier": "every history of packets of any length, every environment whose digests have the announced size, every number of session slots below 0xFFFD, every packet that establishes a session", "why_tests_cant": "The signature is checked against state that earlier packets, possibly in other sessions, have left behind; only an invariant over all histories shows that this state is what was delivered and validated.", "anchors": ["spdmlib/src/responder/finish_rsp.rs: handle_spdm_finish, verify_finish_req_signature", "spdmlib/src/responder/key_exchange_rsp.rs:232-235", "spdmlib/src/responder/encap_get_certificate.rs", "spdmlib/src/responder/context.rs: dispatch_secured_message"]}
{"id": "C75", "title": "No packet aborts the responder", "statement": "Whatever packets a responder has received, in whatever state that left it and whatever packet of at most the receive buffer's size comes next, processing the packet returns (success, error answer or error status): it never panics (no out-of-range slice, no unwrap of an absent value, no unreachable code). This relies only on the integrator's callbacks keeping their contract.", "quantifier": "every configuration, provisioned chain set, number of session slots, history of packets (with arbitrary environments), next packet, both transports", "why_tests_cant": "The reachable states and packets are unbounded; a fuzzer or a unit test visits a few, the abort sites depend on combinations of negotiated algorithms, session state and lengths.", "anchors": ["spdmlib/src/responder/context.rs: process_message, dispatch_message, dispatch_secured_message", "spdmlib/src/responder/*_rsp.rs", "spdmlib/src/common/session.rs: encode_msg, decode_msg", "spdmlib/src/common/mod.rs", "spdmlib/src/protocol/algo.rs: get_size", "mctp_transport/src/header.rs", "pcidoe_transport/src/header.rs: decap_app"]}
{"id": "C76", "title": "Nothing a device delivers aborts a connected requester", "statement": "Connecting never aborts the requester, from any state and whatever the device delivers. After a successful connection, any further fetching of digests and certificate chains, challenging and asking for measurements outside sessions, any number of times and with any outcome, never aborts it either, whatever packets of at most the receive buffer's size the device delivers; nor, once sessions are in use, does anything it asks inside them: digests, chains, measurements, heartbeat, key update, application data both ways, ending the session.", "quantifier": "all states to connect from, all histories of such requests inside and outside sessions with all outcomes, all device behaviours and packet contents, slots, attributes and operations, all keys and crypto results", "why_tests_cant": "the panics are reached by slices, array indexes and size look-ups that depend on lengths in hostile packets combined with what an earlier exchange negotiated or stored; sampled packets do not cover the combinations", "anchors": ["spdmlib/src/requester/context.rs", "spdmlib/src/requester/get_version_req.rs", "spdmlib/src/requester/get_capabilities_req.rs", "spdmlib/src/requester/negotiate_algorithms_req.rs", "spdmlib/src/requester/get_digests_req.rs", "spdmlib/src/requester/get_certificate_req.rs", "spdmlib/src/requester/challenge_req.rs", "spdmlib/src/requester/get_measurements_req.rs"]}
