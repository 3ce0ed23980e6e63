{"claims": [
{"property": "C01", "status": "proved", "theorems": ["Verif.Props.C01_reads_in_order_and_in_bounds", "Verif.Props.C01_take_iff", "Verif.Props.C01_model_reader_is_rust_reader", "Verif.Props.C01_good_decoder", "Verif.Props.C01_message_decoders", "Verif.Props.C01_vendor_decoder", "Verif.Props.C01_unnegotiated_decode_panics_violated"], "note": "Reader-level theorems for all operations and lists of reads, lifted to every message decoder. Decoders that ask an un-negotiated algorithm for its size panic instead of failing: C01_unnegotiated_decode_panics_violated."},
{"property": "C02", "status": "proved", "theorems": ["Verif.Props.C02_primitive_encoders", "Verif.Props.C02_composition", "Verif.Props.C02_messages", "Verif.Props.C05_message_layout"], "note": "Primitive encoders, sequencing, and every message payload (C05_message_layout gives exact bytes written or error)."},
{"property": "C03", "status": "proved", "theorems": ["Verif.Props.C03_little_endian", "Verif.Props.C03_round_trip", "Verif.Props.C03_decode_total", "Verif.Props.C03_decode_total_u64"], "note": ""},
{"property": "C04", "status": "proved", "theorems": ["Verif.Props.C04_SpdmVersion", "Verif.Props.C04_SpdmVersion_read", "Verif.Props.C04_ReqRespCode", "Verif.Props.C04_ReqRespCode_read", "Verif.Props.C04_ErrorCode", "Verif.Props.C04_ErrorCode_read", "Verif.Props.C04_StandardId", "Verif.Props.C04_StandardId_read", "Verif.Props.C04_AlgType", "Verif.Props.C04_AlgType_read", "Verif.Props.C04_SummaryHashType", "Verif.Props.C04_SummaryHashType_read", "Verif.Props.C04_DmtfMeasurementType", "Verif.Props.C04_DmtfMeasurementType_read", "Verif.Props.C04_DmtfRepresentation", "Verif.Props.C04_DmtfRepresentation_read", "Verif.Props.C04_KeyUpdateOp", "Verif.Props.C04_KeyUpdateOp_read", "Verif.Props.C04_MeasOperation", "Verif.Props.C04_MeasOperation_read", "Verif.Props.C04_EncapAckPayload", "Verif.Props.C04_EncapAckPayload_read", "Verif.Props.C04_RegistryId", "Verif.Props.C04_RegistryId_read"], "note": ""},
{"property": "C05", "status": "proved", "theorems": ["Verif.Props.C05_message_layout", "Verif.Props.C05_header_first", "Verif.Props.C05_optional_fields_absent", "Verif.Props.C05_general_parameters_lost_violated"], "note": "Layouts are given independently in Verif/Spec/Layout.lean. The empty-parameter placeholder payload drops its parameters: C05_general_parameters_lost_violated (finding F23)."},
{"property": "C06", "status": "proved", "theorems": ["Verif.Props.C06_message_round_trip", "Verif.Props.C06_encode_then_decode", "Verif.Props.C06_vendor_round_trip", "Verif.Props.C06_injective", "Verif.Props.C06_prefix_free"], "note": ""},
{"property": "C07", "status": "partial", "theorems": ["Verif.Props.C07_lengths_bounded", "Verif.Props.C07_vendor_lengths_bounded", "Verif.Props.C07_never_more_than_received", "Verif.Props.C07_declared_lengths_exact", "Verif.Props.C07_certificate_portion_violated", "Verif.Props.C07_vendor_length_violated"], "note": "Every peer-declared length is bounded by its fixed buffer and by the bytes received, except the CERTIFICATE portion length and the vendor payload length, where the property is false of the code: *_violated theorems."},
{"property": "C08", "status": "proved", "theorems": ["Verif.Props.C08_get_capabilities_v12", "Verif.Props.C08_get_capabilities_v11", "Verif.Props.C08_get_capabilities_short"], "note": ""},
{"property": "C09", "status": "proved", "theorems": ["Verif.Props.C09_capabilities_v12", "Verif.Props.C09_capabilities_before_v12", "Verif.Props.C09_capabilities_short"], "note": ""},
{"property": "C10", "status": "proved", "theorems": ["Verif.Props.C10_MeasSpec", "Verif.Props.C10_MeasSpec_common", "Verif.Props.C10_BaseAsym", "Verif.Props.C10_BaseAsym_common", "Verif.Props.C10_BaseHash", "Verif.Props.C10_BaseHash_common", "Verif.Props.C10_Dhe", "Verif.Props.C10_Dhe_common", "Verif.Props.C10_Aead", "Verif.Props.C10_Aead_common", "Verif.Props.C10_ReqAsym", "Verif.Props.C10_ReqAsym_common", "Verif.Props.C10_KeySchedule", "Verif.Props.C10_KeySchedule_common"], "note": ""},
{"property": "C11", "status": "proved", "theorems": ["Verif.Props.C11_MeasHash", "Verif.Props.C11_MeasHash_single", "Verif.Props.C11_MeasHash_bounded", "Verif.Props.C11_MeasHash_validOne", "Verif.Props.C11_BaseAsym", "Verif.Props.C11_BaseAsym_single", "Verif.Props.C11_BaseAsym_bounded", "Verif.Props.C11_BaseAsym_validOne", "Verif.Props.C11_BaseAsym_negotiated", "Verif.Props.C11_BaseHash", "Verif.Props.C11_BaseHash_single", "Verif.Props.C11_BaseHash_bounded", "Verif.Props.C11_BaseHash_validOne", "Verif.Props.C11_BaseHash_negotiated", "Verif.Props.C11_Dhe", "Verif.Props.C11_Dhe_single", "Verif.Props.C11_Dhe_bounded", "Verif.Props.C11_Dhe_validOne", "Verif.Props.C11_Dhe_negotiated", "Verif.Props.C11_Aead_keySize", "Verif.Props.C11_Aead_keySize_single", "Verif.Props.C11_Aead_keySize_bounded", "Verif.Props.C11_Aead_ivSize", "Verif.Props.C11_Aead_ivSize_single", "Verif.Props.C11_Aead_ivSize_bounded", "Verif.Props.C11_Aead_tagSize", "Verif.Props.C11_Aead_tagSize_single", "Verif.Props.C11_Aead_tagSize_bounded", "Verif.Props.C11_Aead_validOne", "Verif.Props.C11_Aead_negotiated", "Verif.Props.C11_ReqAsym", "Verif.Props.C11_ReqAsym_single", "Verif.Props.C11_ReqAsym_bounded", "Verif.Props.C11_ReqAsym_validOne", "Verif.Props.C11_ReqAsym_negotiated", "Verif.Props.C11_violated_sha3_measurement_hash_is_dropped"], "note": "SHA3 measurement hashes are outside the valid mask: C11_violated_sha3_measurement_hash_is_dropped (finding F22)."},
{"property": "C12", "status": "proved", "theorems": ["Verif.Props.C12_encap", "Verif.Props.C12_decap", "Verif.Props.C12_round_trip", "Verif.Props.C12_app_round_trip", "Verif.Props.C12_decap_app"], "note": ""},
{"property": "C13", "status": "partial", "theorems": ["Verif.Props.C13_encap", "Verif.Props.C13_decap", "Verif.Props.C13_round_trip", "Verif.Props.C13_app_round_trip", "Verif.Props.C13_app_too_small_violated", "Verif.Props.C13_oversize_violated"], "note": "Round trip and framing proved for all payloads that fit; undersized and oversized buffers panic or are mishandled (C13_*_violated, finding F21)."},
{"property": "C14", "status": "proved", "theorems": ["Verif.Props.C14_encode", "Verif.Props.C14_round_trip", "Verif.Props.C14_stream", "Verif.Props.C14_not_started"], "note": "For every AEAD with open\u2218seal = id."},
{"property": "C15", "status": "proved", "theorems": ["Verif.Props.C15_accepted_iff", "Verif.Props.C15_other_session", "Verif.Props.C15_other_sequence", "Verif.Props.C15_bad_length", "Verif.Props.C15_effect"], "note": ""},
{"property": "C16", "status": "partial", "theorems": ["Verif.Props.C16_nonces_never_repeat", "Verif.Props.C16_counter_advances", "Verif.Props.C16_exhausted_refused", "Verif.Props.C16_wrap_after_refusal_violated"], "note": "Holds for every history of fewer than 2^64 operations. After the counter is refused at its maximum it wraps, so the next message reuses nonce 0 (C16_wrap_after_refusal_violated, finding F1)."},
{"property": "C17", "status": "partial", "theorems": ["Verif.Props.C17_replay_rejected", "Verif.Props.C17_carried_sequence", "Verif.Props.C17_in_order", "Verif.Props.C17_desync_after_garbage_violated"], "note": "Replay and order proved under an idealised AEAD (NonceBinding) and, without it, up to the carried sequence bytes. A refused record still advances the receiving counter, so injected garbage desynchronises the channel (C17_desync_after_garbage_violated)."},
{"property": "C18", "status": "proved", "theorems": ["Verif.Props.C18_effect", "Verif.Props.C18_rollback", "Verif.Props.C18_commit", "Verif.Props.C18_peers_stay_in_step", "Verif.Props.C18_iterated"], "note": "Effect, rollback of an unacknowledged update, and agreement of both peers."},
{"property": "C19", "status": "proved", "theorems": ["Verif.Props.C19_layout", "Verif.Props.C19_unambiguous", "Verif.Props.C19_directions_differ"], "note": ""},
{"property": "C20", "status": "proved", "theorems": ["Verif.Props.C20_root_secrets", "Verif.Props.C20_handshake_secrets", "Verif.Props.C20_data_secrets", "Verif.Props.C20_peers_agree_handshake", "Verif.Props.C20_peers_agree_data", "Verif.Props.C20_aes128_unusable_violated"], "note": "Both peers derive the same secrets for every shared secret and transcript. For AES-128-GCM a 32-byte key is derived (the constant maximum is requested), which the AEAD refuses: C20_aes128_unusable_violated (finding F25)."},
{"property": "C21", "status": "proved", "theorems": ["Verif.Props.C21_capacity", "Verif.Props.C21_unique", "Verif.Props.C21_nonzero", "Verif.Props.C21_lookup", "Verif.Props.C21_full", "Verif.Props.C21_open_others"], "note": "Every history of packets, for a table of fewer than 65533 slots (the configured table has 4)."},
{"property": "C22", "status": "proved", "theorems": ["Verif.Props.C22_end_session", "Verif.Props.C22_after_end", "Verif.Props.C22_reusable"], "note": "END_SESSION packet in every reachable state; packets for ended sessions have no effect; the slot can be used again."},
{"property": "C23", "status": "partial", "theorems": ["Verif.Props.C23_dialogue_partial", "Verif.Props.C23_challenge_signature", "Verif.Props.C23_measurements_signature", "Verif.Props.C23_key_exchange_signature", "Verif.Props.C23_reset_violated", "Verif.Props.C23_refused_violated", "Verif.Props.C23_overflow_violated"], "note": "Every history of answered requests outside sessions, of any length: message A, M1/M2, L1/L2 and the signed data of CHALLENGE_AUTH, MEASUREMENTS and KEY_EXCHANGE_RSP (session transcripts: C26, C52). M1/M2 is not restarted by GET_MEASUREMENTS, KEY_EXCHANGE after GET_CERTIFICATE (F13), refused requests stay in it (F27) and message A can overflow while ALGORITHMS is still sent (F29): *_violated theorems."},
{"property": "C24", "status": "proved", "theorems": ["Verif.Props.C24_too_early", "Verif.Props.C24_too_early_effect", "Verif.Props.C24_exchange_too_early", "Verif.Props.C24_moves", "Verif.Props.C24_history", "Verif.Props.C24_answer_is_error"], "note": "Every request, every context (no reachability assumption), and every packet history. KEY_EXCHANGE and PSK_EXCHANGE that arrive too early are dropped without any answer (no ERROR is sent): C24_exchange_too_early states that exactly."},
{"property": "C25", "status": "proved", "theorems": ["Verif.Props.C25_restart", "Verif.Props.C25_malformed"], "note": "Slot numbers stored in session slots survive (finding F14); Restarted.erased says exactly what is left."},
{"property": "C26", "status": "partial", "theorems": ["Verif.Props.C26_established_partial", "Verif.Props.C26_application_violated"], "note": "Every packet in every reachable state. False when the application answers data received in the handshake phase with bytes whose second one is 0x65 or 0x67 (finding F2): C26_application_violated."},
{"property": "C27", "status": "proved", "theorems": ["Verif.Props.C27_handshake", "Verif.Props.C27_handshake_in_clear", "Verif.Props.C27_application", "Verif.Props.C27_no_session", "Verif.Props.C27_no_effect", "Verif.Props.C27_packet"], "note": "Requests are refused with UnexpectedRequest / UnsupportedRequest / VersionMismatch; codes that are not requests, and every secured message during a handshake in the clear, are dropped."},
{"property": "C28", "status": "proved", "theorems": ["Verif.Props.C28_isolated", "Verif.Props.C28_history"], "note": ""},
{"property": "C29", "status": "partial", "theorems": ["Verif.Props.C29_key_exchange_partial", "Verif.Props.C29_psk_exchange_partial", "Verif.Props.C29_random_violated", "Verif.Props.C29_signature_violated", "Verif.Props.C29_v11_violated", "Verif.Props.C29_failed_finish_violated"], "note": "Failures found before the slot is taken (and failed secret derivation) take no slot. False for later failures: *_violated theorems (finding F4), on SPDM 1.1 for every KEY_EXCHANGE of the default build."},
{"property": "C30", "status": "proved", "theorems": ["Verif.Props.C30_portion", "Verif.Props.C30_response", "Verif.Props.C30_refused", "Verif.Props.C30_prefix", "Verif.Props.C30_complete", "Verif.Props.C30_remainder"], "note": "Responder and transfer schedule; the requester loop is C31."},
{"property": "C31", "status": "proved", "theorems": ["Verif.Props.C31_stored", "Verif.Props.C31_failure_keeps", "Verif.Props.C31_every_stored_chain"], "note": "Every response sequence and every history. The number of portions asked for is bounded by an explicit fuel argument; whether the loop ends is not claimed here."},
{"property": "C32", "status": "partial", "theorems": ["Verif.Props.C32_selected_partial", "Verif.Props.C32_decided_partial", "Verif.Props.C32_padding_violated"], "note": "Every VERSION response and configuration; complete when the versions offered are 1.0 or later. The version list is padded with 1.0 before it is sorted, so versions below lose to one that was not offered (finding R1): C32_padding_violated."},
{"property": "C33", "status": "partial", "theorems": ["Verif.Props.C33_settled_partial", "Verif.Props.C33_not_offered_violated", "Verif.Props.C33_leftover_violated"], "note": "Every ALGORITHMS response and configuration: a single known algorithm per family, taken from the response. That it was offered is not checked by the code (finding R3): C33_not_offered_violated, C33_leftover_violated."},
{"property": "C34", "status": "partial", "theorems": ["Verif.Props.C34_authentic", "Verif.Props.C34_forged", "Verif.Props.C34_slot_violated"], "note": "Every history after a connection (without reconnecting or vendor requests), every response. The slot named in CHALLENGE_AUTH is not compared with the one asked for: C34_slot_violated."},
{"property": "C35", "status": "proved", "theorems": ["Verif.Props.C35_authentic", "Verif.Props.C35_forged", "Verif.Props.C35_in_session"], "note": "Outside sessions (C35_authentic) and in every session opened on the connection (C35_in_session), for every history after connecting without reconnecting or vendor requests. In a session that outlives a reconnect (C41_reconnect_violated) the signature still has to verify over what the session has recorded; what that is is then not claimed."},
{"property": "C36", "status": "partial", "theorems": ["Verif.Props.C36_authentic", "Verif.Props.C36_psk_authentic", "Verif.Props.C36_leak_violated"], "note": "KEY_EXCHANGE and PSK_EXCHANGE for every history and response. A refused signature leaves the session slot taken: C36_leak_violated (finding R5)."},
{"property": "C37", "status": "partial", "theorems": ["Verif.Props.C37_error", "Verif.Props.C37_decrypt_error", "Verif.Props.C37_refused_partial", "Verif.Props.C37_accepted_partial", "Verif.Props.C37_success_partial", "Verif.Props.C37_connect", "Verif.Props.C37_finish_version_violated"], "note": "Every operation, response and history: ERROR, a short response or another code fails with the stated status, DECRYPT_ERROR in a session frees it, success needs the awaited code. The version of FINISH_RSP is not looked at: C37_finish_version_violated (finding R2). Malformed bodies: C31-C36, C38."},
{"property": "C38", "status": "partial", "theorems": ["Verif.Props.C38_failure", "Verif.Props.C38_psk_failure", "Verif.Props.C38_established_plain", "Verif.Props.C38_psk_established", "Verif.Props.C38_session_plain", "Verif.Props.C38_empty_slot_violated", "Verif.Props.C38_established", "Verif.Props.C38_session", "Verif.Props.C38_session_case", "Verif.Props.C38_unnegotiated_violated"], "note": "Failure for every history, failure point and response; success for every DHE session, with and without mutual authentication (C38_established, C38_session), and for PSK sessions. Deviations of the code: a slot argument without own chain fails before anything is done and keeps the session (C38_empty_slot_violated); a responder that asks for mutual authentication without a negotiated requester signature algorithm is not refused and aborts the requester in FINISH (C38_unnegotiated_violated)."},
{"property": "C39", "status": "partial", "theorems": ["Verif.Props.C39_well_formed", "Verif.Props.C39_exact", "Verif.Props.C39_plain_neutral", "Verif.Props.C39_secured_neutral", "Verif.Props.C39_request_neutral", "Verif.Props.C39_appended_error_violated", "Verif.Props.C39_unsigned_challenge_violated"], "note": "Well-formedness and neutrality of ERROR messages proved for every handler. False when a failure is noticed after the response was written (response and ERROR concatenated in one message) and when signing fails (ERROR, then a response with a placeholder signature): *_violated theorems, findings F8 and F8b."},
{"property": "C40", "status": "proved", "theorems": ["Verif.Props.C40_signed_data", "Verif.Props.C40_only_signed_data", "Verif.Props.C40_never_panics", "Verif.Props.C40_purposes_separate", "Verif.Props.C40_no_cross_use", "Verif.Props.C40_v11_refused_partial"], "note": "SPDM 1.2 contexts. Below 1.2 the default build refuses to sign: C40_v11_refused_partial."},
{"property": "C41", "status": "partial", "theorems": ["Verif.Props.C41_history", "Verif.Props.C41_messages", "Verif.Props.C41_key_exchange", "Verif.Props.C41_psk_exchange", "Verif.Props.C41_finish", "Verif.Props.C41_end_session", "Verif.Props.C41_certificate", "Verif.Props.C41_certificate_in_session", "Verif.Props.C41_measurements_in_session", "Verif.Props.C41_application", "Verif.Props.C41_application_doe_violated", "Verif.Props.C41_reconnect_violated", "Verif.Props.C41_refused_violated", "Verif.Props.C41_connect", "Verif.Props.C41_mctp", "Verif.Props.C41_pcidoe"], "note": "Connection (any earlier histories), then any sequence of successful operations outside and inside sessions: both ends hold the same state, session by session and key by key, over MCTP, PCI DOE or any transport that delivers what is sent. Inside a session digests, certificates, measurements and (on transports that mark it, i.e. MCTP) application data are covered as well. It fails for application data over PCI DOE, which is taken for SPDM messages (C41_application_doe_violated), and for connecting anew, which drops the sessions of the responder only (C41_reconnect_violated, R12), and after a refused GET_MEASUREMENTS, whose bytes only the responder keeps (C41_refused_violated). Vendor defined requests are excluded: the requester forgets the connection with them (C60). HANDSHAKE_IN_THE_CLEAR is excluded (it does not work: C52_in_clear_violated). In SPDM 1.0 the request carries no flags, so the responder has none for the requester (finding F33, in the statement of Agree)."},
{"property": "C42", "status": "partial", "theorems": ["Verif.Props.C42_list_recovered", "Verif.Props.C42_requester_list", "Verif.Props.C42_selection_recovered", "Verif.Props.C42_agreement", "Verif.Props.C42_never_panics", "Verif.Props.C42_v11_list_ignored_violated", "Verif.Props.C42_v11_selection_ignored_violated"], "note": "Opaque format 1 (SPDM 1.2) proved; below 1.2 the property is false of the code because of the DMTF_SPEC_ID typo: *_violated theorems."},
{"property": "C43", "status": "proved", "theorems": ["Verif.Props.C43_step", "Verif.Props.C43_state", "Verif.Props.C43_run", "Verif.Props.C43_report_violated", "Verif.Props.C43_interface_violated", "Verif.Props.C43_nonce_violated", "Verif.Props.C43_silent_violated", "Verif.Props.C43_unheard_violated"], "note": "Every device behaviour, request and history of the TDISP responder as written; the crate is excluded from the workspace and does not compile at this commit. Beyond the statement: the report request always fails (T1), answers have length 0 (T2), nonces (T3) and interface ids (T5) are not checked, requester and responder disagree on the framing (T4): C43_*_violated."},
{"property": "C44", "status": "partial", "theorems": ["Verif.Props.C44_format", "Verif.Props.C44_accepts", "Verif.Props.C44_format_release_partial", "Verif.Props.C44_long_length_violated", "Verif.Props.C44_slice_violated", "Verif.Props.C44_hang_violated", "Verif.Props.C44_fields_violated", "Verif.Props.C44_index", "Verif.Props.C44_last", "Verif.Props.C44_walk_total", "Verif.Props.C44_within", "Verif.Props.C44_adjacent", "Verif.Props.C44_negative"], "note": "The chain walk (certificate by index) in full. The format check: exact for builds that check overflow (C44_format) and, short of overflow, for release builds. Malformed lengths break the claim: a nine-octet length or an algorithm identifier longer than the data panics in every build, 44 bytes appended to any acceptable chain make a release build loop for ever, fields may lie outside the certified content (C44_*_violated, findings X1-X6). verify_cert_chain (webpki) is not modelled."},
{"property": "C45", "status": "proved", "theorems": ["Verif.Props.C45_no_residue", "Verif.Props.C45_teardown", "Verif.Props.C45_reset"], "note": "Every field but the certificate slot number (finding F14) of a free slot is at its initial value in every reachable state."},
{"property": "C46", "status": "partial", "theorems": ["Verif.Props.C46_only_session_data_partial", "Verif.Props.C46_handshake_data_violated"], "note": "Only data that opened under the keys of a session in use reaches the application; the application phase is not required (finding F26): C46_handshake_data_violated."},
{"property": "C47", "status": "partial", "theorems": ["Verif.Props.C47_history", "Verif.Props.C47_history_case", "Verif.Props.C47_algorithms", "Verif.Props.C47_leftover_violated"], "note": "Every request in every state. An algorithm family missing in the request counts as offered if an earlier, refused request selected one (finding F31): C47_leftover_violated."},
{"property": "C48", "status": "partial", "theorems": ["Verif.Props.C48_capabilities", "Verif.Props.C48_accepted", "Verif.Props.C48_version_violated"], "note": "Every request in every state. The version is not checked against those offered (finding F16): C48_version_violated."},
{"property": "C54", "status": "partial", "theorems": ["Verif.Props.C54_step", "Verif.Props.C54_history_partial", "Verif.Props.C54_first", "Verif.Props.C54_stale_violated"], "note": "Every history; complete for the first negotiation (C54_first). After renegotiating another hash algorithm the root hash is stale (finding F30): C54_stale_violated."},
{"property": "C52", "status": "partial", "theorems": ["Verif.Props.C52_key_exchange_partial", "Verif.Props.C52_in_clear_violated", "Verif.Props.C52_psk_exchange"], "note": "Every KEY_EXCHANGE and PSK_EXCHANGE in every reachable state. With HANDSHAKE_IN_THE_CLEAR the KEY_EXCHANGE_RSP carries no signature (finding F3): C52_in_clear_violated."},
{"property": "C56", "status": "proved", "theorems": ["Verif.Props.C56_der", "Verif.Props.C56_injective"], "note": "Every P-256 and P-384 signature."},
{"property": "C53", "status": "partial", "theorems": ["Verif.Props.C53_update", "Verif.Props.C53_refused", "Verif.Props.C53_failure_violated"], "note": "Every state, operation and tag, for an HKDF that does not fail. When it fails the responder acknowledges the update all the same: C53_failure_violated (finding F34)."},
{"property": "C57", "status": "partial", "theorems": ["Verif.Props.C57_responses", "Verif.Props.C57_one_answer", "Verif.Props.C57_limit", "Verif.Props.C57_limit_error", "Verif.Props.C57_replaced", "Verif.Props.C57_replaced_secured", "Verif.Props.C57_requests", "Verif.Props.C57_requests_connect", "Verif.Props.C57_undelivered_certificate_violated", "Verif.Props.C57_undelivered_session_violated", "Verif.Props.C57_vendor_violated"], "note": "Sizes in full for the responder and for every requester operation but one. Exceptions: vendor-defined requests forget the limit (C57_vendor_violated, finding R6); a response replaced by ERROR is recorded in the transcript and its session stays open all the same (C57_undelivered_*_violated, finding F35); CHALLENGE and GET_MEASUREMENTS may be answered by two packets (finding F32)."},
{"property": "C49", "status": "partial", "theorems": ["Verif.Props.C49_digests_partial", "Verif.Props.C49_several_violated"], "note": "Every GET_DIGESTS outside sessions, for a device whose provisioned chains occupy one slot (the digest announced is that of the chain served by GET_CERTIFICATE). With several provisioned slots later digests overwrite each other: C49_several_violated (finding F19)."},
{"property": "C50", "status": "partial", "theorems": ["Verif.Props.C50_challenge", "Verif.Props.C50_unsigned_violated", "Verif.Props.C50_mask_violated"], "note": "Every CHALLENGE outside sessions in every state; what is signed: C23_challenge. When signing fails two packets are sent, the second a CHALLENGE_AUTH with a placeholder signature (C50_unsigned_violated, finding F32); the slot mask always names slot 0 only (C50_mask_violated, finding F37)."},
{"property": "C51", "status": "partial", "theorems": ["Verif.Props.C51_measurements", "Verif.Props.C51_total_violated", "Verif.Props.C51_unsigned_violated", "Verif.Props.C51_clear_error_violated"], "note": "Every GET_MEASUREMENTS outside sessions in every state; in sessions: C23, C25. When signing fails a MEASUREMENTS with a placeholder signature is sent after the ERROR (C51_unsigned_violated, F32), in a session the ERROR in clear (C51_clear_error_violated); a device with exactly one measurement reports a total of zero (C51_total_violated, finding F36)."},
{"property": "C58", "status": "partial", "theorems": ["Verif.Props.C58_challenge_replay", "Verif.Props.C58_measurements_replay", "Verif.Props.C58_key_exchange_replay", "Verif.Props.C58_psk_exchange_replay", "Verif.Props.C58_challenge_auth", "Verif.Props.C58_measurements", "Verif.Props.C58_key_exchange_rsp", "Verif.Props.C58_psk_context_violated", "Verif.Props.C58_psk_replay_violated"], "note": "Requester: for any two successful CHALLENGE, signed GET_MEASUREMENTS (in or outside sessions), KEY_EXCHANGE, PSK_EXCHANGE in any histories. Responder: any two CHALLENGE_AUTH, MEASUREMENTS, KEY_EXCHANGE_RSP outside sessions. False for PSK_EXCHANGE_RSP: the context is always 64 zero bytes (finding F5): C58_psk_context_violated, C58_psk_replay_violated."},
{"property": "C59", "status": "partial", "theorems": ["Verif.Props.C59_digests_partial", "Verif.Props.C59_certificate", "Verif.Props.C59_measurements", "Verif.Props.C59_transcript", "Verif.Props.C59_start", "Verif.Props.C59_refused_violated"], "note": "Any history after the opening of the session, in which every request inside it is answered and everything outside is arbitrary except that the negotiation is not restarted. Digests: one provisioned slot (F19). It fails for requests inside the session that are answered by ERROR: their bytes stay in the transcript (C59_refused_violated), and the requester then rejects the next signed measurements (C41_refused_violated)."},
{"property": "C60", "status": "partial", "theorems": ["Verif.Props.C60_plain", "Verif.Props.C60_secured", "Verif.Props.C60_served", "Verif.Props.C60_truncated_violated", "Verif.Props.C60_session_violated", "Verif.Props.C60_forgets_violated", "Verif.Props.C60_request", "Verif.Props.C60_vendor_violated"], "note": "Responder: proved, with handlers whose answers fit. Findings, proved for every state: a requester's vendor-defined request inside a session never succeeds (C60_session_violated) and any vendor-defined request makes the requester forget connection, sessions and peer chain (C60_forgets_violated, R6); an answer that does not fit is sent cut off instead of ERROR (C60_truncated_violated); the requester does not compare registry and vendor of the response (C60_vendor_violated)."},
{"property": "C55", "status": "partial", "theorems": ["Verif.Props.C55_packets", "Verif.Props.C55_progress_partial", "Verif.Props.C55_endless_violated", "Verif.Props.C55_honest", "Verif.Props.C55_honest_case", "Verif.Props.C55_stalling_violated"], "note": "C55_packets, C55_progress_partial and C55_honest hold; the claim as stated fails for a peer that sends empty portions: C55_endless_violated shows runs of every length, C55_stalling_violated a reachable requester that never returns (R4)."},
{"property": "C61", "status": "partial", "theorems": ["Verif.Props.C61_update", "Verif.Props.C61_whole", "Verif.Props.C61_refused", "Verif.Props.C61_failed_partial", "Verif.Props.C61_case", "Verif.Props.C61_no_rollback_violated", "Verif.Props.C61_other_ack_violated"], "note": "C61_update, C61_whole, C61_refused hold; C61_failed_partial: the old keys are back after a malformed acknowledgement or a failure to send. The rest fails: C61_no_rollback_violated (ERROR, other or foreign-version response: new keys stay, R8) and C61_other_ack_violated (operation and tag of the acknowledgement are not compared)."},
{"property": "C62", "status": "partial", "theorems": ["Verif.Props.C62_reading_partial", "Verif.Props.C62_twelve_violated", "Verif.Props.C62_untorn", "Verif.Props.C62_case", "Verif.Props.C62_noon_violated"], "note": "C62_untorn holds for every device and schedule with one change; C62_reading_partial excludes the hour from twelve to one in the 12-hour format, where the code is wrong: C62_twelve_violated, C62_noon_violated (noon is read as 0 o'clock, midnight as 12)."},
{"property": "C63", "status": "proved", "theorems": ["Verif.Props.C63_digest", "Verif.Props.C63_copy", "Verif.Props.C63_gone", "Verif.Props.C63_null", "Verif.Props.C63_progress", "Verif.Props.C63_case"], "note": "C63_digest, C63_copy, C63_gone, C63_null, C63_progress; the promise of ring's digest context (finish gives the digest of what was fed) and of the allocator (an address in use is not handed out) are hypotheses. Justifies identifying incremental and one-shot hashing in the rest of the model."},
{"property": "C64", "status": "proved", "theorems": ["Verif.Props.C64_encrypt", "Verif.Props.C64_decrypt", "Verif.Props.C64_round_trip", "Verif.Props.C64_unsupported", "Verif.Props.C64_case"], "note": "C64_encrypt, C64_decrypt, C64_round_trip; C64_unsupported: another algorithm panics. ring's promises (Spec/Ring.Promises) are hypotheses; toyLib_promises shows they can be met."},
{"property": "C65", "status": "proved", "theorems": ["Verif.Props.C65_hash", "Verif.Props.C65_sizes", "Verif.Props.C65_unsupported", "Verif.Props.C65_laws", "Verif.Props.C65_case"], "note": "C65_hash, C65_sizes; C65_laws derives from ring's promises the laws other theorems assume of the crypto table (AeadLaws, digest sizes, ExpandLaw). C65_unsupported: with another hash HMAC and extraction panic where hashing and expansion refuse."},
{"property": "C66", "status": "proved", "theorems": ["Verif.Props.C66_random", "Verif.Props.C66_case"], "note": "C66_random."},
{"property": "C67", "status": "partial", "theorems": ["Verif.Props.C67_split", "Verif.Props.C67_chain", "Verif.Props.C67_signature", "Verif.Props.C67_accepts", "Verif.Props.C67_same_leaf_partial", "Verif.Props.C67_leaf_violated", "Verif.Props.C67_impersonation_violated", "Verif.Props.C67_sha512_violated", "Verif.Props.C67_size", "Verif.Props.C67_case"], "note": "C67_same_leaf_partial needs every certificate to be DER; C67_leaf_violated and C67_impersonation_violated show the claim false otherwise (chain of a genuine device + 44 bytes + own certificate: validated as the genuine chain, signatures verified with the own key). C67_sha512_violated: SHA-512 with ECDSA, the code's own first choice, panics."},
{"property": "C68", "status": "proved", "theorems": ["Verif.Props.C68_iff", "Verif.Props.C68_else_fails", "Verif.Props.C68_mctp", "Verif.Props.C68_pcidoe", "Verif.Props.C68_small_violated"], "note": "proved as an equivalence, for endpoints without a dead end in between (Delivers, shown for MCTP and PCI DOE); C68_small_violated records that a DataTransferSize of 42..51 never connects in 1.2"},
{"property": "C69", "status": "proved", "theorems": ["Verif.Props.C69_layout", "Verif.Props.C69_round_trip", "Verif.Props.C69_decoders_total"], "note": "all four messages of the mut-auth feature, every version byte"},
{"property": "C70", "status": "proved", "theorems": ["Verif.Props.C70_answers", "Verif.Props.C70_total", "Verif.Props.C70_several_violated"], "note": "C70_several_violated records the finding that with chains in two slots the digest of slot 0 is left as 0xFF bytes"},
{"property": "C71", "status": "partial", "theorems": ["Verif.Props.C71_gate", "Verif.Props.C71_only_serves", "Verif.Props.C71_success", "Verif.Props.C71_version11_violated"], "note": "the requester's half; C71_version11_violated records that no 1.1 acknowledgement is accepted; termination against a responder that never finishes is not a property of the code (the loop is unbounded; the model gives it fuel)"},
{"property": "C72", "status": "proved", "theorems": ["Verif.Props.C72_chains", "Verif.Props.C72_step", "Verif.Props.C72_only"], "note": "the responder's half of mutual authentication"},
{"property": "C73", "status": "partial", "theorems": ["Verif.Props.C73_unchecked_violated", "Verif.Props.C73_sessions_violated", "Verif.Props.C73_garbled_violated"], "note": "findings, each a theorem: no capability, state or digest check guards the stored chain; portions from different sessions are joined; an unusable response is answered by a garbled acknowledgement"},
{"property": "C74", "status": "partial", "theorems": ["Verif.Props.C74_mutual_partial", "Verif.Props.C74_in_clear_violated", "Verif.Props.C74_retry_violated", "Verif.Props.C74_algorithm_violated"], "note": "Every history of a build with mut-auth. Missing: application data received in the handshake phase whose answer, given by the application, looks like FINISH_RSP (C26_application_violated). Findings: with HANDSHAKE_IN_THE_CLEAR no session can be established at all, a refused FINISH spoils the transcript, the signature is checked with the responder's algorithm."},
{"property": "C75", "status": "partial", "theorems": ["Verif.Props.C75_no_panic", "Verif.Props.C75_mctp", "Verif.Props.C75_pci_doe", "Verif.Props.C75_survives", "Verif.Props.C75_case", "Verif.Props.C75_no_signature_violated", "Verif.Props.C75_no_dhe_violated", "Verif.Props.C75_no_aead_violated", "Verif.Props.C75_no_hash_violated", "Verif.Props.C75_no_measurement_violated", "Verif.Props.C75_doe_violated", "Verif.Props.C75_doe_record_violated"], "note": "Proved for every history and packet over MCTP, and over PCI DOE for records up to 4120 bytes, if one algorithm is selected in every category whenever negotiation has finished. Missing because the code violates it: a requester offering no signature, DHE, AEAD (or hash) algorithm in common aborts the responder with one further plain packet (get_size panics on an empty selection); a PCI DOE record of more than 4096 bytes of plaintext aborts it; a measurement provider returning None aborts it."},
{"property": "C76", "status": "partial", "theorems": ["Verif.Props.C76_connect", "Verif.Props.C76_outside", "Verif.Props.C76_answered", "Verif.Props.C76_case", "Verif.Props.C76_measurements_violated", "Verif.Props.C76_inside", "Verif.Props.C76_inside_case", "Verif.Props.C76_finish_violated", "Verif.Props.C76_starting", "Verif.Props.C76_starting_case"], "note": "C76_connect for every state, C76_outside/C76_answered over histories, C76_case with a concrete history against an arbitrary device. Partial because the code violates the full claim: asking a responder without MEAS_CAP for measurements can abort (C76_measurements_violated), a device asking for mutual authentication although no algorithm for it was negotiated aborts the requester in FINISH (C76_finish_violated), and fetching a chain can go on for ever (C55_endless_violated), which C76_outside names as the only exception. C76_inside covers the requests inside sessions from any state in which the sessions in use have algorithms of known sizes (C76_inside_case: a session established over MCTP, any request, any device); C76_starting adds KEY_EXCHANGE and PSK_EXCHANGE, for connections that selected an AEAD and a DHE group of known sizes (C76_starting_case); FINISH and PSK_FINISH without mutual authentication, vendor requests and reconnecting are not covered."}
]}
