'Verif.Props.C01_reads_in_order_and_in_bounds' depends on axioms: [propext, Classical.choice, Quot.sound]
'Verif.Props.C01_take_iff' depends on axioms: [propext, Quot.sound]
'Verif.Props.C01_model_reader_is_rust_reader' depends on axioms: [propext, Quot.sound]
'Verif.Props.C01_good_decoder' depends on axioms: [propext]
'Verif.Props.C01_message_decoders' depends on axioms: [propext, Quot.sound]
'Verif.Props.C01_vendor_decoder' depends on axioms: [propext, Quot.sound]
'Verif.Props.C01_unnegotiated_decode_panics_violated' depends on axioms: [propext, Quot.sound]
'Verif.Props.C02_primitive_encoders' depends on axioms: [propext, Classical.choice, Quot.sound]
'Verif.Props.C02_composition' depends on axioms: [propext, Quot.sound]
'Verif.Props.C02_messages' depends on axioms: [propext, Classical.choice, Quot.sound]
'Verif.Props.C05_message_layout' depends on axioms: [propext, Classical.choice, Quot.sound]
'Verif.Props.C03_little_endian' depends on axioms: [propext, Quot.sound]
'Verif.Props.C03_round_trip' depends on axioms: [propext, Quot.sound]
'Verif.Props.C03_decode_total' depends on axioms: [propext, Quot.sound]
'Verif.Props.C03_decode_total_u64' depends on axioms: [propext, Quot.sound]
'Verif.Props.C04_SpdmVersion' depends on axioms: [propext]
'Verif.Props.C04_SpdmVersion_read' depends on axioms: [propext]
'Verif.Props.C04_ReqRespCode' depends on axioms: [propext]
'Verif.Props.C04_ReqRespCode_read' depends on axioms: [propext]
'Verif.Props.C04_ErrorCode' depends on axioms: [propext]
'Verif.Props.C04_ErrorCode_read' depends on axioms: [propext]
'Verif.Props.C04_StandardId' depends on axioms: [propext]
'Verif.Props.C04_StandardId_read' depends on axioms: [propext]
'Verif.Props.C04_AlgType' depends on axioms: [propext]
'Verif.Props.C04_AlgType_read' depends on axioms: [propext]
'Verif.Props.C04_SummaryHashType' depends on axioms: [propext]
'Verif.Props.C04_SummaryHashType_read' depends on axioms: [propext]
'Verif.Props.C04_DmtfMeasurementType' depends on axioms: [propext]
'Verif.Props.C04_DmtfMeasurementType_read' depends on axioms: [propext]
'Verif.Props.C04_DmtfRepresentation' depends on axioms: [propext]
'Verif.Props.C04_DmtfRepresentation_read' depends on axioms: [propext]
'Verif.Props.C04_KeyUpdateOp' depends on axioms: [propext]
'Verif.Props.C04_KeyUpdateOp_read' depends on axioms: [propext]
'Verif.Props.C04_MeasOperation' depends on axioms: [propext]
'Verif.Props.C04_MeasOperation_read' depends on axioms: [propext]
'Verif.Props.C04_EncapAckPayload' depends on axioms: [propext]
'Verif.Props.C04_EncapAckPayload_read' depends on axioms: [propext]
'Verif.Props.C04_RegistryId' depends on axioms: [propext]
'Verif.Props.C04_RegistryId_read' depends on axioms: [propext, Quot.sound]
'Verif.Props.C05_message_layout' depends on axioms: [propext, Classical.choice, Quot.sound]
'Verif.Props.C05_header_first' depends on axioms: [propext]
'Verif.Props.C05_optional_fields_absent' depends on axioms: [propext, Quot.sound]
'Verif.Props.C05_general_parameters_lost_violated' depends on axioms: [propext, Classical.choice, Quot.sound]
'Verif.Props.C06_message_round_trip' depends on axioms: [propext, Quot.sound]
'Verif.Props.C06_encode_then_decode' depends on axioms: [propext, Classical.choice, Quot.sound]
'Verif.Props.C06_vendor_round_trip' depends on axioms: [propext, Quot.sound]
'Verif.Props.C06_injective' depends on axioms: [propext, Quot.sound]
'Verif.Props.C06_prefix_free' depends on axioms: [propext, Quot.sound]
'Verif.Props.C07_lengths_bounded' depends on axioms: [propext, Classical.choice, Quot.sound]
'Verif.Props.C07_vendor_lengths_bounded' depends on axioms: [propext, Quot.sound]
'Verif.Props.C07_never_more_than_received' depends on axioms: [propext, Classical.choice, Quot.sound]
'Verif.Props.C07_declared_lengths_exact' depends on axioms: [propext, Classical.choice, Quot.sound]
'Verif.Props.C07_certificate_portion_violated' depends on axioms: [propext, Quot.sound]
'Verif.Props.C07_vendor_length_violated' depends on axioms: [propext, Quot.sound]
'Verif.Props.C08_get_capabilities_v12' depends on axioms: [propext, Classical.choice, Quot.sound]
'Verif.Props.C08_get_capabilities_v11' depends on axioms: [propext, Classical.choice, Quot.sound]
'Verif.Props.C08_get_capabilities_short' depends on axioms: [propext, Quot.sound]
'Verif.Props.C09_capabilities_v12' depends on axioms: [propext, Classical.choice, Quot.sound]
'Verif.Props.C09_capabilities_before_v12' depends on axioms: [propext, Classical.choice, Quot.sound]
'Verif.Props.C09_capabilities_short' depends on axioms: [propext, Quot.sound]
'Verif.Props.C10_MeasSpec' depends on axioms: [propext, Quot.sound]
'Verif.Props.C10_MeasSpec_common' depends on axioms: [propext, Quot.sound]
'Verif.Props.C10_BaseAsym' depends on axioms: [propext, Quot.sound]
'Verif.Props.C10_BaseAsym_common' depends on axioms: [propext, Quot.sound]
'Verif.Props.C10_BaseHash' depends on axioms: [propext, Quot.sound]
'Verif.Props.C10_BaseHash_common' depends on axioms: [propext, Quot.sound]
'Verif.Props.C10_Dhe' depends on axioms: [propext, Quot.sound]
'Verif.Props.C10_Dhe_common' depends on axioms: [propext, Quot.sound]
'Verif.Props.C10_Aead' depends on axioms: [propext, Quot.sound]
'Verif.Props.C10_Aead_common' depends on axioms: [propext, Quot.sound]
'Verif.Props.C10_ReqAsym' depends on axioms: [propext, Quot.sound]
'Verif.Props.C10_ReqAsym_common' depends on axioms: [propext, Quot.sound]
'Verif.Props.C10_KeySchedule' depends on axioms: [propext, Quot.sound]
'Verif.Props.C10_KeySchedule_common' depends on axioms: [propext, Quot.sound]
'Verif.Props.C11_MeasHash' depends on axioms: [propext, Classical.choice, Quot.sound]
'Verif.Props.C11_MeasHash_single' depends on axioms: [propext, Classical.choice, Quot.sound]
'Verif.Props.C11_MeasHash_bounded' depends on axioms: [propext, Classical.choice, Quot.sound]
'Verif.Props.C11_MeasHash_validOne' depends on axioms: [propext, Quot.sound]
'Verif.Props.C11_BaseAsym' depends on axioms: [propext, Classical.choice, Quot.sound]
'Verif.Props.C11_BaseAsym_single' depends on axioms: [propext, Classical.choice, Quot.sound]
'Verif.Props.C11_BaseAsym_bounded' depends on axioms: [propext, Classical.choice, Quot.sound]
'Verif.Props.C11_BaseAsym_validOne' depends on axioms: [propext, Quot.sound]
'Verif.Props.C11_BaseAsym_negotiated' depends on axioms: [propext, Quot.sound]
'Verif.Props.C11_BaseHash' depends on axioms: [propext, Classical.choice, Quot.sound]
'Verif.Props.C11_BaseHash_single' depends on axioms: [propext, Classical.choice, Quot.sound]
'Verif.Props.C11_BaseHash_bounded' depends on axioms: [propext, Classical.choice, Quot.sound]
'Verif.Props.C11_BaseHash_validOne' depends on axioms: [propext, Quot.sound]
'Verif.Props.C11_BaseHash_negotiated' depends on axioms: [propext, Quot.sound]
'Verif.Props.C11_Dhe' depends on axioms: [propext, Classical.choice, Quot.sound]
'Verif.Props.C11_Dhe_single' depends on axioms: [propext, Classical.choice, Quot.sound]
'Verif.Props.C11_Dhe_bounded' depends on axioms: [propext, Classical.choice, Quot.sound]
'Verif.Props.C11_Dhe_validOne' depends on axioms: [propext, Quot.sound]
'Verif.Props.C11_Dhe_negotiated' depends on axioms: [propext, Quot.sound]
'Verif.Props.C11_Aead_keySize' depends on axioms: [propext, Classical.choice, Quot.sound]
'Verif.Props.C11_Aead_keySize_single' depends on axioms: [propext, Classical.choice, Quot.sound]
'Verif.Props.C11_Aead_keySize_bounded' depends on axioms: [propext, Classical.choice, Quot.sound]
'Verif.Props.C11_Aead_ivSize' depends on axioms: [propext, Classical.choice, Quot.sound]
'Verif.Props.C11_Aead_ivSize_single' depends on axioms: [propext, Classical.choice, Quot.sound]
'Verif.Props.C11_Aead_ivSize_bounded' depends on axioms: [propext, Classical.choice, Quot.sound]
'Verif.Props.C11_Aead_tagSize' depends on axioms: [propext, Classical.choice, Quot.sound]
'Verif.Props.C11_Aead_tagSize_single' depends on axioms: [propext, Classical.choice, Quot.sound]
'Verif.Props.C11_Aead_tagSize_bounded' depends on axioms: [propext, Classical.choice, Quot.sound]
'Verif.Props.C11_Aead_validOne' depends on axioms: [propext, Quot.sound]
'Verif.Props.C11_Aead_negotiated' depends on axioms: [propext, Quot.sound]
'Verif.Props.C11_ReqAsym' depends on axioms: [propext, Classical.choice, Quot.sound]
'Verif.Props.C11_ReqAsym_single' depends on axioms: [propext, Classical.choice, Quot.sound]
'Verif.Props.C11_ReqAsym_bounded' depends on axioms: [propext, Classical.choice, Quot.sound]
'Verif.Props.C11_ReqAsym_validOne' depends on axioms: [propext, Quot.sound]
'Verif.Props.C11_ReqAsym_negotiated' depends on axioms: [propext, Quot.sound]
'Verif.Props.C11_violated_sha3_measurement_hash_is_dropped' depends on axioms: [propext, Quot.sound]
'Verif.Props.C12_encap' depends on axioms: [propext, Quot.sound]
'Verif.Props.C12_decap' depends on axioms: [propext, Classical.choice, Quot.sound]
'Verif.Props.C12_round_trip' depends on axioms: [propext, Classical.choice, Quot.sound]
'Verif.Props.C12_app_round_trip' depends on axioms: [propext, Classical.choice, Quot.sound]
'Verif.Props.C12_decap_app' depends on axioms: [propext, Classical.choice, Quot.sound]
'Verif.Props.C13_encap' depends on axioms: [propext, Classical.choice, Quot.sound]
'Verif.Props.C13_decap' depends on axioms: [propext, Classical.choice, Quot.sound]
'Verif.Props.C13_round_trip' depends on axioms: [propext, Classical.choice, Quot.sound]
'Verif.Props.C13_app_round_trip' depends on axioms: [propext]
'Verif.Props.C13_app_too_small_violated' depends on axioms: [propext, Quot.sound]
'Verif.Props.C13_oversize_violated' depends on axioms: [propext, Quot.sound]
'Verif.Props.C14_encode' depends on axioms: [propext, Classical.choice, Quot.sound]
'Verif.Props.C14_round_trip' depends on axioms: [propext, Classical.choice, Quot.sound]
'Verif.Props.C14_stream' depends on axioms: [propext, Classical.choice, Quot.sound]
'Verif.Props.C14_not_started' depends on axioms: [propext, Quot.sound]
'Verif.Props.C15_accepted_iff' depends on axioms: [propext, Quot.sound]
'Verif.Props.C15_other_session' depends on axioms: [propext, Quot.sound]
'Verif.Props.C15_other_sequence' depends on axioms: [propext, Quot.sound]
'Verif.Props.C15_bad_length' depends on axioms: [propext, Classical.choice, Quot.sound]
'Verif.Props.C15_effect' depends on axioms: [propext, Quot.sound]
'Verif.Props.C16_nonces_never_repeat' depends on axioms: [propext, Classical.choice, Quot.sound]
'Verif.Props.C16_counter_advances' depends on axioms: [propext, Classical.choice, Quot.sound]
'Verif.Props.C16_exhausted_refused' depends on axioms: [propext, Quot.sound]
'Verif.Props.C16_wrap_after_refusal_violated' depends on axioms: [propext, Classical.choice, Quot.sound]
'Verif.Props.C17_replay_rejected' depends on axioms: [propext, Classical.choice, Quot.sound]
'Verif.Props.C17_carried_sequence' depends on axioms: [propext, Classical.choice, Quot.sound]
'Verif.Props.C17_in_order' depends on axioms: [propext, Classical.choice, Quot.sound]
'Verif.Props.C17_desync_after_garbage_violated' depends on axioms: [propext, Classical.choice, Quot.sound]
'Verif.Props.C18_effect' depends on axioms: [propext, Classical.choice, Quot.sound]
'Verif.Props.C18_rollback' depends on axioms: [propext, Classical.choice, Quot.sound]
'Verif.Props.C18_commit' depends on axioms: [propext]
'Verif.Props.C18_peers_stay_in_step' depends on axioms: [propext, Classical.choice, Quot.sound]
'Verif.Props.C18_iterated' depends on axioms: [propext, Classical.choice, Quot.sound]
'Verif.Props.C19_layout' depends on axioms: [propext, Classical.choice, Quot.sound]
'Verif.Props.C19_unambiguous' depends on axioms: [propext, Quot.sound]
'Verif.Props.C19_directions_differ' depends on axioms: [propext]
'Verif.Props.C20_root_secrets' depends on axioms: [propext, Classical.choice, Quot.sound]
'Verif.Props.C20_handshake_secrets' depends on axioms: [propext, Classical.choice, Quot.sound]
'Verif.Props.C20_data_secrets' depends on axioms: [propext, Classical.choice, Quot.sound]
'Verif.Props.C20_peers_agree_handshake' depends on axioms: [propext, Classical.choice, Quot.sound]
'Verif.Props.C20_peers_agree_data' depends on axioms: [propext, Classical.choice, Quot.sound]
'Verif.Props.C20_aes128_unusable_violated' depends on axioms: [propext, Classical.choice, Quot.sound]
'Verif.Props.C21_capacity' depends on axioms: [propext, Classical.choice, Quot.sound]
'Verif.Props.C21_unique' depends on axioms: [propext, Classical.choice, Quot.sound]
'Verif.Props.C21_nonzero' depends on axioms: [propext, Classical.choice, Quot.sound]
'Verif.Props.C21_lookup' depends on axioms: [propext, Classical.choice, Quot.sound]
'Verif.Props.C21_full' depends on axioms: [propext, Classical.choice, Quot.sound]
'Verif.Props.C21_open_others' depends on axioms: [propext, Classical.choice, Quot.sound]
'Verif.Props.C22_end_session' depends on axioms: [propext, Classical.choice, Quot.sound]
'Verif.Props.C22_after_end' depends on axioms: [propext, Classical.choice, Quot.sound]
'Verif.Props.C22_reusable' depends on axioms: [propext, Classical.choice, Quot.sound]
'Verif.Props.C23_dialogue_partial' depends on axioms: [propext, Classical.choice, Quot.sound]
'Verif.Props.C23_challenge_signature' depends on axioms: [propext, Classical.choice, Quot.sound]
'Verif.Props.C23_measurements_signature' depends on axioms: [propext, Classical.choice, Quot.sound]
'Verif.Props.C23_key_exchange_signature' depends on axioms: [propext, Classical.choice, Quot.sound]
'Verif.Props.C23_reset_violated' depends on axioms: [propext, Classical.choice, Quot.sound]
'Verif.Props.C23_refused_violated' depends on axioms: [propext, Classical.choice, Quot.sound]
'Verif.Props.C23_overflow_violated' depends on axioms: [propext, Classical.choice, Quot.sound]
'Verif.Props.C24_too_early' depends on axioms: [propext, Classical.choice, Quot.sound]
'Verif.Props.C24_too_early_effect' depends on axioms: [propext, Classical.choice, Quot.sound]
'Verif.Props.C24_exchange_too_early' depends on axioms: [propext, Classical.choice, Quot.sound]
'Verif.Props.C24_moves' depends on axioms: [propext, Classical.choice, Quot.sound]
'Verif.Props.C24_history' depends on axioms: [propext, Classical.choice, Quot.sound]
'Verif.Props.C24_answer_is_error' depends on axioms: [propext, Classical.choice, Quot.sound]
'Verif.Props.C25_restart' depends on axioms: [propext, Classical.choice, Quot.sound]
'Verif.Props.C25_malformed' depends on axioms: [propext, Classical.choice, Quot.sound]
'Verif.Props.C26_established_partial' depends on axioms: [propext, Classical.choice, Quot.sound]
'Verif.Props.C26_application_violated' depends on axioms: [propext, Classical.choice, Quot.sound]
'Verif.Props.C27_handshake' depends on axioms: [propext, Classical.choice, Quot.sound]
'Verif.Props.C27_handshake_in_clear' depends on axioms: [propext, Classical.choice, Quot.sound]
'Verif.Props.C27_application' depends on axioms: [propext, Classical.choice, Quot.sound]
'Verif.Props.C27_no_session' depends on axioms: [propext, Classical.choice, Quot.sound]
'Verif.Props.C27_no_effect' depends on axioms: [propext, Classical.choice, Quot.sound]
'Verif.Props.C27_packet' depends on axioms: [propext, Classical.choice, Quot.sound]
'Verif.Props.C28_isolated' depends on axioms: [propext, Classical.choice, Quot.sound]
'Verif.Props.C28_history' depends on axioms: [propext, Classical.choice, Quot.sound]
'Verif.Props.C29_key_exchange_partial' depends on axioms: [propext, Classical.choice, Quot.sound]
'Verif.Props.C29_psk_exchange_partial' depends on axioms: [propext, Classical.choice, Quot.sound]
'Verif.Props.C29_random_violated' depends on axioms: [propext, Classical.choice, Quot.sound]
'Verif.Props.C29_signature_violated' depends on axioms: [propext, Classical.choice, Quot.sound]
'Verif.Props.C29_v11_violated' depends on axioms: [propext, Classical.choice, Quot.sound]
'Verif.Props.C29_failed_finish_violated' depends on axioms: [propext, Classical.choice, Quot.sound]
'Verif.Props.C30_portion' depends on axioms: [propext, Classical.choice, Quot.sound]
'Verif.Props.C30_response' depends on axioms: [propext, Classical.choice, Quot.sound]
'Verif.Props.C30_refused' depends on axioms: [propext, Quot.sound]
'Verif.Props.C30_prefix' depends on axioms: [propext, Classical.choice, Quot.sound]
'Verif.Props.C30_complete' depends on axioms: [propext, Classical.choice, Quot.sound]
'Verif.Props.C30_remainder' depends on axioms: [propext, Classical.choice, Quot.sound]
'Verif.Props.C31_stored' depends on axioms: [propext, Classical.choice, Quot.sound]
'Verif.Props.C31_failure_keeps' depends on axioms: [propext, Quot.sound]
'Verif.Props.C31_every_stored_chain' depends on axioms: [propext, Classical.choice, Quot.sound]
'Verif.Props.C32_selected_partial' depends on axioms: [propext, Classical.choice, Quot.sound]
'Verif.Props.C32_decided_partial' depends on axioms: [propext, Classical.choice, Quot.sound]
'Verif.Props.C32_padding_violated' depends on axioms: [propext, Classical.choice, Quot.sound]
'Verif.Props.C33_settled_partial' depends on axioms: [propext, Classical.choice, Quot.sound]
'Verif.Props.C33_not_offered_violated' depends on axioms: [propext, Classical.choice, Quot.sound]
'Verif.Props.C33_leftover_violated' depends on axioms: [propext, Classical.choice, Quot.sound]
'Verif.Props.C34_authentic' depends on axioms: [propext, Classical.choice, Quot.sound]
'Verif.Props.C34_forged' depends on axioms: [propext, Classical.choice, Quot.sound]
'Verif.Props.C34_slot_violated' depends on axioms: [propext, Classical.choice, Quot.sound]
'Verif.Props.C35_authentic' depends on axioms: [propext, Classical.choice, Quot.sound]
'Verif.Props.C35_forged' depends on axioms: [propext, Quot.sound]
'Verif.Props.C35_in_session' depends on axioms: [propext, Classical.choice, Quot.sound]
'Verif.Props.C36_authentic' depends on axioms: [propext, Classical.choice, Quot.sound]
'Verif.Props.C36_psk_authentic' depends on axioms: [propext, Classical.choice, Quot.sound]
'Verif.Props.C36_leak_violated' depends on axioms: [propext, Classical.choice, Quot.sound]
'Verif.Props.C37_error' depends on axioms: [propext, Classical.choice, Quot.sound]
'Verif.Props.C37_decrypt_error' depends on axioms: [propext, Classical.choice, Quot.sound]
'Verif.Props.C37_refused_partial' depends on axioms: [propext, Classical.choice, Quot.sound]
'Verif.Props.C37_accepted_partial' depends on axioms: [propext, Classical.choice, Quot.sound]
'Verif.Props.C37_success_partial' depends on axioms: [propext, Classical.choice, Quot.sound]
'Verif.Props.C37_connect' depends on axioms: [propext, Classical.choice, Quot.sound]
'Verif.Props.C37_finish_version_violated' depends on axioms: [propext, Classical.choice, Quot.sound]
'Verif.Props.C38_failure' depends on axioms: [propext, Classical.choice, Quot.sound]
'Verif.Props.C38_psk_failure' depends on axioms: [propext, Classical.choice, Quot.sound]
'Verif.Props.C38_established_plain' depends on axioms: [propext, Classical.choice, Quot.sound]
'Verif.Props.C38_psk_established' depends on axioms: [propext, Classical.choice, Quot.sound]
'Verif.Props.C38_session_plain' depends on axioms: [propext, Classical.choice, Quot.sound]
'Verif.Props.C38_empty_slot_violated' depends on axioms: [propext, Classical.choice, Quot.sound]
'Verif.Props.C38_established' depends on axioms: [propext, Classical.choice, Quot.sound]
'Verif.Props.C38_session' depends on axioms: [propext, Classical.choice, Quot.sound]
'Verif.Props.C38_session_case' depends on axioms: [propext, Classical.choice, Quot.sound]
'Verif.Props.C38_unnegotiated_violated' depends on axioms: [propext, Classical.choice, Quot.sound]
'Verif.Props.C39_well_formed' depends on axioms: [propext, Classical.choice, Quot.sound]
'Verif.Props.C39_exact' depends on axioms: [propext, Classical.choice, Quot.sound]
'Verif.Props.C39_plain_neutral' depends on axioms: [propext, Classical.choice, Quot.sound]
'Verif.Props.C39_secured_neutral' depends on axioms: [propext, Classical.choice, Quot.sound]
'Verif.Props.C39_request_neutral' depends on axioms: [propext, Classical.choice, Quot.sound]
'Verif.Props.C39_appended_error_violated' depends on axioms: [propext, Classical.choice, Quot.sound]
'Verif.Props.C39_unsigned_challenge_violated' depends on axioms: [propext, Classical.choice, Quot.sound]
'Verif.Props.C40_signed_data' depends on axioms: [propext, Classical.choice, Quot.sound]
'Verif.Props.C40_only_signed_data' depends on axioms: [propext, Classical.choice, Quot.sound]
'Verif.Props.C40_never_panics' depends on axioms: [propext, Classical.choice, Quot.sound]
'Verif.Props.C40_purposes_separate' depends on axioms: [propext, Classical.choice, Quot.sound]
'Verif.Props.C40_no_cross_use' depends on axioms: [propext, Classical.choice, Quot.sound]
'Verif.Props.C40_v11_refused_partial' depends on axioms: [propext, Classical.choice, Quot.sound]
'Verif.Props.C41_history' depends on axioms: [propext, Classical.choice, Quot.sound]
'Verif.Props.C41_messages' depends on axioms: [propext, Classical.choice, Quot.sound]
'Verif.Props.C41_key_exchange' depends on axioms: [propext, Classical.choice, Quot.sound]
'Verif.Props.C41_psk_exchange' depends on axioms: [propext, Classical.choice, Quot.sound]
'Verif.Props.C41_finish' depends on axioms: [propext, Classical.choice, Quot.sound]
'Verif.Props.C41_end_session' depends on axioms: [propext, Classical.choice, Quot.sound]
'Verif.Props.C41_certificate' depends on axioms: [propext, Classical.choice, Quot.sound]
'Verif.Props.C41_certificate_in_session' depends on axioms: [propext, Classical.choice, Quot.sound]
'Verif.Props.C41_measurements_in_session' depends on axioms: [propext, Classical.choice, Quot.sound]
'Verif.Props.C41_application' depends on axioms: [propext, Classical.choice, Quot.sound]
'Verif.Props.C41_application_doe_violated' depends on axioms: [propext, Classical.choice, Quot.sound]
'Verif.Props.C41_reconnect_violated' depends on axioms: [propext, Classical.choice, Quot.sound]
'Verif.Props.C41_refused_violated' depends on axioms: [propext, Classical.choice, Quot.sound]
'Verif.Props.C41_connect' depends on axioms: [propext, Classical.choice, Quot.sound]
'Verif.Props.C41_mctp' depends on axioms: [propext, Classical.choice, Quot.sound]
'Verif.Props.C41_pcidoe' depends on axioms: [propext, Classical.choice, Quot.sound]
'Verif.Props.C42_list_recovered' depends on axioms: [propext, Quot.sound]
'Verif.Props.C42_requester_list' depends on axioms: [propext]
'Verif.Props.C42_selection_recovered' depends on axioms: [propext, Quot.sound]
'Verif.Props.C42_agreement' depends on axioms: [propext, Classical.choice, Quot.sound]
'Verif.Props.C42_never_panics' depends on axioms: [propext, Quot.sound]
'Verif.Props.C42_v11_list_ignored_violated' depends on axioms: [propext, Quot.sound]
'Verif.Props.C42_v11_selection_ignored_violated' depends on axioms: [propext, Quot.sound]
'Verif.Props.C43_step' depends on axioms: [propext, Quot.sound]
'Verif.Props.C43_state' depends on axioms: [propext, Quot.sound]
'Verif.Props.C43_run' depends on axioms: [propext, Quot.sound]
'Verif.Props.C43_report_violated' depends on axioms: [propext, Quot.sound]
'Verif.Props.C43_interface_violated' depends on axioms: [propext, Quot.sound]
'Verif.Props.C43_nonce_violated' depends on axioms: [propext, Quot.sound]
'Verif.Props.C43_silent_violated' depends on axioms: [propext, Quot.sound]
'Verif.Props.C43_unheard_violated' depends on axioms: [propext, Quot.sound]
'Verif.Props.C44_format' depends on axioms: [propext, Classical.choice, Quot.sound]
'Verif.Props.C44_accepts' depends on axioms: [propext, Classical.choice, Quot.sound]
'Verif.Props.C44_format_release_partial' depends on axioms: [propext, Classical.choice, Quot.sound]
'Verif.Props.C44_long_length_violated' depends on axioms: [propext, Quot.sound]
'Verif.Props.C44_slice_violated' depends on axioms: [propext]
'Verif.Props.C44_hang_violated' depends on axioms: [propext, Classical.choice, Quot.sound]
'Verif.Props.C44_fields_violated' depends on axioms: [propext]
'Verif.Props.C44_index' depends on axioms: [propext, Quot.sound]
'Verif.Props.C44_last' depends on axioms: [propext, Classical.choice, Quot.sound]
'Verif.Props.C44_walk_total' depends on axioms: [propext, Quot.sound]
'Verif.Props.C44_within' depends on axioms: [propext, Classical.choice, Quot.sound]
'Verif.Props.C44_adjacent' depends on axioms: [propext, Classical.choice, Quot.sound]
'Verif.Props.C44_negative' depends on axioms: [propext, Quot.sound]
'Verif.Props.C45_no_residue' depends on axioms: [propext, Classical.choice, Quot.sound]
'Verif.Props.C45_teardown' depends on axioms: [propext]
'Verif.Props.C45_reset' depends on axioms: [propext, Quot.sound]
'Verif.Props.C46_only_session_data_partial' depends on axioms: [propext, Classical.choice, Quot.sound]
'Verif.Props.C46_handshake_data_violated' depends on axioms: [propext, Classical.choice, Quot.sound]
'Verif.Props.C47_history' depends on axioms: [propext, Classical.choice, Quot.sound]
'Verif.Props.C47_history_case' depends on axioms: [propext, Classical.choice, Quot.sound]
'Verif.Props.C47_algorithms' depends on axioms: [propext, Classical.choice, Quot.sound]
'Verif.Props.C47_leftover_violated' depends on axioms: [propext, Classical.choice, Quot.sound]
'Verif.Props.C48_capabilities' depends on axioms: [propext, Classical.choice, Quot.sound]
'Verif.Props.C48_accepted' depends on axioms: [propext, Classical.choice, Quot.sound]
'Verif.Props.C48_version_violated' depends on axioms: [propext, Classical.choice, Quot.sound]
'Verif.Props.C54_step' depends on axioms: [propext, Classical.choice, Quot.sound]
'Verif.Props.C54_history_partial' depends on axioms: [propext, Classical.choice, Quot.sound]
'Verif.Props.C54_first' depends on axioms: [propext, Classical.choice, Quot.sound]
'Verif.Props.C54_stale_violated' depends on axioms: [propext, Classical.choice, Quot.sound]
'Verif.Props.C52_key_exchange_partial' depends on axioms: [propext, Classical.choice, Quot.sound]
'Verif.Props.C52_in_clear_violated' depends on axioms: [propext, Classical.choice, Quot.sound]
'Verif.Props.C52_psk_exchange' depends on axioms: [propext, Classical.choice, Quot.sound]
'Verif.Props.C56_der' depends on axioms: [propext, Quot.sound]
'Verif.Props.C56_injective' depends on axioms: [propext, Classical.choice, Quot.sound]
'Verif.Props.C53_update' depends on axioms: [propext, Classical.choice, Quot.sound]
'Verif.Props.C53_refused' depends on axioms: [propext, Classical.choice, Quot.sound]
'Verif.Props.C53_failure_violated' depends on axioms: [propext, Classical.choice, Quot.sound]
'Verif.Props.C57_responses' depends on axioms: [propext, Classical.choice, Quot.sound]
'Verif.Props.C57_one_answer' depends on axioms: [propext, Classical.choice, Quot.sound]
'Verif.Props.C57_limit' depends on axioms: [propext, Classical.choice, Quot.sound]
'Verif.Props.C57_limit_error' depends on axioms: [propext, Classical.choice, Quot.sound]
'Verif.Props.C57_replaced' depends on axioms: [propext, Classical.choice, Quot.sound]
'Verif.Props.C57_replaced_secured' depends on axioms: [propext, Classical.choice, Quot.sound]
'Verif.Props.C57_requests' depends on axioms: [propext, Classical.choice, Quot.sound]
'Verif.Props.C57_requests_connect' depends on axioms: [propext, Quot.sound]
'Verif.Props.C57_undelivered_certificate_violated' depends on axioms: [propext, Classical.choice, Quot.sound]
'Verif.Props.C57_undelivered_session_violated' depends on axioms: [propext, Classical.choice, Quot.sound]
'Verif.Props.C57_vendor_violated' depends on axioms: [propext, Classical.choice, Quot.sound]
'Verif.Props.C49_digests_partial' depends on axioms: [propext, Classical.choice, Quot.sound]
'Verif.Props.C49_several_violated' depends on axioms: [propext, Classical.choice, Quot.sound]
'Verif.Props.C50_challenge' depends on axioms: [propext, Classical.choice, Quot.sound]
'Verif.Props.C50_unsigned_violated' depends on axioms: [propext, Classical.choice, Quot.sound]
'Verif.Props.C50_mask_violated' depends on axioms: [propext, Classical.choice, Quot.sound]
'Verif.Props.C51_measurements' depends on axioms: [propext, Classical.choice, Quot.sound]
'Verif.Props.C51_total_violated' depends on axioms: [propext, Classical.choice, Quot.sound]
'Verif.Props.C51_unsigned_violated' depends on axioms: [propext, Classical.choice, Quot.sound]
'Verif.Props.C51_clear_error_violated' depends on axioms: [propext, Classical.choice, Quot.sound]
'Verif.Props.C58_challenge_replay' depends on axioms: [propext, Classical.choice, Quot.sound]
'Verif.Props.C58_measurements_replay' depends on axioms: [propext, Classical.choice, Quot.sound]
'Verif.Props.C58_key_exchange_replay' depends on axioms: [propext, Classical.choice, Quot.sound]
'Verif.Props.C58_psk_exchange_replay' depends on axioms: [propext, Classical.choice, Quot.sound]
'Verif.Props.C58_challenge_auth' depends on axioms: [propext, Classical.choice, Quot.sound]
'Verif.Props.C58_measurements' depends on axioms: [propext, Classical.choice, Quot.sound]
'Verif.Props.C58_key_exchange_rsp' depends on axioms: [propext, Classical.choice, Quot.sound]
'Verif.Props.C58_psk_context_violated' depends on axioms: [propext, Classical.choice, Quot.sound]
'Verif.Props.C58_psk_replay_violated' depends on axioms: [propext, Classical.choice, Quot.sound]
'Verif.Props.C59_digests_partial' depends on axioms: [propext, Classical.choice, Quot.sound]
'Verif.Props.C59_certificate' depends on axioms: [propext, Classical.choice, Quot.sound]
'Verif.Props.C59_measurements' depends on axioms: [propext, Classical.choice, Quot.sound]
'Verif.Props.C59_transcript' depends on axioms: [propext, Classical.choice, Quot.sound]
'Verif.Props.C59_start' depends on axioms: [propext, Classical.choice, Quot.sound]
'Verif.Props.C59_refused_violated' depends on axioms: [propext, Classical.choice, Quot.sound]
'Verif.Props.C60_plain' depends on axioms: [propext, Classical.choice, Quot.sound]
'Verif.Props.C60_secured' depends on axioms: [propext, Classical.choice, Quot.sound]
'Verif.Props.C60_served' depends on axioms: [propext, Classical.choice, Quot.sound]
'Verif.Props.C60_truncated_violated' depends on axioms: [propext, Classical.choice, Quot.sound]
'Verif.Props.C60_session_violated' depends on axioms: [propext, Quot.sound]
'Verif.Props.C60_forgets_violated' depends on axioms: [propext, Quot.sound]
'Verif.Props.C60_request' depends on axioms: [propext, Classical.choice, Quot.sound]
'Verif.Props.C60_vendor_violated' depends on axioms: [propext, Quot.sound]
'Verif.Props.C55_packets' depends on axioms: [propext, Classical.choice, Quot.sound]
'Verif.Props.C55_progress_partial' depends on axioms: [propext, Classical.choice, Quot.sound]
'Verif.Props.C55_endless_violated' depends on axioms: [propext, Classical.choice, Quot.sound]
'Verif.Props.C55_honest' depends on axioms: [propext, Classical.choice, Quot.sound]
'Verif.Props.C55_honest_case' depends on axioms: [propext, Classical.choice, Quot.sound]
'Verif.Props.C55_stalling_violated' depends on axioms: [propext, Classical.choice, Quot.sound]
'Verif.Props.C61_update' depends on axioms: [propext, Classical.choice, Quot.sound]
'Verif.Props.C61_whole' depends on axioms: [propext, Classical.choice, Quot.sound]
'Verif.Props.C61_refused' depends on axioms: [propext, Classical.choice, Quot.sound]
'Verif.Props.C61_failed_partial' depends on axioms: [propext, Classical.choice, Quot.sound]
'Verif.Props.C61_case' depends on axioms: [propext, Classical.choice, Quot.sound]
'Verif.Props.C61_no_rollback_violated' depends on axioms: [propext, Classical.choice, Quot.sound]
'Verif.Props.C61_other_ack_violated' depends on axioms: [propext, Classical.choice, Quot.sound]
'Verif.Props.C62_reading_partial' depends on axioms: [propext, Quot.sound]
'Verif.Props.C62_twelve_violated' depends on axioms: [propext, Quot.sound]
'Verif.Props.C62_untorn' depends on axioms: [propext, Quot.sound]
'Verif.Props.C62_case' depends on axioms: [propext, Quot.sound]
'Verif.Props.C62_noon_violated' depends on axioms: [propext, Quot.sound]
'Verif.Props.C63_digest' depends on axioms: [propext]
'Verif.Props.C63_copy' depends on axioms: [propext, Quot.sound]
'Verif.Props.C63_gone' does not depend on any axioms
'Verif.Props.C63_null' does not depend on any axioms
'Verif.Props.C63_progress' depends on axioms: [propext, Quot.sound]
'Verif.Props.C63_case' depends on axioms: [propext]
'Verif.Props.C64_encrypt' depends on axioms: [propext, Quot.sound]
'Verif.Props.C64_decrypt' depends on axioms: [propext, Quot.sound]
'Verif.Props.C64_round_trip' depends on axioms: [propext, Quot.sound]
'Verif.Props.C64_unsupported' does not depend on any axioms
'Verif.Props.C64_case' depends on axioms: [propext, Quot.sound]
'Verif.Props.C65_hash' depends on axioms: [propext, Quot.sound]
'Verif.Props.C65_sizes' depends on axioms: [propext, Quot.sound]
'Verif.Props.C65_unsupported' does not depend on any axioms
'Verif.Props.C65_laws' depends on axioms: [propext, Quot.sound]
'Verif.Props.C65_case' depends on axioms: [propext, Quot.sound]
'Verif.Props.C66_random' depends on axioms: [propext, Classical.choice, Quot.sound]
'Verif.Props.C66_case' depends on axioms: [propext, Quot.sound]
'Verif.Props.C67_split' depends on axioms: [propext, Quot.sound]
'Verif.Props.C67_chain' depends on axioms: [propext, Quot.sound]
'Verif.Props.C67_signature' depends on axioms: [propext, Classical.choice, Quot.sound]
'Verif.Props.C67_accepts' depends on axioms: [propext, Classical.choice, Quot.sound]
'Verif.Props.C67_same_leaf_partial' depends on axioms: [propext, Classical.choice, Quot.sound]
'Verif.Props.C67_leaf_violated' depends on axioms: [propext, Classical.choice, Quot.sound]
'Verif.Props.C67_impersonation_violated' depends on axioms: [propext, Quot.sound]
'Verif.Props.C67_sha512_violated' depends on axioms: [propext, Quot.sound]
'Verif.Props.C67_size' depends on axioms: [propext]
'Verif.Props.C67_case' depends on axioms: [propext]
'Verif.Props.C68_iff' depends on axioms: [propext, Classical.choice, Quot.sound]
'Verif.Props.C68_else_fails' depends on axioms: [propext, Classical.choice, Quot.sound]
'Verif.Props.C68_mctp' depends on axioms: [propext, Classical.choice, Quot.sound]
'Verif.Props.C68_pcidoe' depends on axioms: [propext, Classical.choice, Quot.sound]
'Verif.Props.C68_small_violated' depends on axioms: [propext, Quot.sound]
'Verif.Props.C69_layout' depends on axioms: [propext, Classical.choice, Quot.sound]
'Verif.Props.C69_round_trip' depends on axioms: [propext, Quot.sound]
'Verif.Props.C69_decoders_total' depends on axioms: [propext, Quot.sound]
'Verif.Props.C70_answers' depends on axioms: [propext, Classical.choice, Quot.sound]
'Verif.Props.C70_total' depends on axioms: [propext, Classical.choice, Quot.sound]
'Verif.Props.C70_several_violated' depends on axioms: [propext, Classical.choice, Quot.sound]
'Verif.Props.C71_gate' depends on axioms: [propext, Quot.sound]
'Verif.Props.C71_only_serves' depends on axioms: [propext, Classical.choice, Quot.sound]
'Verif.Props.C71_success' depends on axioms: [propext, Classical.choice, Quot.sound]
'Verif.Props.C71_version11_violated' depends on axioms: [propext, Quot.sound]
'Verif.Props.C72_chains' depends on axioms: [propext, Classical.choice, Quot.sound]
'Verif.Props.C72_step' depends on axioms: [propext, Classical.choice, Quot.sound]
'Verif.Props.C72_only' depends on axioms: [propext, Classical.choice, Quot.sound]
'Verif.Props.C73_unchecked_violated' depends on axioms: [propext, Classical.choice, Quot.sound]
'Verif.Props.C73_sessions_violated' depends on axioms: [propext, Classical.choice, Quot.sound]
'Verif.Props.C73_garbled_violated' depends on axioms: [propext, Classical.choice, Quot.sound]
'Verif.Props.C74_mutual_partial' depends on axioms: [propext, Classical.choice, Quot.sound]
'Verif.Props.C74_in_clear_violated' depends on axioms: [propext, Classical.choice, Quot.sound]
'Verif.Props.C74_retry_violated' depends on axioms: [propext, Classical.choice, Quot.sound]
'Verif.Props.C74_algorithm_violated' depends on axioms: [propext, Classical.choice, Quot.sound]
'Verif.Props.C75_no_panic' depends on axioms: [propext, Classical.choice, Quot.sound]
'Verif.Props.C75_mctp' depends on axioms: [propext, Classical.choice, Quot.sound]
'Verif.Props.C75_pci_doe' depends on axioms: [propext, Classical.choice, Quot.sound]
'Verif.Props.C75_survives' depends on axioms: [propext, Classical.choice, Quot.sound]
'Verif.Props.C75_case' depends on axioms: [propext, Classical.choice, Quot.sound]
'Verif.Props.C75_no_signature_violated' depends on axioms: [propext, Classical.choice, Quot.sound]
'Verif.Props.C75_no_dhe_violated' depends on axioms: [propext, Classical.choice, Quot.sound]
'Verif.Props.C75_no_aead_violated' depends on axioms: [propext, Classical.choice, Quot.sound]
'Verif.Props.C75_no_hash_violated' depends on axioms: [propext, Classical.choice, Quot.sound]
'Verif.Props.C75_no_measurement_violated' depends on axioms: [propext, Classical.choice, Quot.sound]
'Verif.Props.C75_doe_violated' depends on axioms: [propext, Classical.choice, Quot.sound]
'Verif.Props.C75_doe_record_violated' depends on axioms: [propext, Classical.choice, Quot.sound]
'Verif.Props.C76_connect' depends on axioms: [propext, Classical.choice, Quot.sound]
'Verif.Props.C76_outside' depends on axioms: [propext, Classical.choice, Quot.sound]
'Verif.Props.C76_answered' depends on axioms: [propext, Classical.choice, Quot.sound]
'Verif.Props.C76_case' depends on axioms: [propext, Classical.choice, Quot.sound]
'Verif.Props.C76_measurements_violated' depends on axioms: [propext, Classical.choice, Quot.sound]
'Verif.Props.C76_inside' depends on axioms: [propext, Classical.choice, Quot.sound]
'Verif.Props.C76_inside_case' depends on axioms: [propext, Classical.choice, Quot.sound]
'Verif.Props.C76_finish_violated' depends on axioms: [propext, Classical.choice, Quot.sound]
'Verif.Props.C76_starting' depends on axioms: [propext, Classical.choice, Quot.sound]
'Verif.Props.C76_starting_case' depends on axioms: [propext, Classical.choice, Quot.sound]
