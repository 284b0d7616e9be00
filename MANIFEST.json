{"claims": [
{"property": "C01", "status": "proved", "theorems": ["Verif.C01_pack_unpack", "Verif.C01_pack_fails_iff", "Verif.C01_pack_length", "Verif.C01_pack_injective", "Verif.C01_layout", "Verif.C01_read"], "note": "Round-trip with trailing bytes, failure exactly when a field does not fit, injectivity."},
{"property": "C02", "status": "proved", "theorems": ["Verif.C02_fragment_reassemble", "Verif.C02_nothing_before_last"], "note": "Any grouping into receives; nothing before the last fragment. Messages are non-empty (a packed message has a 40 byte header) and shorter than 2^32."},
{"property": "C03", "status": "proved", "theorems": ["Verif.C03_well_formed", "Verif.C03_ids_fresh"], "note": "Over any sequence of single sends and batches on one fragmenter."},
{"property": "C04", "status": "proved", "theorems": ["Verif.C04_block_size"], "note": "Over any sequence of single sends and batches; the property after version negotiation is C08."},
{"property": "C05", "status": "proved", "theorems": ["Verif.C05_batch_delivery"], "note": "Any grouping of blocks into receives."},
{"property": "C06", "status": "proved", "theorems": ["Verif.C06_interleaved", "Verif.C06_interleaved_wire"], "note": "Any interleaving and grouping."},
{"property": "C07", "status": "proved", "theorems": ["Verif.C07_accepts_iff", "Verif.C07_rejects", "Verif.C07_delivers_runs", "Verif.C07_runs_in_order", "Verif.C07_count", "Verif.C07_repeated_start_false", "Verif.C07_truncated_body_false"], "note": "Under the start-flag condition named in the property; without it the claim is false (C07_repeated_start_false). A truncated body is accepted (C07_truncated_body_false)."},
{"property": "C08", "status": "partial", "theorems": ["Verif.C08_overrun_at_most_header_partial", "Verif.C08_overrun_false", "Verif.C08_envelope_still_fits"], "note": "False after the limits are raised: blocks overrun the payload limit by the 21 byte header (C08_overrun_false). Proved: the overrun is at most 21 bytes and the envelope limit still holds."},
{"property": "C09", "status": "partial", "theorems": ["Verif.C09_open_delivers_partial", "Verif.C09_open_loses_data_false"], "note": "False when the two opening messages do not fit one block: the rest is never sent (C09_open_loses_data_false). Proved when they fit."},
{"property": "C10", "status": "proved", "theorems": ["Verif.C10_roundtrip", "Verif.C10_byte_order_mark", "Verif.C10_layout", "Verif.C10_accepts_iff", "Verif.C10_bodies"], "note": "Body kept as bytes; the client's bodies do not start with a byte order mark."},
{"property": "C11", "status": "proved", "theorems": ["Verif.C11_sent_number", "Verif.C11_numbers_distinct", "Verif.C11_received_number"], "note": ""},
{"property": "C12", "status": "proved", "theorems": ["Verif.C12_pointwise", "Verif.C12_no_control_characters", "Verif.C12_xml_characters_partial", "Verif.C12_noncharacters_false"], "note": "The claim as stated. U+FFFE and U+FFFF pass unescaped although XML cannot carry them (C12_noncharacters_false), so the stronger reading is only partial."},
{"property": "C13", "status": "partial", "theorems": ["Verif.C13_roundtrip_partial", "Verif.C13_roundtrip_iff", "Verif.C13_roundtrip_common_partial", "Verif.C13_shifted_false"], "note": "False in full: eight characters U+xx00 U+5F00 U+78xx ... are misread across code unit boundaries (C13_shifted_false). Proved as an exact characterisation (C13_roundtrip_iff); every string without U+5F00 survives."},
{"property": "C14", "status": "proved", "theorems": ["Verif.C14_decode"], "note": "\"Looks like an escape\" is the reader's own byte level notion (LooksEscaped and its shifted variant)."},
{"property": "C15", "status": "partial", "theorems": ["Verif.C15_roundtrip_partial", "Verif.C15_roundtrip_any_state_partial", "Verif.C15_nested_list_false", "Verif.C15_dict_in_list_false", "Verif.C15_empty_bytes_false"], "note": "Round trip proved for every nested value made of scalars, lists of scalars and dictionaries of any depth. False of the code for containers directly inside a list, for b\"\" and for the strings excluded in C13; negations proved."},
{"property": "C16", "status": "proved", "theorems": ["Verif.C16_reference_ids", "Verif.C16_object_references"], "note": "For every modelled value and metadata; references to objects are covered as well. The XML text layer is not modelled."},
{"property": "C17", "status": "partial", "theorems": ["Verif.C17_type_names_partial", "Verif.C17_type_names_false"], "note": "Proved when type lists that share their first name are equal. False otherwise because type names are keyed on the first name; negation proved."},
{"property": "C18", "status": "partial", "theorems": ["Verif.C18_queue_partial", "Verif.C18_mixed_queue_false", "Verif.C18_queue_drained_false", "Verif.C18_stack_partial", "Verif.C18_stack_reversed_false", "Verif.C18_stack_drained_false"], "note": "Proved for queues of one scalar kind; stacks proved to come back reversed. Mixed kinds, order of stacks and the caller's collection: negations proved."},
{"property": "C19", "status": "proved", "theorems": ["Verif.C19_whole_blocks", "Verif.C19_roundtrip", "Verif.C19_only", "Verif.C19_no_key"], "note": "For every text and session key: round trip through PKCS7 and UTF-16LE, ciphertext in whole blocks, refused without a key. AES is an arbitrary invertible block cipher on whole blocks."},
{"property": "C20", "status": "proved", "theorems": ["Verif.C20_blob", "Verif.C20_exponent_too_big", "Verif.C20_session_key"], "note": "Blob fields for every modulus below 2^2048; RSA decryption is an arbitrary function undone by the key owner."},
{"property": "C21", "status": "partial", "theorems": ["Verif.C21_roundtrip_partial", "Verif.C21_marker_false", "Verif.C21_boundary_false", "Verif.C21_padding_false"], "note": "Round trip for every body, protocol and number of chunks, for sealing functions without padding whose output contains neither the boundary nor the marker line. The claim is false without these (C21_marker_false, C21_boundary_false, C21_padding_false)."},
{"property": "C22", "status": "proved", "theorems": ["Verif.C22_chunks"], "note": ""},
{"property": "C23", "status": "proved", "theorems": ["Verif.C23_wrong_length", "Verif.C23_error_kind", "Verif.C23_any_body", "Verif.C23_pieces"], "note": "For every body of clean parts, and for arbitrary bytes as: when unwrapping returns, every part had its declared length."},
{"property": "C24", "status": "proved", "theorems": ["Verif.C24_numeric_order", "Verif.C24_reflexive", "Verif.C24_transitive", "Verif.C24_total", "Verif.C24_antisymmetric", "Verif.C24_empty_rejected", "Verif.C24_all_texts"], "note": ""},
{"property": "C25", "status": "partial", "theorems": ["Verif.C25_code_lines_partial", "Verif.C25_lines", "Verif.C25_one_line_block_false", "Verif.C25_only_code"], "note": "Holds when no line closes a block comment after code or opens one after code; a one-line block comment swallows the following code (C25_one_line_block_false)."},
{"property": "C26", "status": "proved", "theorems": ["Verif.C26_open", "Verif.C26_close", "Verif.C26_close_unopened", "Verif.C26_connect", "Verif.C26_disconnect", "Verif.C26_reset", "Verif.C26_metadata", "Verif.C26_open_state", "Verif.C26_close_state", "Verif.C26_disconnect_state", "Verif.C26_connect_state"], "note": ""},
{"property": "C27", "status": "partial", "theorems": ["Verif.C27_stays_closed_partial", "Verif.C27_reopened_false", "Verif.C27_deletes", "Verif.C27_delete_once", "Verif.C27_deleted_twice_false"], "note": "C27_stays_closed_partial as long as no server message after the close gives the pool a live state; with one the pool is usable again (C27_reopened_false). C27_deletes: deletes never exceed creates, in every history. C27_delete_once unless a message says the pool is not yet opened (C27_deleted_twice_false)."},
{"property": "C28", "status": "proved", "theorems": ["Verif.C28_fresh", "Verif.C28_response", "Verif.C28_own_answer", "Verif.C28_reset_answer"], "note": ""},
{"property": "C29", "status": "proved", "theorems": ["Verif.C29_min", "Verif.C29_max"], "note": "The maximum is exact as long as no foreign availability answer is handled by get_available_runspaces."},
{"property": "C30", "status": "partial", "theorems": ["Verif.C30_max_false", "Verif.C30_limits_partial"], "note": "The minimum is unchanged and the maximum is the old one or a number the server sent (C30_limits_partial). That the maximum is unchanged is false (C30_max_false)."},
{"property": "C31", "status": "partial", "theorems": ["Verif.C31_disconnect", "Verif.C31_reconnect", "Verif.C31_round_partial", "Verif.C31_finished_false", "Verif.C31_history_false"], "note": "Disconnect marks finished pipelines as well: shown false, with the round trip for running pipelines."},
{"property": "C32", "status": "partial", "theorems": ["Verif.C32_one_key", "Verif.C32_installed_partial", "Verif.C32_unfinished_false", "Verif.C32_unfinished_ignored"], "note": "An unfinished exchange blocks later ones: shown false."},
{"property": "C33", "status": "partial", "theorems": ["Verif.C33_ignored_false", "Verif.C33_history_false", "Verif.C33_explicit_partial"], "note": "A server key request is ignored by the client: shown false."},
{"property": "C34", "status": "partial", "theorems": ["Verif.C34_is_alive_partial", "Verif.C34_close_after_dead", "Verif.C34_read_timeout_false"], "note": "C34_is_alive_partial for every outcome of the shell query but an HTTP read timeout, which is raised (C34_read_timeout_false). C34_close_after_dead holds in full."},
{"property": "C35", "status": "proved", "theorems": ["Verif.C35_begin_invoke", "Verif.C35_stop", "Verif.C35_close", "Verif.C35_connect", "Verif.C35_nested", "Verif.C35_stop_state", "Verif.C35_connect_state"], "note": ""},
{"property": "C36", "status": "proved", "theorems": ["Verif.C36_polls", "Verif.C36_end_invoke", "Verif.C36_grouping", "Verif.C36_host", "Verif.C36_streams"], "note": "C36_streams is for all histories; C36_polls and C36_host are for polls that returned normally."},
{"property": "C37", "status": "partial", "theorems": ["Verif.C37_lost_false", "Verif.C37_silent_false", "Verif.C37_raise_partial"], "note": "A handler exception loses output of the same receive: shown false."},
{"property": "C38", "status": "proved", "theorems": ["Verif.C38_answers"], "note": ""},
{"property": "C39", "status": "partial", "theorems": ["Verif.C39_input_partial", "Verif.C39_prefix", "Verif.C39_invoke_partial", "Verif.C39_empty_generator_false", "Verif.C39_none_false", "Verif.C39_no_input_false"], "note": "Empty generator, None in a generator and falsy input: shown false."},
{"property": "C40", "status": "partial", "theorems": ["Verif.C40_reused_false", "Verif.C40_any_failed_partial", "Verif.C40_new"], "note": "had_errors is never reset: shown false."},
{"property": "C41", "status": "proved", "theorems": ["Verif.C41_registry", "Verif.C41_invoke", "Verif.C41_dropped", "Verif.C41_failed_start"], "note": "A start that failed stays registered and is a finding in DESIGN.md."},
{"property": "C42", "status": "partial", "theorems": ["Verif.C42_stuck_false", "Verif.C42_retry_partial"], "note": "A failed stop signal leaves the pipeline stopping: shown false."},
{"property": "C43", "status": "proved", "theorems": ["Verif.C43_supported", "Verif.C43_unsupported", "Verif.C43_raises", "Verif.C43_error", "Verif.C43_error_target", "Verif.C43_all", "Verif.C43_unnegotiated", "Verif.C43_history"], "note": "Holds once a version is negotiated; without one merge_all raises after it has set the redirection of errors (C43_unnegotiated)."},
{"property": "C44", "status": "proved", "theorems": ["Verif.C44_statements", "Verif.C44_empty", "Verif.C44_round_trip", "Verif.C44_build"], "note": "The encoding of a single command is not part of this model."},
{"property": "C45", "status": "proved", "theorems": ["Verif.C45_round_trip", "Verif.C45_empty", "Verif.C45_resend"], "note": "Empty dimensions cannot be sent (C45_empty); a received array cannot be sent again before it was read (C45_resend)."},
{"property": "C46", "status": "partial", "theorems": ["Verif.C46_bounded_partial", "Verif.C46_receive_false", "Verif.C46_aborted_false"], "note": "Per request the budget bounds the attempts and the last error is raised (C46_bounded_partial). False as stated: a receive repeats connect timeouts five more times whatever the budget (C46_receive_false), and a connection lost after sending raises at once (C46_aborted_false)."},
{"property": "C47", "status": "proved", "theorems": ["Verif.C47_sealed", "Verif.C47_plain"], "note": "Over all histories of a transport. The CredSSP handshake itself is done by an external package and not modelled; the sealing of CredSSP is covered by C22."},
{"property": "C48", "status": "proved", "theorems": ["Verif.C48_settings"], "note": ""},
{"property": "C49", "status": "proved", "theorems": ["Verif.C49_accepted", "Verif.C49_decided"], "note": ""},
{"property": "C50", "status": "proved", "theorems": ["Verif.C50_payload_fits", "Verif.C50_limit_tight"], "note": ""},
{"property": "C51", "status": "partial", "theorems": ["Verif.C51_error", "Verif.C51_plain", "Verif.C51_unauthorized", "Verif.C51_fault_partial", "Verif.C51_document_false"], "note": "False for an error response with an XML document that has no fault: a fault without code is raised and the status is lost (C51_document_false). Fault documents, other texts and 401 behave as stated."},
{"property": "C52", "status": "proved", "theorems": ["Verif.C52_readTimeout"], "note": ""},
{"property": "C53", "status": "partial", "theorems": ["Verif.C53_log_partial", "Verif.C53_turns_partial", "Verif.C53_idle", "Verif.C53_malformed_false", "Verif.C53_selectors", "Verif.C53_stale_false"], "note": "C53_log_partial and C53_turns_partial cover every history of open and close calls with any outcomes, for create responses whose selectors have names; C53_malformed_false shows a shell that is created and never deleted otherwise. C53_selectors: the delete names the selectors of the response. C53_stale_false: a response without selectors keeps the old ones."},
{"property": "C54", "status": "partial", "theorems": ["Verif.C54_output", "Verif.C54_polls", "Verif.C54_rc_partial", "Verif.C54_rc_false"], "note": "C54_output and C54_polls hold for every grouping, interleaving and number of timeouts. The exit code is the one of the last response (C54_rc_partial); one reported earlier is overwritten by None (C54_rc_false)."},
{"property": "C55", "status": "partial", "theorems": ["Verif.C55_items_partial", "Verif.C55_installed_partial", "Verif.C55_small_false", "Verif.C55_negative_false"], "note": "C55_items_partial and C55_installed_partial for every file and every payload limit of at least 84 bytes. Below that the buffer size is 0 and a file is sent as an empty one (C55_small_false), or negative and the file is sent in one item (C55_negative_false)."},
{"property": "C56", "status": "partial", "theorems": ["Verif.C56_replaced", "Verif.C56_kept", "Verif.C56_success", "Verif.C56_temp_partial", "Verif.C56_temp_false", "Verif.C56_lost"], "note": "C56_replaced, C56_kept and C56_success for all items and faults. The temporary file is removed for all items in base64 (C56_temp_partial); an item that is not leaves it (C56_temp_false). C56_lost: the old file is deleted before the move, which may fail."},
{"property": "C57", "status": "partial", "theorems": ["Verif.C57_installed", "Verif.C57_bytes_partial", "Verif.C57_write_false", "Verif.C57_temp_partial", "Verif.C57_temp_false"], "note": "C57_installed for every output and fault. The installed bytes are the decoded ones if os.write writes all of them (C57_bytes_partial); its result is not checked (C57_write_false). The temporary file is removed unless closing or removing it fails (C57_temp_partial, C57_temp_false)."},
{"property": "C58", "status": "partial", "theorems": ["Verif.C58_stored_partial", "Verif.C58_exact", "Verif.C58_empty_false", "Verif.C58_read_false"], "note": "C58_exact: for all reads a fetch that succeeds has stored the file, up to an explicit SHA1 collision. C58_stored_partial: it succeeds for files that are not empty and read at once. Empty files (C58_empty_false) and partial reads (C58_read_false) fail."},
{"property": "C59", "status": "partial", "theorems": ["Verif.C59_scheme_partial", "Verif.C59_ntlm_false", "Verif.C59_realm", "Verif.C59_sealing"], "note": "False for the provider ntlm when the server offers Kerberos and NTLM (C59_ntlm_false); true in all other cases. An offer is the name anywhere in the header (C59_realm)."},
{"property": "C60", "status": "proved", "theorems": ["Verif.C60_exchange", "Verif.C60_fresh", "Verif.C60_server_token", "Verif.C60_no_token", "Verif.C60_other_scheme"], "note": "C60_exchange for all contexts and outcomes; C60_other_scheme shows that the token is taken from the first of the three schemes in the header."},
{"property": "C61", "status": "partial", "theorems": ["Verif.C61_scoped_partial", "Verif.C61_restored_partial", "Verif.C61_reentered_false"], "note": "Proved for proper use of scope objects; entering the same object again while it is open breaks the claim (C61_reentered_false)."},
{"property": "C62", "status": "proved", "theorems": ["Verif.C62_method", "Verif.C62_ids", "Verif.C62_absent", "Verif.C62_above", "Verif.C62_below", "Verif.C62_default", "Verif.C62_no_host"], "note": "For every host (any methods, with or without user interfaces). C62_no_host: without a host an unknown id fails the receive, because the log line formats the method name."},
{"property": "C63", "status": "proved", "theorems": ["Verif.C63_stream_options", "Verif.C63_command_types", "Verif.C63_stream_options_injective", "Verif.C63_command_types_injective", "Verif.C63_unset"], "note": "Values are natural numbers."},
{"property": "C64", "status": "proved", "theorems": ["Verif.C64_output", "Verif.C64_null", "Verif.C64_labels"], "note": "For text arguments that are strings; C64_null: a null line raises TypeError and writes nothing. Concerns the default host."},
{"property": "C65", "status": "proved", "theorems": ["Verif.C65_endpoint"], "note": "The standard library's IPv6 parser is a parameter; host names contain no colon and do not start with a bracket."},
{"property": "C66", "status": "partial", "theorems": ["Verif.C66_deleted_partial", "Verif.C66_sent", "Verif.C66_rc", "Verif.C66_signal_false", "Verif.C66_open_false", "Verif.C66_rc_false"], "note": "C66_rc for every successful run. C66_deleted_partial for every failure point after the open. False parts: the process is not ended on failure (C66_signal_false), a malformed create response leaves the shell (C66_open_false), -1 despite an earlier code (C66_rc_false)."},
{"property": "C67", "status": "proved", "theorems": ["Verif.C67_statements"], "note": "For every environment, script and negotiated protocol version."},
{"property": "C68", "status": "proved", "theorems": ["Verif.C68_raised_exactly_when"], "note": ""},
{"property": "C69", "status": "proved", "theorems": ["Verif.C69_raw"], "note": ""},
{"property": "C70", "status": "proved", "theorems": ["Verif.C70_request"], "note": ""},
{"property": "C71", "status": "proved", "theorems": ["Verif.C71_input"], "note": ""},
{"property": "C72", "status": "partial", "theorems": ["Verif.C72_again_partial", "Verif.C72_idle_false", "Verif.C72_id_false"], "note": "Proved for shells without an id of their own and responses that report no idle timeout and repeat resource and streams if they name them. False otherwise: C72_idle_false, C72_id_false."},
{"property": "C73", "status": "partial", "theorems": ["Verif.C73_plain", "Verif.C73_lines_partial", "Verif.C73_malformed", "Verif.C73_joined_false"], "note": "Proved for lines that do not make an escape where they meet and without the pattern of C13. False otherwise: C73_joined_false. The XML parser is an arbitrary function."},
{"property": "C74", "status": "partial", "theorems": ["Verif.C74_send_partial", "Verif.C74_command_partial", "Verif.C74_create_partial", "Verif.C74_create_false", "Verif.C74_configuration_false", "Verif.C74_blocks_partial"], "note": "Proved for configuration names up to 217 bytes (send), 71 bytes (command), 116 bytes (create, less with no_profile or an idle timeout), ids of up to 36 bytes. False otherwise: C74_create_false, C74_configuration_false."},
{"property": "C75", "status": "proved", "theorems": ["Verif.C75_headers", "Verif.C75_contents"], "note": ""},
{"property": "C76", "status": "proved", "theorems": ["Verif.C76_command", "Verif.C76_receive", "Verif.C76_send", "Verif.C76_signal", "Verif.C76_delete", "Verif.C76_create", "Verif.C76_pool_create"], "note": ""},
{"property": "C77", "status": "partial", "theorems": ["Verif.C77_read_partial", "Verif.C77_request_partial", "Verif.C77_carriage_return_false", "Verif.C77_control_false"], "note": "Proved for texts of characters that XML has and without carriage returns. False otherwise: C77_carriage_return_false, C77_control_false. The reader is a specification of the part of XML 1.0 that is needed."},
{"property": "C78", "status": "partial", "theorems": ["Verif.C78_wait_partial", "Verif.C78_zero_false", "Verif.C78_default_false"], "note": "Proved for timeouts other than 0; the relation of read timeout and operation timeout is not enforced: C78_zero_false, C78_default_false."},
{"property": "C79", "status": "partial", "theorems": ["Verif.C79_roundtrip_partial", "Verif.C79_classes", "Verif.C79_host_false", "Verif.C79_error_false", "Verif.C79_parameters_false", "Verif.C79_time_false", "Verif.C79_bool_false"], "note": "Proved for 46 of the 50 classes of the table (all but HostInfo, its data and the two error records, which are false: C79_host_false, C79_error_false) and for attributes that are None, text, characters, booleans, integers, non-empty bytes, GUIDs, undecoded texts, plain values, lists, dictionaries and objects of readable classes. Missing: bound parameters (false, C79_parameters_false), DateTimes (false, C79_time_false), floats, secure strings, generic objects as attributes."},
{"property": "C80", "status": "proved", "theorems": ["Verif.C80_read", "Verif.C80_missing", "Verif.C80_unknown", "Verif.C80_types_false", "Verif.C80_types_defined", "Verif.C80_order_false", "Verif.C80_reference_false"], "note": "For all documents. The limits of reading in class order (type names in skipped or later elements, objects by reference) are proved as C80_types_false, C80_order_false and C80_reference_false."},
{"property": "C81", "status": "partial", "theorems": ["Verif.C81_constructed_partial", "Verif.C81_received_partial", "Verif.C81_error_false", "Verif.C81_culture_false"], "note": "Proved for all classes but error records and cultures, of which it is false (C81_error_false, C81_culture_false, for all arguments), and host information, which is computed (C82). C81_received_partial has the limits of C79."},
{"property": "C82", "status": "proved", "theorems": ["Verif.C82_arrives", "Verif.C82_unnamed"], "note": "Values are read back through the model of the serializer and deserializer; XML text as in C12 and C77."},
{"property": "C83", "status": "partial", "theorems": ["Verif.C83_arrives_partial", "Verif.C83_built_partial", "Verif.C83_empty", "Verif.C83_apartment_false", "Verif.C83_shared_false"], "note": "Proved for plain parameter values (scalars, lists of scalars, dictionaries), any sequence of building calls, any host and version. Missing: objects as parameter values, which is false when one is used twice, and the state STA when the pool has another one, which is false of the code."},
{"property": "C84", "status": "partial", "theorems": ["Verif.C84_document", "Verif.C84_text", "Verif.C84_class", "Verif.C84_message", "Verif.C84_input_partial", "Verif.C84_output", "Verif.C84_object_partial", "Verif.C84_key_request", "Verif.C84_open", "Verif.C84_start_partial", "Verif.C84_end_false", "Verif.C84_connect_false", "Verif.C84_nested_false"], "note": "Proved for every document of the serializer without forbidden characters: packed, fragmented, reassembled, decoded and parsed to the same document (C84_document, C84_message); values for plain input and output, attributes for the 26 kinds whose class can be read (C84_object_partial). Missing: END_OF_PIPELINE_INPUT and CONNECT_RUNSPACEPOOL without limits (false), nested output objects without mandatory properties (false), and what C15, C79 and C83 miss."},
{"property": "C85", "status": "partial", "theorems": ["Verif.C85_found", "Verif.C85_connect_partial", "Verif.C85_cycle", "Verif.C85_pipeline", "Verif.C85_close", "Verif.C85_data_partial", "Verif.C85_data_false", "Verif.C85_configuration_false", "Verif.C85_kind_false", "Verif.C85_unnamed_false", "Verif.C85_command_false", "Verif.C85_rest_false", "Verif.C85_state"], "note": "proved for all listings, answers and requests: the pools found, the requests sent, connecting, disconnecting, reconnecting, closing and connecting a pipeline; the connection data arrives if each message fits one block. Missing, because false of the code: the configuration of the shell, shells of other kinds, requests before connecting, the server's command id, long listings, longer messages (each refuted)."},
{"property": "C86", "status": "partial", "theorems": ["Verif.C86_complete", "Verif.C86_verification_partial", "Verif.C86_verification_false", "Verif.C86_proxy", "Verif.C86_negotiate_partial", "Verif.C86_service_false", "Verif.C86_credssp", "Verif.C86_certificate_partial", "Verif.C86_basic_partial", "Verif.C86_basic_false", "Verif.C86_netrc_false", "Verif.C86_unasked", "Verif.C86_always"], "note": "Session set up from the arguments, as requests uses it. Missing where false: verification with None or an empty path, the documented service, netrc with certificates, basic credentials outside Latin-1 or with a colon in the name."},
{"property": "C87", "status": "partial", "theorems": ["Verif.C87_connections_partial", "Verif.C87_proxy_false", "Verif.C87_place_partial", "Verif.C87_redirect_false"], "note": "Without a proxy, after any proper run of scopes, a connection is refused exactly while disabled. False through a proxy and for redirects."},
{"property": "C88", "status": "partial", "theorems": ["Verif.C88_found_partial", "Verif.C88_idn_false", "Verif.C88_settings", "Verif.C88_bindings", "Verif.C88_redirect_false"], "note": "Context arguments, host and channel binding proved for ASCII names and IPv6 addresses. False for names outside ASCII and after redirects; zones and credentials in addresses are not modelled."},
{"property": "C89", "status": "partial", "theorems": ["Verif.C89_learned_partial", "Verif.C89_given", "Verif.C89_error", "Verif.C89_absent_false", "Verif.C89_stale_false", "Verif.C89_raised_false"], "note": "proved for all texts of whole numbers, given limits and errors; false without a limit in the answer, for pools made before, and for 150 KiB with protocol 2.2"},
{"property": "C90", "status": "partial", "theorems": ["Verif.C90_fault_partial", "Verif.C90_contains", "Verif.C90_server_partial", "Verif.C90_zero_false", "Verif.C90_comma_false", "Verif.C90_transport", "Verif.C90_state_partial", "Verif.C90_state_false", "Verif.C90_pipeline_false", "Verif.C90_script", "Verif.C90_script_fine"], "note": "proved for details without commas, for status and content, for states with names, for scripts; false for code 0, commas, unnamed states"},
{"property": "C91", "status": "partial", "theorems": ["Verif.C91_pool_partial", "Verif.C91_pool_exit", "Verif.C91_pipe_exit", "Verif.C91_open_false", "Verif.C91_broken_false", "Verif.C91_masked_false", "Verif.C91_execute", "Verif.C91_execute_partial"], "note": "Any program as body; the shell is deleted and the result is the body's, execute_ps is exact. Missing because false of the code: opening that fails after the shell was made, pools called broken by the server, pipelines that still run when the statement is left."},
{"property": "C92", "status": "partial", "theorems": ["Verif.C92_pool_state", "Verif.C92_limits", "Verif.C92_capability", "Verif.C92_capability_unnamed", "Verif.C92_pipeline_state", "Verif.C92_pipeline_error", "Verif.C92_availability", "Verif.C92_session_key", "Verif.C92_output_partial", "Verif.C92_replies", "Verif.C92_returns", "Verif.C92_execute"], "note": "Bytes to messages, execute_ps on bytes, and the documents of pool state, limits, capability, pipeline state, availability and key; the objects that a script writes are in C96, host calls in C98. Missing: events as documents."},
{"property": "C93", "status": "partial", "theorems": ["Verif.C93_request", "Verif.C93_type_false", "Verif.C93_returns", "Verif.C93_failed_false", "Verif.C93_empty_false", "Verif.C93_object", "Verif.C93_convert", "Verif.C93_count_false", "Verif.C93_string_false"], "note": "Request, run and result for all inputs. Missing because false of the code: the type as an object, failed pipelines, the count, strings. A request with arguments for the server is covered by C81_received_partial only; type, output type and parameters are whatever the reader makes of these objects."},
{"property": "C94", "status": "proved", "theorems": ["Verif.C94_arguments", "Verif.C94_unsupported", "Verif.C94_identity", "Verif.C94_exit"], "note": ""},
{"property": "C95", "status": "proved", "theorems": ["Verif.C95_classes", "Verif.C95_written", "Verif.C95_mandatory", "Verif.C95_optional"], "note": ""},
{"property": "C96", "status": "partial", "theorems": ["Verif.C96_read_partial", "Verif.C96_output_partial", "Verif.C96_fallback", "Verif.C96_nested_false", "Verif.C96_enumerable_false", "Verif.C96_number_false", "Verif.C96_name_false", "Verif.C96_mixed_false"], "note": "Proved for all documents of the relation: primitives, objects, lists and dictionaries with any type names and references, as elements and as message bytes, and the fallback for incomplete objects. Missing, because false of the code: containers in arrays, enumerables, primitives with properties, escapes in names (each refuted); numbers with fractions, queues and stacks are not in the relation."},
{"property": "C97", "status": "partial", "theorems": ["Verif.C97_open", "Verif.C97_start_partial"], "note": "both messages in full for every host, pool, command list and version; parameters whose values are objects are outside, and STA for a pool with another apartment state (ignored by the code, C83_apartment_false)"},
{"property": "C98", "status": "partial", "theorems": ["Verif.C98_call", "Verif.C98_answer", "Verif.C98_silent", "Verif.C98_color_false", "Verif.C98_progress_false"], "note": "Reading and answering are proved. False of colors without a name and of the record of WriteProgress; lists and secure strings as arguments are not modelled."},
{"property": "C99", "status": "proved", "theorems": ["Verif.C99_number", "Verif.C99_base64", "Verif.C99_uuid", "Verif.C99_uuid_bytes", "Verif.C99_utf16", "Verif.C99_fields"], "note": ""},
{"property": "C100", "status": "proved", "theorems": ["Verif.C100_prefixes", "Verif.C100_namespaces", "Verif.C100_find", "Verif.C100_written", "Verif.C100_request", "Verif.C100_create", "Verif.C100_answer"], "note": ""},
{"property": "C101", "status": "proved", "theorems": ["Verif.C101_replies", "Verif.C101_execute"], "note": ""},
{"property": "C102", "status": "partial", "theorems": ["Verif.C102_pipeline", "Verif.C102_open_partial"], "note": "C102_open_partial: messages that do not fit the first block are not sent at all, C09_open_loses_data_false. The pipeline part is complete."},
{"property": "C103", "status": "proved", "theorems": ["Verif.C103_execute", "Verif.C103_documents"], "note": ""},
{"property": "C104", "status": "partial", "theorems": ["Verif.C104_token", "Verif.C104_token_false", "Verif.C104_boundary_partial", "Verif.C104_boundary_false"], "note": "the name of a scheme in another challenge hides the token; parameters after the boundary and boundaries without quotes are misread (negations proved)"},
{"property": "C105", "status": "proved", "theorems": ["Verif.C105_dotnet", "Verif.C105_decode", "Verif.C105_string", "Verif.C105_lines"], "note": "exact for the lenient decoder; CPython's binascii is the reference"},
{"property": "C106", "status": "partial", "theorems": ["Verif.C106_exit", "Verif.C106_clixml_partial", "Verif.C106_range_false", "Verif.C106_int", "Verif.C106_unique"], "note": "exact for texts with ASCII digits, exit codes and CLIXML numbers; false of ranges, which are not checked; digits outside ASCII, which Python accepts, are not modelled"}
]}
