{
 "claims": [
  {
   "property": "C01",
   "status": "proved",
   "theorems": [
    "Libsnmp.C01_length_roundtrip"
   ],
   "note": "Length octets round-trip"
  },
  {
   "property": "C02",
   "status": "proved",
   "theorems": [
    "Libsnmp.C02_length_wellformed",
    "Libsnmp.C02_bound_tight"
   ],
   "note": "Length octets are well-formed BER"
  },
  {
   "property": "C03",
   "status": "proved",
   "theorems": [
    "Libsnmp.C03_decodeLength_exact",
    "Libsnmp.C03_decodeLength_error"
   ],
   "note": "decodeLength is exactly the definite-length rule"
  },
  {
   "property": "C04",
   "status": "proved",
   "theorems": [
    "Libsnmp.C04_decodeTag_field",
    "Libsnmp.C04_decodeTag_exact",
    "Libsnmp.C04_high_form_aliases"
   ],
   "note": "decodeTag reads one identifier and no more"
  },
  {
   "property": "C05",
   "status": "proved",
   "theorems": [
    "Libsnmp.C05_identifier_table",
    "Libsnmp.C05_identifier_exceptions",
    "Libsnmp.C05_user_low",
    "Libsnmp.C05_user_high_diverges"
   ],
   "note": "Table over all classes by kernel evaluation; the exceptions to the RFC octets are part of the statement and proved."
  },
  {
   "property": "C06",
   "status": "proved",
   "theorems": [
    "Libsnmp.C06_int_decode"
   ],
   "note": "Integer contents decode as two's complement"
  },
  {
   "property": "C07",
   "status": "proved",
   "theorems": [
    "Libsnmp.C07_decoders_agree"
   ],
   "note": "The four integer decoders agree"
  },
  {
   "property": "C08",
   "status": "proved",
   "theorems": [
    "Libsnmp.C08_int_roundtrip_iff",
    "Libsnmp.C08_int_band",
    "Libsnmp.C08_int_roundtrip_nonneg",
    "Libsnmp.C08_int_roundtrip_false"
   ],
   "note": "Expected property is false: C08_int_roundtrip_false gives the witness, C08_int_roundtrip_iff the exact region, C08_int_band what happens outside it."
  },
  {
   "property": "C09",
   "status": "proved",
   "theorems": [
    "Libsnmp.C09_int_minimal",
    "Libsnmp.C09_int_sizes"
   ],
   "note": "Integer contents are minimal octets"
  },
  {
   "property": "C10",
   "status": "proved",
   "theorems": [
    "Libsnmp.C10_counter_element",
    "Libsnmp.C10_counter64_element",
    "Libsnmp.C10_counter_decode",
    "Libsnmp.C10_counter_decode_any"
   ],
   "note": "Holds for contents of at most 4 octets; C10_counter_decode_any and C10_counter64_element state what happens for longer contents."
  },
  {
   "property": "C11",
   "status": "proved",
   "theorems": [
    "Libsnmp.C11_oid_roundtrip_iff"
   ],
   "note": "iff characterisation of the identifiers that survive; outside it the decoder raises NotImplementedError or returns another list."
  },
  {
   "property": "C12",
   "status": "proved",
   "theorems": [
    "Libsnmp.C12_oid_encode_errors"
   ],
   "note": "ObjectID encoding errors"
  },
  {
   "property": "C13",
   "status": "proved",
   "theorems": [
    "Libsnmp.C13_oid_decode_ok",
    "Libsnmp.C13_oid_decode_error"
   ],
   "note": "ObjectID contents decode exactly per X.690 groups"
  },
  {
   "property": "C14",
   "status": "proved",
   "theorems": [
    "Libsnmp.C14_oid_reencode_iff"
   ],
   "note": "ObjectID re-encoding"
  },
  {
   "property": "C15",
   "status": "proved",
   "theorems": [
    "Libsnmp.C15_oid_str",
    "Libsnmp.C15_oid_parse",
    "Libsnmp.C15_oid_text_round_trip",
    "Libsnmp.C15_oid_str_injective"
   ],
   "note": "ObjectID text round-trip"
  },
  {
   "property": "C16",
   "status": "proved",
   "theorems": [
    "Libsnmp.C16_oid_text_accepted_iff",
    "Libsnmp.C16_oid_text_validated",
    "Libsnmp.C16_oid_unchecked",
    "Libsnmp.C16_oid_copy",
    "Libsnmp.C16_oid_other_types"
   ],
   "note": "ObjectID text validation"
  },
  {
   "property": "C17",
   "status": "proved",
   "theorems": [
    "Libsnmp.C17_isPrefixOf",
    "Libsnmp.C17_isPrefixOf_other",
    "Libsnmp.C17_isPrefixOf_order"
   ],
   "note": "isPrefixOf is the prefix order"
  },
  {
   "property": "C18",
   "status": "proved",
   "theorems": [
    "Libsnmp.C18_octetString_transparent"
   ],
   "note": "OctetString is binary transparent"
  },
  {
   "property": "C19",
   "status": "proved",
   "theorems": [
    "Libsnmp.C19_object_roundtrip",
    "Libsnmp.C19_object_roundtrip_registries",
    "Libsnmp.C19_exceptional_classes"
   ],
   "note": "Whole-object round-trip"
  },
  {
   "property": "C20",
   "status": "proved",
   "theorems": [
    "Libsnmp.C20_any_ber_accepted"
   ],
   "note": "Every valid BER encoding is accepted"
  },
  {
   "property": "C21",
   "status": "proved",
   "theorems": [
    "Libsnmp.C21_encode_is_ber"
   ],
   "note": "encode emits valid BER"
  },
  {
   "property": "C22",
   "status": "proved",
   "theorems": [
    "Libsnmp.C22_encoding_unique",
    "Libsnmp.C22_encoding_canonical"
   ],
   "note": "Encodings are uniquely decodable"
  },
  {
   "property": "C23",
   "status": "proved",
   "theorems": [
    "Libsnmp.C23_decode_outcomes",
    "Libsnmp.C23_decode_non_str"
   ],
   "note": "decode always terminates, with a known exception set"
  },
  {
   "property": "C24",
   "status": "proved",
   "theorems": [
    "Libsnmp.C24_only_registered",
    "Libsnmp.C24_unknown_tag"
   ],
   "note": "Unknown tags are rejected"
  },
  {
   "property": "C25",
   "status": "proved",
   "theorems": [
    "Libsnmp.C25_truncation_accepted",
    "Libsnmp.C25_false"
   ],
   "note": "Expected property is false: C25_false. C25_truncation_accepted: truncated contents always decode as if complete."
  },
  {
   "property": "C26",
   "status": "proved",
   "theorems": [
    "Libsnmp.C26_concatenation",
    "Libsnmp.C26_sequence_contents"
   ],
   "note": "Concatenated encodings decode independently"
  },
  {
   "property": "C27",
   "status": "proved",
   "theorems": [
    "Libsnmp.C27_pdu_roundtrip",
    "Libsnmp.C27_pdu_kinds",
    "Libsnmp.C27_response_becomes_get"
   ],
   "note": "SNMPv1 Response comes back as Get (C27_response_becomes_get)."
  },
  {
   "property": "C28",
   "status": "proved",
   "theorems": [
    "Libsnmp.C28_decoded_pdus_wellformed",
    "Libsnmp.C28_wrong_count"
   ],
   "note": "Decoded PDUs are well-formed"
  },
  {
   "property": "C29",
   "status": "proved",
   "theorems": [
    "Libsnmp.C29_trap_roundtrip"
   ],
   "note": "Trap PDU round-trip"
  },
  {
   "property": "C30",
   "status": "proved",
   "theorems": [
    "Libsnmp.C30_message_roundtrip",
    "Libsnmp.C30_pdu_message_roundtrip"
   ],
   "note": "Message round-trip"
  },
  {
   "property": "C31",
   "status": "proved",
   "theorems": [
    "Libsnmp.C31_message_decode_ok",
    "Libsnmp.C31_message_decode_errors"
   ],
   "note": "Outcome of every stream characterised; the MessageError for a wrong object count cannot be built and surfaces as TypeError."
  },
  {
   "property": "C32",
   "status": "proved",
   "theorems": [
    "Libsnmp.C32_constructor",
    "Libsnmp.C32_constructed_in_range"
   ],
   "note": "Constructors enforce integer ranges"
  },
  {
   "property": "C33",
   "status": "proved",
   "theorems": [
    "Libsnmp.C33_add",
    "Libsnmp.C33_add_object",
    "Libsnmp.C33_sub_adds",
    "Libsnmp.C33_sub_wrong"
   ],
   "note": "Subtraction adds (C33_sub_adds); C33_sub_wrong refutes the expected property."
  },
  {
   "property": "C34",
   "status": "proved",
   "theorems": [
    "Libsnmp.C34_add",
    "Libsnmp.C34_history",
    "Libsnmp.C34_stays_in_range",
    "Libsnmp.C34_wraps_to_one",
    "Libsnmp.C34_escapes",
    "Libsnmp.C34_augmented_assignment",
    "Libsnmp.C34_add_object"
   ],
   "note": "Modulus is 2^32-1 (C34_wraps_to_one); negative increments escape (C34_escapes)."
  },
  {
   "property": "C35",
   "status": "proved",
   "theorems": [
    "Libsnmp.C35_latches",
    "Libsnmp.C35_history",
    "Libsnmp.C35_negative_escapes"
   ],
   "note": "Guage latches"
  },
  {
   "property": "C36",
   "status": "proved",
   "theorems": [
    "Libsnmp.C36_eq",
    "Libsnmp.C36_equivalence",
    "Libsnmp.C36_plain_int",
    "Libsnmp.C36_text_not_transitive"
   ],
   "note": "Equality and hashing of integers"
  },
  {
   "property": "C37",
   "status": "proved",
   "theorems": [
    "Libsnmp.C37_eq_iff",
    "Libsnmp.C37_reflexive",
    "Libsnmp.C37_symmetric",
    "Libsnmp.C37_transitive",
    "Libsnmp.C37_same_class",
    "Libsnmp.C37_integer_asymmetry",
    "Libsnmp.C37_ne",
    "Libsnmp.C37_unhashable",
    "Libsnmp.C37_plain_values"
   ],
   "note": "Comparisons that raise are part of the statement (C37_integer_asymmetry). OctetStrings holding an Integer object are excluded by ObjectTree."
  },
  {
   "property": "C38",
   "status": "proved",
   "theorems": [
    "Libsnmp.C38_isolation",
    "Libsnmp.C38_effects",
    "Libsnmp.C38_copies",
    "Libsnmp.C38_positions"
   ],
   "note": "ObjectIDs do not share storage"
  },
  {
   "property": "C39",
   "status": "proved",
   "theorems": [
    "Libsnmp.C39_isolation",
    "Libsnmp.C39_defaults_start_empty",
    "Libsnmp.C39_accepted",
    "Libsnmp.C39_sequence_shares"
   ],
   "note": "A plain Sequence shares the caller's list (C39_sequence_shares); everything else is isolated."
  },
  {
   "property": "C40",
   "status": "proved",
   "theorems": [
    "Libsnmp.C40_program_append",
    "Libsnmp.C40_component_type",
    "Libsnmp.C40_append",
    "Libsnmp.C40_construct"
   ],
   "note": "SequenceOf only holds its component type"
  },
  {
   "property": "C41",
   "status": "proved",
   "theorems": [
    "Libsnmp.C41_ip_text_accepted_iff",
    "Libsnmp.C41_ip_text_errors",
    "Libsnmp.C41_ip_text_round_trip",
    "Libsnmp.C41_ip_list"
   ],
   "note": "IPAddress text round-trip"
  },
  {
   "property": "C42",
   "status": "proved",
   "theorems": [
    "Libsnmp.C42_hex",
    "Libsnmp.C42_hex_shape",
    "Libsnmp.C42_hex_injective",
    "Libsnmp.C42_oct_truncates"
   ],
   "note": "Hex dump is faithful"
  },
  {
   "property": "C43",
   "status": "proved",
   "theorems": [
    "Libsnmp.C43_unique",
    "Libsnmp.C43_next",
    "Libsnmp.C43_consecutive"
   ],
   "note": "Request IDs are unique"
  },
  {
   "property": "C44",
   "status": "proved",
   "theorems": [
    "Libsnmp.C44_exact",
    "Libsnmp.C44_exhausted",
    "Libsnmp.C44_reached"
   ],
   "note": "Request IDs run out"
  },
  {
   "property": "C45",
   "status": "proved",
   "theorems": [
    "Libsnmp.C45_fifo",
    "Libsnmp.C45_sent",
    "Libsnmp.C45_turn"
   ],
   "note": "Outbound messages leave in order, once"
  },
  {
   "property": "C46",
   "status": "proved",
   "theorems": [
    "Libsnmp.C46_only_the_right_callback",
    "Libsnmp.C46_unique_callback",
    "Libsnmp.C46_table",
    "Libsnmp.C46_delivered"
   ],
   "note": "Responses reach the right callback"
  },
  {
   "property": "C47",
   "status": "proved",
   "theorems": [
    "Libsnmp.C47_none_after_return",
    "Libsnmp.C47_at_most_once",
    "Libsnmp.C47_raising_stays",
    "Libsnmp.C47_reentrant_callback_twice"
   ],
   "note": "At most once without re-entrancy; C47_reentrant_callback_twice shows that the restriction is needed."
  },
  {
   "property": "C48",
   "status": "proved",
   "theorems": [
    "Libsnmp.C48_unsolicited"
   ],
   "note": "Unsolicited datagrams change nothing"
  },
  {
   "property": "C49",
   "status": "proved",
   "theorems": [
    "Libsnmp.C49_v2_survives",
    "Libsnmp.C49_others_raise",
    "Libsnmp.C49_version_refused",
    "Libsnmp.C49_ends_loop",
    "Libsnmp.C49_callback_raises"
   ],
   "note": "True of v2.SNMP; C49_others_raise, C49_ends_loop: false of v1.SNMP and snmpManager."
  },
  {
   "property": "C50",
   "status": "proved",
   "theorems": [
    "Libsnmp.C50_failed_registers_nothing",
    "Libsnmp.C50_succeeded_registers"
   ],
   "note": "Failed requests register nothing"
  },
  {
   "property": "C51",
   "status": "proved",
   "theorems": [
    "Libsnmp.C51_message",
    "Libsnmp.C51_queued",
    "Libsnmp.C51_v1_set_never_set"
   ],
   "note": "v1.SNMP.snmpSet never sends a Set (C51_v1_set_never_set)."
  },
  {
   "property": "C52",
   "status": "proved",
   "theorems": [
    "Libsnmp.C52_errorStatus_enum",
    "Libsnmp.C52_genericTrap_enum",
    "Libsnmp.C52_v2_getNext",
    "Libsnmp.C52_v2_set",
    "Libsnmp.C52_sm_trap",
    "Libsnmp.C52_none_kills_loop",
    "Libsnmp.C52_octetString2",
    "Libsnmp.C52_unencodable_set"
   ],
   "note": "Each call fails for every argument and state; C52_unencodable_set: the failure can also come late, when the message is encoded."
  },
  {
   "property": "C53",
   "status": "proved",
   "theorems": [
    "Libsnmp.C53_trap",
    "Libsnmp.C53_sm_v2_trap",
    "Libsnmp.C53_v2_trap_is_an_answer"
   ],
   "note": "SNMPv2 traps are looked up as responses (C53_v2_trap_is_an_answer)."
  },
  {
   "property": "C54",
   "status": "proved",
   "theorems": [
    "Libsnmp.C54_receive",
    "Libsnmp.C54_poll",
    "Libsnmp.C54_no_callback_ever",
    "Libsnmp.C54_send",
    "Libsnmp.C54_turn"
   ],
   "note": "Under Python 3 no datagram is dispatched and none can be sent."
  },
  {
   "property": "C55",
   "status": "proved",
   "theorems": [
    "Libsnmp.C55_bound",
    "Libsnmp.C55_invoked_was_returned",
    "Libsnmp.C55_sent_was_assigned",
    "Libsnmp.C55_ids_without_overlap",
    "Libsnmp.C55_distinct_without_overlap",
    "Libsnmp.C55_right_callback_without_overlap",
    "Libsnmp.C55_not_lost_without_overlap",
    "Libsnmp.C55_one_thread",
    "Libsnmp.C55_whole_call",
    "Libsnmp.C55_duplicate",
    "Libsnmp.C55_early_response",
    "Libsnmp.C55_repeats_within_thread",
    "Libsnmp.C55_atomic_increment",
    "Libsnmp.C55_atomic_increment_not_enough"
   ],
   "note": "Interleaving model with sequential consistency and atomic dict/queue operations; the expected property is refuted by explicit schedules and proved under non-overlap."
  },
  {
   "property": "C56",
   "status": "proved",
   "theorems": [
    "Libsnmp.C56_registry",
    "Libsnmp.C56_order",
    "Libsnmp.C56_matching",
    "Libsnmp.C56_grows",
    "Libsnmp.C56_v1",
    "Libsnmp.C56_full"
   ],
   "note": "Import order does not matter"
  },
  {
   "property": "C57",
   "status": "proved",
   "theorems": [
    "Libsnmp.C57_status_text",
    "Libsnmp.C57_which",
    "Libsnmp.C57_constructor",
    "Libsnmp.C57_v2_pdu_installs"
   ],
   "note": "Error status texts"
  },
  {
   "property": "C58",
   "status": "proved",
   "theorems": [
    "Libsnmp.C58_current",
    "Libsnmp.C58_read",
    "Libsnmp.C58_send",
    "Libsnmp.C58_close_idempotent",
    "Libsnmp.C58_current_live",
    "Libsnmp.C58_superseded",
    "Libsnmp.C58_no_leak",
    "Libsnmp.C58_failed_bind"
   ],
   "note": "Model of role.manager; a second open leaks the first socket (C58_superseded)."
  },
  {
   "property": "C59",
   "status": "proved",
   "theorems": [
    "Libsnmp.C59_read_raises",
    "Libsnmp.C59_handler_raises",
    "Libsnmp.C59_handler_returns",
    "Libsnmp.C59_type_kept",
    "Libsnmp.C59_socket_error",
    "Libsnmp.C59_no_socket",
    "Libsnmp.C59_v2_swallows"
   ],
   "note": "asyncore's dispatch and asynrole's handler as pure functions of what is raised."
  },
  {
   "property": "C60",
   "status": "proved",
   "theorems": [
    "Libsnmp.C60_encoding_octets",
    "Libsnmp.C60_strings_appear"
   ],
   "note": "Encoded messages are octets"
  },
  {
   "property": "C61",
   "status": "proved",
   "theorems": [
    "Libsnmp.C61_toObjectID",
    "Libsnmp.C61_toObjectID_refused",
    "Libsnmp.C61_toObjectID_injective",
    "Libsnmp.C61_toObjectID_collision"
   ],
   "note": "Index values"
  },
  {
   "property": "C62",
   "status": "proved",
   "theorems": [
    "Libsnmp.C62_text",
    "Libsnmp.C62_message_text",
    "Libsnmp.C62_only_keyError",
    "Libsnmp.C62_bytes"
   ],
   "note": "Text of any object"
  },
  {
   "property": "C63",
   "status": "proved",
   "theorems": [
    "Libsnmp.C63_default_agent",
    "Libsnmp.C63_empty_agent",
    "Libsnmp.C63_built_iff",
    "Libsnmp.C63_other_version"
   ],
   "note": "Host uptime is a parameter."
  },
  {
   "property": "C64",
   "status": "proved",
   "theorems": [
    "Libsnmp.C64_typeSetter",
    "Libsnmp.C64_numbers_as_text",
    "Libsnmp.C64_unknown_type",
    "Libsnmp.C64_values",
    "Libsnmp.C64_enterpriseOID"
   ],
   "note": "Type letters and enterprise names"
  },
  {
   "property": "C65",
   "status": "proved",
   "theorems": [
    "Libsnmp.C65_parse_iff",
    "Libsnmp.C65_rejects_iff",
    "Libsnmp.C65_unambiguous"
   ],
   "note": "The exact language decode() accepts"
  },
  {
   "property": "C66",
   "status": "proved",
   "theorems": [
    "Libsnmp.C66_dotted_text_refused",
    "Libsnmp.C66_digit_text_unsendable",
    "Libsnmp.C66_text_never_sent",
    "Libsnmp.C66_empty_text"
   ],
   "note": "v2.SNMP.snmpGet with a dotted string"
  },
  {
   "property": "C67",
   "status": "proved",
   "theorems": [
    "Libsnmp.C67_each_alone",
    "Libsnmp.C67_ids_unique",
    "Libsnmp.C67_only_own_callbacks",
    "Libsnmp.C67_own_queue",
    "Libsnmp.C67_delivered",
    "Libsnmp.C67_untouched",
    "Libsnmp.C67_loop_serves_all",
    "Libsnmp.C67_foreign_garbage_ends_my_loop",
    "Libsnmp.C67_alone_is_a_process",
    "Libsnmp.C67_same_histories"
   ],
   "note": "Managers are independent except for the shared asyncore loop (C67_loop_serves_all, C67_foreign_garbage_ends_my_loop)."
  },
  {
   "property": "C68",
   "status": "proved",
   "theorems": [
    "Libsnmp.C68_assigned_field_not_sent",
    "Libsnmp.C68_new_fields_are_components",
    "Libsnmp.C68_message_sends_fields",
    "Libsnmp.C68_sequence_sends_value"
   ],
   "note": "Object-graph model with identity and arbitrary programs."
  },
  {
   "property": "C69",
   "status": "proved",
   "theorems": [
    "Libsnmp.C69_built_empty",
    "Libsnmp.C69_decoded_empty",
    "Libsnmp.C69_empty_equal",
    "Libsnmp.C69_encode_fills",
    "Libsnmp.C69_encoded_differs",
    "Libsnmp.C69_encoded_compare"
   ],
   "note": "Equality, length and truth of Messages"
  },
  {
   "property": "C70",
   "status": "proved",
   "theorems": [
    "Libsnmp.C70_get_waiting",
    "Libsnmp.C70_getNext_waiting",
    "Libsnmp.C70_trap_waiting",
    "Libsnmp.C70_v1_get_is_sent",
    "Libsnmp.C70_v2_get_is_sent",
    "Libsnmp.C70_sm_get_is_sent",
    "Libsnmp.C70_getNext_is_sent",
    "Libsnmp.C70_changed_id_is_lost",
    "Libsnmp.C70_unchanged_id_is_found",
    "Libsnmp.C70_send",
    "Libsnmp.C70_queue"
   ],
   "note": "Programs over all references reachable from API results; separation invariant."
  },
  {
   "property": "C71",
   "status": "proved",
   "theorems": [
    "Libsnmp.C71_limit_or_same",
    "Libsnmp.C71_short_streams",
    "Libsnmp.C71_more_room",
    "Libsnmp.C71_exact",
    "Libsnmp.C71_bomb",
    "Libsnmp.C71_manager",
    "Libsnmp.C71_manager_same"
   ],
   "note": "A level is counted as one unit of stack whatever its class; the managers are covered for decode only."
  },
  {
   "property": "C72",
   "status": "proved",
   "theorems": [
    "Libsnmp.C72_request_octets",
    "Libsnmp.C72_queue",
    "Libsnmp.C72_sent",
    "Libsnmp.C72_message_decoded",
    "Libsnmp.C72_answer",
    "Libsnmp.C72_any_kind_is_an_answer"
   ],
   "note": "The octets of lengths beyond 256^127 are excluded (unencodable in BER)."
  },
  {
   "property": "C73",
   "status": "proved",
   "theorems": [
    "Libsnmp.C73_trap_sent",
    "Libsnmp.C73_trap_decoded",
    "Libsnmp.C73_trap_delivered"
   ],
   "note": "snmpManager.snmpTrap is C52: it cannot send."
  },
  {
   "property": "C74",
   "status": "proved",
   "theorems": [
    "Libsnmp.C74_latency",
    "Libsnmp.C74_sending_turn",
    "Libsnmp.C74_sm_sending_turn",
    "Libsnmp.C74_failed_send",
    "Libsnmp.C74_idle_turn",
    "Libsnmp.C74_sm_idle_turn",
    "Libsnmp.C74_drain",
    "Libsnmp.C74_idle_while_pending"
   ],
   "note": "A call of run that never returns is described by its finite prefixes."
  },
  {
   "property": "C75",
   "status": "proved",
   "theorems": [
    "Libsnmp.C75_ends",
    "Libsnmp.C75_answer",
    "Libsnmp.C75_no_answer",
    "Libsnmp.C75_error",
    "Libsnmp.C75_refused",
    "Libsnmp.C75_other_answer",
    "Libsnmp.C75_send_fails",
    "Libsnmp.C75_usage",
    "Libsnmp.C75_bad_name",
    "Libsnmp.C75_unsettable"
   ],
   "note": "getopt, name resolution and print are not modelled; `addr server` stands for (server, 161)."
  },
  {
   "property": "C76",
   "status": "proved",
   "theorems": [
    "Libsnmp.C76_relay",
    "Libsnmp.C76_determined",
    "Libsnmp.C76_counter64",
    "Libsnmp.C76_getNext",
    "Libsnmp.C76_set_band"
   ],
   "note": "Stated for registries after an import of the library (`Imported`), lengths below 256^127."
  },
  {
   "property": "C77",
   "status": "proved",
   "theorems": [
    "Libsnmp.C77_walk",
    "Libsnmp.C77_counter64",
    "Libsnmp.C77_lost",
    "Libsnmp.C77_endless",
    "Libsnmp.C77_message_unique",
    "Libsnmp.C77_disturbed",
    "Libsnmp.C77_not_started"
   ],
   "note": "getopt, name resolution and print are not modelled. The agent gets each request and its answer is there at the next poll; requests are assumed to fit into UDP datagrams (65507 octets)."
  },
  {
   "property": "C78",
   "status": "proved",
   "theorems": [
    "Libsnmp.C78_listener_survives",
    "Libsnmp.C78_listener_prints",
    "Libsnmp.C78_listener_bytes",
    "Libsnmp.C78_sender",
    "Libsnmp.C78_old_get"
   ],
   "note": "Text of a timestamp that is not an Integer (only in broken traps) is a parameter. C78_old_get is immediate from the model of bind: an AF_INET address must be a tuple."
  },
  {
   "property": "C79",
   "status": "proved",
   "theorems": [
    "Libsnmp.C79_integer",
    "Libsnmp.C79_integer_injective",
    "Libsnmp.C79_octets",
    "Libsnmp.C79_octets_injective",
    "Libsnmp.C79_others",
    "Libsnmp.C79_float_exact",
    "Libsnmp.C79_float_near"
   ],
   "note": "Python 3's hex()/oct() do not call these methods; they are modelled as called by name."
  },
  {
   "property": "C80",
   "status": "proved",
   "theorems": [
    "Libsnmp.C80_uptime",
    "Libsnmp.C80_uptime_seconds",
    "Libsnmp.C80_uptime_monotone",
    "Libsnmp.C80_uptime_missing",
    "Libsnmp.C80_uptime_short",
    "Libsnmp.C80_trap_stamp"
   ],
   "note": "binary64 arithmetic is modelled as correctly rounded rationals (53 bits, gradual underflow, overflow to infinity); inf/nan and non-ASCII digits in /proc/uptime are treated as unreadable, which gives the same 0."
  },
  {
   "property": "C81",
   "status": "proved",
   "theorems": [
    "Libsnmp.C81_no_amplification",
    "Libsnmp.C81_message",
    "Libsnmp.C81_bits"
   ],
   "note": "Space is counted as one per object plus one per character/sub-identifier (Spec/Size.lean)."
  },
  {
   "property": "C82",
   "status": "proved",
   "theorems": [
    "Libsnmp.C82_size",
    "Libsnmp.C82_message",
    "Libsnmp.C82_get"
   ],
   "note": "Bounds are stated for encodings within a UDP datagram (65507 octets), where a header has at most four octets."
  },
  {
   "property": "C83",
   "status": "proved",
   "theorems": [
    "Libsnmp.C83_built",
    "Libsnmp.C83_trap_printed"
   ],
   "note": "Specific trap numbers in the bands C08 found to be mis-encoded, and names whose second arc is 40 or more (C11), are excluded; trapsender.py itself gives no agent address and fails (C78)."
  },
  {
   "property": "C84",
   "status": "proved",
   "theorems": [
    "Libsnmp.C84_served",
    "Libsnmp.C84_addressee",
    "Libsnmp.C84_closed",
    "Libsnmp.C84_handle_close",
    "Libsnmp.C84_reopened",
    "Libsnmp.C84_cut_off"
   ],
   "note": "asyncore.py of CPython 3.11 (poll, read, set_socket, add_channel, del_channel, close) is modelled as the library uses it; bind/setsockopt/close failures are C58's."
  },
  {
   "property": "C85",
   "status": "proved",
   "theorems": [
    "Libsnmp.C85_errors",
    "Libsnmp.C85_debug_silent",
    "Libsnmp.C85_info",
    "Libsnmp.C85_own_logger",
    "Libsnmp.C85_snmpwalk",
    "Libsnmp.C85_refused",
    "Libsnmp.C85_callback"
   ],
   "note": "Python's logging is modelled as far as the library uses it (levels, handlers along the dotted name, handler of last resort); logging.disable, filters, propagate=False and handlers with levels are not. What a callback itself logs is not counted."
  },
  {
   "property": "C86",
   "status": "proved",
   "theorems": [
    "Libsnmp.C86_limit_or_same",
    "Libsnmp.C86_short",
    "Libsnmp.C86_exact",
    "Libsnmp.C86_manager",
    "Libsnmp.C86_datagram",
    "Libsnmp.C86_manager_same"
   ],
   "note": "The limit is modelled where decoding meets it (the debugging record of rfc1155.py:432); str() and int() of giant numbers elsewhere (ObjectID texts, IPAddress texts) are not."
  },
  {
   "property": "C87",
   "status": "proved",
   "theorems": [
    "Libsnmp.C87_import_order",
    "Libsnmp.C87_subclass",
    "Libsnmp.C87_classes",
    "Libsnmp.C87_tagClass",
    "Libsnmp.C87_tagNumber",
    "Libsnmp.C87_bounds",
    "Libsnmp.C87_methods",
    "Libsnmp.C87_registry",
    "Libsnmp.C87_visible",
    "Libsnmp.C87_globals",
    "Libsnmp.C87_missing",
    "Libsnmp.C87_self",
    "Libsnmp.C87_shared",
    "Libsnmp.C87_typeSetter"
   ],
   "note": "The statements executed at import are extracted from the source text by tools/extract_names.py into Model/NamesData.lean, so the class table, attribute tables, registry and typeSetter of the hand-written model are proved equal to what the source's own statements compute."
  },
  {
   "property": "C88",
   "status": "proved",
   "theorems": [
    "Libsnmp.C88_isinstance",
    "Libsnmp.C88_decodeTag",
    "Libsnmp.C88_decodeLength",
    "Libsnmp.C88_decode",
    "Libsnmp.C88_decode_O",
    "Libsnmp.C88_decode_4300"
   ],
   "note": "The function bodies are extracted from the source text by tools/extract_source.py into Model/SourceData.lean and run by the interpreter of Model/Interp.lean (heap, aliasing, attribute lookup, exceptions, loops without bound). Strings of 10^640 characters and more are excluded (the debugging records of the code would print numerals that the interpreter may refuse)."
  },
  {
   "property": "C89",
   "status": "proved",
   "theorems": [
    "Libsnmp.C89_encodeLength",
    "Libsnmp.C89_encode"
   ],
   "note": "Same extraction. Values with a part of 10^640 octets or more are excluded, and values with a Message inside another object (Message.encodeContents changes the message; C90)."
  },
  {
   "property": "C90",
   "status": "proved",
   "theorems": [
    "Libsnmp.C90_varBind",
    "Libsnmp.C90_pdu",
    "Libsnmp.C90_message",
    "Libsnmp.C90_message_encode",
    "Libsnmp.C90_message_decode",
    "Libsnmp.C90_wire"
   ],
   "note": "Same extraction. The receiver of C90_wire runs python -O or has no limit on numerals; C90_message_decode has any limit. No Message inside the PDU."
  },
  {
   "property": "C91",
   "status": "proved",
   "theorems": [
    "Libsnmp.C91_eq",
    "Libsnmp.C91_ne",
    "Libsnmp.C91_hash"
   ],
   "note": "Interpreted source text related to the model's pyEq/pyNe for all pairs of representable values (texts with at most as many digits as int() accepts)."
  },
  {
   "property": "C92",
   "status": "proved",
   "theorems": [
    "Libsnmp.C92_new",
    "Libsnmp.C92_add",
    "Libsnmp.C92_sub"
   ],
   "note": "Interpreted source text related to mkInteger, pyAdd and pySub."
  },
  {
   "property": "C93",
   "status": "proved",
   "theorems": [
    "Libsnmp.C93_new",
    "Libsnmp.C93_len",
    "Libsnmp.C93_isPrefixOf",
    "Libsnmp.C93_history",
    "Libsnmp.C93_outcome",
    "Libsnmp.C93_isolation"
   ],
   "note": "A simulation between the interpreter running the source text and the model's memory of ObjectIDs, by induction over the history; isolation (C38) carried over to the source text."
  },
  {
   "property": "C94",
   "status": "proved",
   "theorems": [
    "Libsnmp.C94_tables",
    "Libsnmp.C94_tables_status",
    "Libsnmp.C94_str",
    "Libsnmp.C94_str_short",
    "Libsnmp.C94_message_str",
    "Libsnmp.C94_hex",
    "Libsnmp.C94_oct",
    "Libsnmp.C94_call",
    "Libsnmp.C94_toObjectID",
    "Libsnmp.C94_trap_enum",
    "Libsnmp.C94_status_enum",
    "Libsnmp.C94_len"
   ],
   "note": "C94_str/_message_str: run of the source text = valStrDig/msgStrDig (valStr when no number is too long: C94_str_short); bytes and OctetStrings that hold no str are outside Rep; a message inside a value is outside (NoMessage)."
  },
  {
   "property": "C95",
   "status": "proved",
   "theorems": [
    "Libsnmp.C95_twos",
    "Libsnmp.C95_octetString",
    "Libsnmp.C95_ipAddress",
    "Libsnmp.C95_ipAddress_list"
   ],
   "note": "C95_twos via the model functions of C07; the constructors of IPAddress on objects of the package and on bytes, and rfc1902.OctetString (endless recursion, C52/C61 on the model), are not run on the source text."
  },
  {
   "property": "C96",
   "status": "proved",
   "theorems": [
    "Libsnmp.C96_v1",
    "Libsnmp.C96_v2"
   ],
   "note": "The model's methods are those about which C27-C44 and the histories speak. Limits: a text argument has no numeral longer than the limit of int(). The community is a str."
  },
  {
   "property": "C97",
   "status": "proved",
   "theorems": [
    "Libsnmp.C97_snmpManager",
    "Libsnmp.C97_call",
    "Libsnmp.C97_calls"
   ],
   "note": "snmpSet is proved for the values of Settable (Spec/SourceAsk.lean): numbers, texts, None and objects for Integer classes, texts for OctetStrings, anything but lists and objects for addresses, anything for ObjectID and Null; tags of sequence classes are not run."
  },
  {
   "property": "C98",
   "status": "proved",
   "theorems": [
    "Libsnmp.Src.C98_v1",
    "Libsnmp.Src.C98_v2",
    "Libsnmp.Src.C98_snmpManager",
    "Libsnmp.Src.C98_asking"
   ],
   "note": "The user's code is any function that Obeys (Spec/SourceRecv.lean) a function of the model: it may change the manager in any way the model expresses, and objects of its own, but not, for example, the message it is given; C98_asking shows it for callbacks that make requests. In v2 the standard library's traceback.print_exc() is assumed to return."
  },
  {
   "property": "C99",
   "status": "proved",
   "theorems": [
    "Libsnmp.Src.C99_v1",
    "Libsnmp.Src.C99_v2",
    "Libsnmp.Src.C99_snmpManager",
    "Libsnmp.Src.C99_run",
    "Libsnmp.Src.C99_run_next",
    "Libsnmp.Src.C99_run_raises",
    "Libsnmp.Src.C99_never_returns",
    "Libsnmp.Src.C99_same"
   ],
   "note": "asyncore.poll, sys.exc_info, time.sleep and the socket are described by Around, SendsTo and readEvent (Spec/SourceTurn.lean), user code by Obeys and Heeds. C99_run, C99_run_next and C99_run_raises unfold run() into turns; C99_same: for datagrams that decode alike under the limit on numerals the turn is the model's iterate. C99_never_returns needs no assumption at all: in every world, for any object that is a manager, run() never ends with a normal return."
  },
  {
   "property": "C100",
   "status": "proved",
   "theorems": [
    "Libsnmp.Src.C100_new",
    "Libsnmp.Src.C100_refused",
    "Libsnmp.Src.C100_defaults"
   ],
   "note": "asyncore.dispatcher's __init__ and set_socket are assumed to return and to set only attributes of their own on the object (Tunes, Spec/SourceInit.lean); socket.socket, bind and setsockopt return or raise (Opens, Refuses). The state that C100_new establishes is the one from which C97, C98 and C99 start."
  },
  {
   "property": "C101",
   "status": "proved",
   "theorems": [
    "Libsnmp.Src.C101_uptime",
    "Libsnmp.Src.C101_enterpriseOID",
    "Libsnmp.Src.C101_typeSetter",
    "Libsnmp.Src.C101_trap",
    "Libsnmp.Src.C101_trap_defaults"
   ],
   "note": "open() and read() on /proc/uptime return or raise (UptimeFile, Spec/SourceHelp.lean); the text is ASCII. The agent address is a text, bytes, a number, a tuple or None (TrapGiven). C63, C80 and C83 speak of the functions of the model that C101 proves equal to the source text."
  },
  {
   "property": "C102",
   "status": "proved",
   "theorems": [
    "Libsnmp.Src.C102_fresh",
    "Libsnmp.Src.C102_reachable",
    "Libsnmp.Src.C102_progress",
    "Libsnmp.Src.C102_unique"
   ],
   "note": "History (Spec/SourceHistory.lean) runs the interpreter step by step; beside the heap it carries the state of the model, which the assumptions about each step mention: the world of a turn as in C99 (Around, SendsTo, Obeys, Heeds), messages of moderate size in the queue (Fine), datagrams in which no number is longer than the process allows (any of up to 1785 octets, C86), arguments as in C97 (Ask). Callbacks are programs of the model (Act)."
  },
  {
   "property": "C103",
   "status": "proved",
   "theorems": [
    "Libsnmp.Src.C103_new",
    "Libsnmp.Src.C103_call",
    "Libsnmp.Src.C103_get_socket",
    "Libsnmp.Src.C103_life",
    "Libsnmp.Src.C103_progress",
    "Libsnmp.Src.C103_open",
    "Libsnmp.Src.C103_read_closed",
    "Libsnmp.Src.C103_idle",
    "Libsnmp.Src.C103_handle_close"
   ],
   "note": "RoleLife (Spec/SourceRole.lean) runs the interpreter call by call. The world of a call says how each socket function ends, whatever is in the heap (Says): socket calls that change the package's objects are not covered. The interpreted language has no value for bytes, so the octets of a datagram are a str."
  },
  {
   "property": "C104",
   "status": "proved",
   "theorems": [
    "Libsnmp.Src.C104_octet2",
    "Libsnmp.Src.C104_octet2_long",
    "Libsnmp.Src.C104_float",
    "Libsnmp.Src.C104_long",
    "Libsnmp.Src.C104_base",
    "Libsnmp.Src.C104_DecodeError",
    "Libsnmp.Src.C104_todo",
    "Libsnmp.Src.C104_setMessage",
    "Libsnmp.Src.C104_v2_getNextPDU"
   ],
   "note": "The interpreter has no recursion limit: where CPython raises RecursionError from rfc1902.OctetString.__init__, its evaluation is endless; the theorem says that no value is ever returned (fixpoint induction over the whole interpreter). With C88-C103 every one of the 166 functions of the package is executed by some theorem."
  },
  {
   "property": "C105",
   "status": "proved",
   "theorems": [
    "Libsnmp.C105_encode_ber",
    "Libsnmp.C105_object_wire",
    "Libsnmp.C105_unique",
    "Libsnmp.C105_decode_total",
    "Libsnmp.C105_integers",
    "Libsnmp.C105_trees",
    "Libsnmp.C105_oid_text",
    "Libsnmp.C105_v2_survives",
    "Libsnmp.C105_unsolicited"
   ],
   "note": "Corollaries of the executions C88-C102 and of the properties of the model (C15, C19, C22, C23, C36, C37, C48, C49). C105_object_wire needs python -O or no limit on numerals at the receiver (C86 says what the limit does)."
  },
  {
   "property": "C106",
   "status": "proved",
   "theorems": [
    "Libsnmp.C106_encode",
    "Libsnmp.C106_encode_error",
    "Libsnmp.C106_assign",
    "Libsnmp.C106_append",
    "Libsnmp.C106_append_method",
    "Libsnmp.C106_assigned_field_not_sent",
    "Libsnmp.C106_encode_keeps",
    "Libsnmp.C106_message_sends_fields",
    "Libsnmp.C106_sequence_sends_value"
   ],
   "note": "Ties gEncode of Model/Graph.lean (C68-C71) to the interpreter running the source. Graphs in which encode would recurse for ever (cycles) are outside: the model gives RecursionError at every depth, the interpreter has no value. Messages must have their three fields, as every constructor gives them."
  },
  {
   "property": "C107",
   "status": "proved",
   "theorems": [
    "Libsnmp.Src.C107_step",
    "Libsnmp.Src.C107_history",
    "Libsnmp.Src.C107_run"
   ],
   "note": "Ties Prog.step of Model/Program.lean (C68-C71) to the interpreter running the source, for these operations. Not covered: decode, slices, the rfc1902.OctetString constructor, and encode of cyclic graphs."
  },
  {
   "property": "C108",
   "status": "proved",
   "theorems": [
    "Libsnmp.C108_concatenation",
    "Libsnmp.C108_relay",
    "Libsnmp.C108_decoded",
    "Libsnmp.C108_parses",
    "Libsnmp.C108_encoded",
    "Libsnmp.C108_new",
    "Libsnmp.C108_counter",
    "Libsnmp.C108_guage",
    "Libsnmp.C108_isPrefixOf",
    "Libsnmp.C108_oid_accepts",
    "Libsnmp.C108_ip_accepts",
    "Libsnmp.C108_ip_text",
    "Libsnmp.C108_hex_injective"
   ],
   "note": "Theorems about executions of the extracted source only; proved from C88-C95 and the theorems about the models."
  },
  {
   "property": "C109",
   "status": "proved",
   "theorems": [
    "Libsnmp.Src.C109_refused",
    "Libsnmp.Src.C109_accepted",
    "Libsnmp.Src.C109_trap",
    "Libsnmp.Src.C109_exhausted",
    "Libsnmp.Src.C109_answered",
    "Libsnmp.Src.C109_finished",
    "Libsnmp.Src.C109_sends"
   ],
   "note": "C109_answered is about callbacks that call no method of the manager (they return or raise); in C109_sends, for snmpManager, no datagram is waiting, since it polls before it sends."
  }
 ]
}