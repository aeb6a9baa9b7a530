{
 "claims": [
  {
   "property": "C01",
   "status": "proved",
   "theorems": [
    "C01_tag_str",
    "C01_tag_int",
    "C01_tag_negative"
   ],
   "note": "Full claim, for strings and ints (ints beyond Python's 4300-digit printing limit raise ValueError)."
  },
  {
   "property": "C02",
   "status": "proved",
   "theorems": [
    "C02_tag_decomposition",
    "C02_with_parameter",
    "C02_with_bad_parameter",
    "C02_with_parameters",
    "C02_with_parameter_int"
   ],
   "note": "Full claim; also the general law for parameters containing '#'."
  },
  {
   "property": "C03",
   "status": "partial",
   "theorems": [
    "C03_eq_hash_partial",
    "C03_trans_partial",
    "C03_int_eq",
    "C03_int_hash_refuted",
    "C03_int_trans_refuted"
   ],
   "note": "Holds for tags and strings; refuted for ints: Tag('5') == 5 but the hashes differ, and == is not transitive through a tag. C03_int_eq says exactly which ints a tag equals."
  },
  {
   "property": "C04",
   "status": "partial",
   "theorems": [
    "C04_who_codes",
    "C04_code_injective",
    "C04_name_distinct",
    "C04_name_partial",
    "C04_name_refuted"
   ],
   "note": "Codes proved; the description clause is refuted: five members have no entry in who_map, .name raises KeyError."
  },
  {
   "property": "C05",
   "status": "partial",
   "theorems": [
    "C05_riser_partial",
    "C05_general_iff",
    "C05_ambient_iff",
    "C05_exact",
    "C05_local_bus_refuted",
    "C05_local_bus_points"
   ],
   "note": "Private riser addresses proved, GENERAL and AMBIENT exact; refuted for documented local-bus addresses (0#4#Int and #G#4#Int raise ValueError). C05_exact gives the kind of every address text."
  },
  {
   "property": "C06",
   "status": "proved",
   "theorems": [
    "C06_invalid_iff",
    "C06_no_other_error"
   ],
   "note": "Full claim, as an iff against a character-level description; the only other exception is ValueError (C08)."
  },
  {
   "property": "C07",
   "status": "proved",
   "theorems": [
    "C07_fields",
    "C07_tags",
    "C07_classified",
    "C07_unique",
    "C07_rows"
   ],
   "note": "Full claim, as an iff between parsing and the frame table. C07_fields adds who and where as positions in the frame."
  },
  {
   "property": "C08",
   "status": "partial",
   "theorems": [
    "C08_unknown_who_refuted",
    "C08_unknown_who_partial"
   ],
   "note": "Refuted: an unknown WHO raises ValueError. Partial: exact description of when."
  },
  {
   "property": "C09",
   "status": "partial",
   "theorems": [
    "C09_print_parse_partial",
    "C09_print_parse_strip",
    "C09_print_parse_refuted"
   ],
   "note": "Refuted for dimension frames with a '#' in the dimension and no values, and writings to parameterised dimensions; the partial theorem is an iff."
  },
  {
   "property": "C10",
   "status": "partial",
   "theorems": [
    "C10_parse_print_partial",
    "C10_parse_print_refuted"
   ],
   "note": "Refuted; the partial theorem characterises exactly which messages survive the round trip."
  },
  {
   "property": "C11",
   "status": "proved",
   "theorems": [
    "C11_whitespace",
    "C11_whitespace_ok",
    "C11_which"
   ],
   "note": "Full claim (the text carried by InvalidMessage is ignored)."
  },
  {
   "property": "C12",
   "status": "partial",
   "theorems": [
    "C12_eq_iff",
    "C12_equivalence",
    "C12_bytes",
    "C12_hash_partial",
    "C12_hash_refuted"
   ],
   "note": "Equality proved; hash clause refuted for GenericMessage (TypeError)."
  },
  {
   "property": "C13",
   "status": "partial",
   "theorems": [
    "C13_bytes",
    "C13_one_terminator_partial",
    "C13_constructed",
    "C13_one_terminator_refuted"
   ],
   "note": "C13_constructed states it of every message that can be made through the constructors. Byte-level claim proved; the single-terminator clause is refuted (Tag('1##') is accepted) with an exact characterisation."
  },
  {
   "property": "C14",
   "status": "partial",
   "theorems": [
    "C14_ack_nack",
    "C14_class_parse_partial",
    "C14_class_parse_refuted"
   ],
   "note": "parse_message clause proved; ACK.parse(['#','0']) is accepted, so the class-parser clause is refuted."
  },
  {
   "property": "C15",
   "status": "proved",
   "theorems": [
    "C15_packet_of_frames",
    "C15_trailing_hash"
   ],
   "note": "Full claim. C15_trailing_hash records that a frame ending in '###' is accepted by parse_message but not in a packet."
  },
  {
   "property": "C16",
   "status": "proved",
   "theorems": [
    "C16_atomic",
    "C16_append_only",
    "C16_non_ascii",
    "C16_all_or_nothing",
    "C16_blank"
   ],
   "note": "Full claim."
  },
  {
   "property": "C17",
   "status": "partial",
   "theorems": [
    "C17_segmentation_refuted",
    "C17_segmentation_partial",
    "C17_merge_partial",
    "C17_cuts"
   ],
   "note": "Refuted: a frame cut in two is delivered as a different message. C17_cuts is the exact statement: a stream of frames is received as its messages, with the connection alive, if and only if every cut falls between frames or just before the closing ## of one."
  },
  {
   "property": "C18",
   "status": "proved",
   "theorems": [
    "C18_fifo",
    "C18_read_oldest"
   ],
   "note": "Full claim over every interleaving of packets, readers, wake-ups and cancellations."
  },
  {
   "property": "C19",
   "status": "proved",
   "theorems": [
    "C19_no_write_while_paused",
    "C19_at_most_once",
    "C19_progress",
    "C19_sleeping_distinct"
   ],
   "note": "Full claim: safety, at most once, progress."
  },
  {
   "property": "C20",
   "status": "partial",
   "theorems": [
    "C20_order_refuted",
    "C20_order_partial"
   ],
   "note": "Refuted: a sleeping sender is overtaken. Proved for calls that do not overlap."
  },
  {
   "property": "C21",
   "status": "proved",
   "theorems": [
    "C21_first_wins",
    "C21_repeat_raises",
    "C21_transport_is_latest"
   ],
   "note": "Full claim."
  },
  {
   "property": "C22",
   "status": "proved",
   "theorems": [
    "C22_answer_32bit",
    "C22_answer_32bit_text"
   ],
   "note": "Every Int password, every string; text passwords via the modelled int()."
  },
  {
   "property": "C23",
   "status": "proved",
   "theorems": [
    "C23_register_algorithm",
    "C23_text_password",
    "C23_int_nonce"
   ],
   "note": "Register specification on BitVec 32 with rotations and byte permutations, bitwise refinement per character, induction over the nonce. Also through the text and integer entry points (C23_text_password, C23_int_nonce)."
  },
  {
   "property": "C24",
   "status": "proved",
   "theorems": [
    "C24_injective",
    "C24_recover",
    "C24_surjective"
   ],
   "note": "Each register operation has an explicit inverse; injectivity, surjectivity and password recovery."
  },
  {
   "property": "C25",
   "status": "proved",
   "theorems": [
    "C25_insert_zero",
    "C25_zeros_irrelevant",
    "C25_only_zeros",
    "C25_nondigit",
    "C25_hash_prefix",
    "C25_hash_prefix_large"
   ],
   "note": "Zero insertion for every password; '#' and other non-digits for passwords below 2^32, with a witness that larger passwords are affected."
  },
  {
   "property": "C26",
   "status": "proved",
   "theorems": [
    "C26_roundtrip",
    "C26_reverse",
    "C26_odd",
    "C26_not_hex"
   ],
   "note": "Full claim, both directions, all strings; non-ASCII decimal digits are a parameter."
  },
  {
   "property": "C27",
   "status": "partial",
   "theorems": [
    "C27_client_partial",
    "C27_server_partial",
    "C27_create_key_partial",
    "C27_unknown_algorithm_partial",
    "C27_server_order_differs_partial",
    "C27_server_order_refuted"
   ],
   "note": "Refuted for the server string: the code hashes Rb,Ra,Kab, the documentation says Ra,Rb,Kab. Proved: client string, actual server string, key length, unknown algorithms, for all hash and HMAC functions."
  },
  {
   "property": "C28",
   "status": "partial",
   "theorems": [
    "C28_accepted_partial",
    "C28_conforming_gateway_refuted",
    "C28_bare_confirmation_refuted"
   ],
   "note": "Refuted: every gateway that follows the documented HMAC messages is rejected, for all passwords, keys and hash functions; so is the same confirmation without the leading '#'. The partial theorem says exactly which confirmation tags are accepted."
  },
  {
   "property": "C29",
   "status": "proved",
   "theorems": [
    "C29_start_iff"
   ],
   "note": "Iff over all gateway conversations, with the exact exchange and the state left behind."
  },
  {
   "property": "C30",
   "status": "proved",
   "theorems": [
    "C30_session_first",
    "C30_session_text",
    "C30_password_only_after_challenge"
   ],
   "note": "C30_session_text writes out the two session frames. Order of frames over all conversations; independence of the password as an equality of runs unless a challenge was received."
  },
  {
   "property": "C31",
   "status": "proved",
   "theorems": [
    "C31_unsupported_algorithm",
    "C31_independent_of_password"
   ],
   "note": "Full claim: exact trace and independence of the password."
  },
  {
   "property": "C32",
   "status": "proved",
   "theorems": [
    "C32_stops_talking",
    "C32_unfinished_handshake",
    "C32_unreachable"
   ],
   "note": "Every prefix of every conversation: either the outcome does not need more, or TimeoutError with a prefix of the writes. Corollary for unfinished handshakes."
  },
  {
   "property": "C33",
   "status": "proved",
   "theorems": [
    "C33_connected_after_history",
    "C33_send",
    "C33_read"
   ],
   "note": "Over any history of start, close, send and read calls."
  },
  {
   "property": "C34",
   "status": "partial",
   "theorems": [
    "C34_failed_start_still_sends_refuted",
    "C34_failed_start_unusable_refuted",
    "C34_failed_start_partial"
   ],
   "note": "Refuted for every failing handshake on a command session; partial: no connection, event session, or after close()."
  },
  {
   "property": "C35",
   "status": "proved",
   "theorems": [
    "C35_answer_total",
    "C35_command",
    "C35_normal",
    "C35_normal_tag",
    "C35_writing",
    "C35_writing_empty",
    "C35_bad_text",
    "C35_no_session"
   ],
   "note": "Full claim for every item, text, value list, session state and queue content; a writing without values prints an empty one (C35_writing_empty)."
  },
  {
   "property": "C36",
   "status": "proved",
   "theorems": [
    "C36_status_stream",
    "C36_no_session",
    "C36_every_inbox",
    "C36_lazy"
   ],
   "note": "Full claim for every reply sequence (C36_every_inbox shows that the case distinction is exhaustive), plus laziness for consumers that stop early."
  },
  {
   "property": "C37",
   "status": "proved",
   "theorems": [
    "C37_dimension_stream",
    "C37_no_session",
    "C37_every_inbox",
    "C37_single"
   ],
   "note": "Full claim, also for the single-value requests."
  },
  {
   "property": "C38",
   "status": "partial",
   "theorems": [
    "C38_late_answer_refuted",
    "C38_in_time_partial",
    "C38_positional"
   ],
   "note": "Refuted: after a late ACK the next command succeeds whatever the gateway says about it. Proved when answers are in time or missing; in general the k-th command reports the k-th event of the queue."
  },
  {
   "property": "C39",
   "status": "partial",
   "theorems": [
    "C39_command_table_partial",
    "C39_turn_on_30_min_refuted",
    "C39_free_resources_refuted",
    "C39_frame_unique"
   ],
   "note": "Proved for 57 of 59 commands at every address. Refuted for turn_on_30_min (WHAT 17 is documented as 30 seconds) and free_resources (*7*9## instead of *7*9*##)."
  },
  {
   "property": "C40",
   "status": "partial",
   "theorems": [
    "C40_speed_refuted",
    "C40_amount_refuted",
    "C40_documented_frame_refuted",
    "C40_partial"
   ],
   "note": "Refuted: with a speed or an amount the four methods always raise ValueError, because with_parameter on a WhatLight member looks the text up among the members. Out-of-range and no-argument behaviour is proved."
  },
  {
   "property": "C41",
   "status": "partial",
   "theorems": [
    "C41_hsv",
    "C41_white_temperature_partial",
    "C41_white_temperature_refuted",
    "C41_brightness",
    "C41_temporization_partial",
    "C41_temporization_refuted"
   ],
   "note": "set_hsv and set_brightness_with_speed proved in full. set_white_temperature writes dimension 13, documented is 14 (refuted). temporization_command refuses 24 to 255 hours, which the documents allow (refuted)."
  },
  {
   "property": "C42",
   "status": "partial",
   "theorems": [
    "C42_one_argument",
    "C42_instant_power",
    "C42_defaults",
    "C42_daily_partial",
    "C42_daily_refuted",
    "C42_negative",
    "C42_negative_second"
   ],
   "note": "All one-argument commands, defaults and negative arguments proved. The daily report sends day#month where the documents have month#day (refuted for every day different from the month)."
  },
  {
   "property": "C43",
   "status": "proved",
   "theorems": [
    "C43_display_dial"
   ],
   "note": "Proved in full."
  },
  {
   "property": "C44",
   "status": "proved",
   "theorems": [
    "C44_same",
    "C44_distinct",
    "C44_class",
    "C44_failure",
    "C44_success"
   ],
   "note": "Full claim, over every history of all steps (events create items too). What is compared is (WHO, text of WHERE); the tags are modelled as values, so the identity of the WHERE object itself is not."
  },
  {
   "property": "C45",
   "status": "proved",
   "theorems": [
    "C45_skipped",
    "C45_between"
   ],
   "note": "Full claim: no item is made, nothing is started, the loop goes on; C45_between removes such a message from any queue without changing the run."
  },
  {
   "property": "C46",
   "status": "partial",
   "theorems": [
    "C46_refuted",
    "C46_iff_partial",
    "C46_ended"
   ],
   "note": "Refuted: an energy event from an undocumented address raises InvalidTag (or IndexError) out of loop(). The partial theorem is exact: the loop survives a queue iff every message in it is harmless."
  },
  {
   "property": "C47",
   "status": "partial",
   "theorems": [
    "C47_partial",
    "C47_first_partial",
    "C47_only_events",
    "C47_sound",
    "C47_refuted",
    "C47_origin"
   ],
   "note": "Proved for Python up to 3.12 (partial); refuted for 3.13 and later, where the chained classmethod/property no longer works: no callback is ever started in any history. The supported range is >=3.11. C47_origin traces every start back to a frame in a packet received before."
  },
  {
   "property": "C48",
   "status": "partial",
   "theorems": [
    "C48_registration",
    "C48_family_partial",
    "C48_class_refuted"
   ],
   "note": "Registrations for one event never change what another event starts (proved). Refuted in the class clause: callbacks registered on Dimmer are called with Light items; the partial theorem has families in place of classes."
  },
  {
   "property": "C49",
   "status": "proved",
   "theorems": [
    "C49_isolated",
    "C49_without"
   ],
   "note": "Full claim for errors in decoding and in callbacks: the outcome of the queue without the bad event is the same up to the bad event's own tasks."
  },
  {
   "property": "C50",
   "status": "partial",
   "theorems": [
    "C50_hsv_partial",
    "C50_never_refuted",
    "C50_luminosity_refuted",
    "C50_wrong_refuted"
   ],
   "note": "HSV proved. Refuted for the others: dimension 2, 14 events are ignored, luminosity is looked up under dimension 8 and temporization under dimension 1."
  },
  {
   "property": "C51",
   "status": "partial",
   "theorems": [
    "C51_float_partial",
    "C51_level_partial",
    "C51_actuator_partial",
    "C51_parameters_refuted",
    "C51_never_refuted"
   ],
   "note": "Four energy values, the level and the actuator info (as one value) are delivered. Refuted: every event with parameters in its dimension is ignored, so six of the registration methods can never have an effect, in any history."
  },
  {
   "property": "C52",
   "status": "partial",
   "theorems": [
    "C52_value_partial",
    "C52_text_refuted",
    "C52_documented_partial",
    "C52_nonsense"
   ],
   "note": "Time, date, datetime, IP address and uptime are delivered as the getter returns them. Refuted for the text values, which are spread into one argument per character. C52_documented_partial and C52_nonsense say it from the values on the wire, with a specification of their own."
  },
  {
   "property": "C53",
   "status": "partial",
   "theorems": [
    "C53_refuted",
    "C53_pending_partial",
    "C53_close_refuted"
   ],
   "note": "Refuted in three ways (lost, closed, malformed packet) for every continuation, and close() with a message pending raises AttributeError. The partial theorem says exactly when a lost connection ends the loop. Cancellation of the task is not a step of the model."
  },
  {
   "property": "C54",
   "status": "proved",
   "theorems": [
    "C54_date_roundtrip",
    "C54_get_date",
    "C54_get_date_exact"
   ],
   "note": "Every valid date; C54_get_date_exact characterises which replies are accepted."
  },
  {
   "property": "C55",
   "status": "proved",
   "theorems": [
    "C55_one_day",
    "C55_weekday"
   ],
   "note": "The day of the week is specified by counting days from 1 January 2000; existence and uniqueness proved by induction over the calendar."
  },
  {
   "property": "C56",
   "status": "partial",
   "theorems": [
    "C56_get_time",
    "C56_documented_reply",
    "C56_naive",
    "C56_roundtrip_partial",
    "C56_roundtrip_refuted",
    "C56_three_digits_refuted",
    "C56_get_time_exact"
   ],
   "note": "Refuted: the field has four digits, of which three are read back; the round trip holds exactly for offsets 0 and -2 hours. Decoding of documented replies is proved; C56_get_time_exact says of every reply whether get_time succeeds and with what."
  },
  {
   "property": "C57",
   "status": "partial",
   "theorems": [
    "C57_get_datetime",
    "C57_documented_reply_partial",
    "C57_roundtrip_refuted",
    "C57_naive",
    "C57_get_datetime_exact"
   ],
   "note": "Refuted for every datetime: seven fields are written, the eighth is missing when read back. Decoding of documented replies is proved; C57_get_datetime_exact says of every reply whether get_datetime succeeds and with what."
  },
  {
   "property": "C58",
   "status": "proved",
   "theorems": [
    "C58_getters",
    "C58_ip_exact",
    "C58_ip_error",
    "C58_netmask",
    "C58_netmask_error"
   ],
   "note": "Full claim."
  },
  {
   "property": "C59",
   "status": "partial",
   "theorems": [
    "C59_mac_partial",
    "C59_mac_refuted"
   ],
   "note": "Refuted for every address: the octets stay decimal. The partial theorem says what is returned."
  },
  {
   "property": "C60",
   "status": "partial",
   "theorems": [
    "C60_get_model",
    "C60_model_partial",
    "C60_h4684_refuted"
   ],
   "note": "Refuted for the documented code 13. All other codes and all other texts proved."
  },
  {
   "property": "C61",
   "status": "proved",
   "theorems": [
    "C61_getters",
    "C61_version",
    "C61_version_short",
    "C61_uptime",
    "C61_uptime_errors"
   ],
   "note": "Full claim."
  },
  {
   "property": "C62",
   "status": "partial",
   "theorems": [
    "C62_documented",
    "C62_other_partial",
    "C62_iff",
    "C62_stop_go",
    "C62_invalid_tag_refuted"
   ],
   "note": "Which addresses are accepted, and as what type, is proved exactly. Refuted in the exception: an actuator address without its parameter (71) raises IndexError instead of InvalidTag; C62_other_partial gives the exception for every other address."
  },
  {
   "property": "C63",
   "status": "partial",
   "theorems": [
    "C63_documented",
    "C63_mask_partial",
    "C63_mask_refuted"
   ],
   "note": "The documented answer (mask followed by the thirteen single bits) is decoded correctly for every mask. Refuted for the mask reply alone: its binary text is read as a decimal number; the partial theorem says exactly what is decoded."
  },
  {
   "property": "C64",
   "status": "partial",
   "theorems": [
    "C64_partial",
    "C64_refuted"
   ],
   "note": "Refuted: the mask is read from the wrong end. C64_partial gives the status delivered for every mask, C64_refuted says it is right exactly for the palindromic masks."
  },
  {
   "property": "C65",
   "status": "proved",
   "theorems": [
    "C65_last_wins",
    "C65_given_messages",
    "C65_own_dimension",
    "C65_unknown_dimension"
   ],
   "note": "Full claim, by induction over the reply stream; also for messages the caller passes in."
  },
  {
   "property": "C66",
   "status": "proved",
   "theorems": [
    "C66_shapes",
    "C66_positions",
    "C66_request"
   ],
   "note": "Full claim; C66_shapes shows that the cases are exhaustive."
  },
  {
   "property": "C67",
   "status": "partial",
   "theorems": [
    "C67_matcher",
    "C67_exponential_refuted",
    "C67_refuted",
    "C67_valid_partial",
    "C67_classes",
    "C67_packet_partial"
   ],
   "note": "Refuted for texts that are no frames: exponential lower bound for every length, hence no polynomial bound. For every text that parses, and every packet that is accepted, the bound is linear (C67_valid_partial, C67_packet_partial); the patterns of the message classes are linear on every text (C67_classes). Cost is the number of character tests of a backtracking matcher with CPython's strategy, proved to decide the same language as the model's matcher."
  },
  {
   "property": "C68",
   "status": "proved",
   "theorems": [
    "C68_light",
    "C68_dimmer",
    "C68_automation",
    "C68_total"
   ],
   "note": "Full claim, for every conversation."
  },
  {
   "property": "C69",
   "status": "partial",
   "theorems": [
    "C69_parameterised_dimension_refuted",
    "C69_never_by_direction",
    "C69_response_partial"
   ],
   "note": "Refuted for requests and writings in general; proved for responses with values."
  },
  {
   "property": "C71",
   "status": "proved",
   "theorems": [
    "C71_requests",
    "C71_netinfo",
    "C71_octets",
    "C71_get_netinfo"
   ],
   "note": "Full claim; IPv4Network is modelled after CPython's ipaddress."
  },
  {
   "property": "C70",
   "status": "partial",
   "theorems": [
    "C70_documented_refuted",
    "C70_one_value_partial",
    "C70_asked_refuted",
    "C70_asked_partial"
   ],
   "note": "Refuted for every documented reply: IndexError. Only one value of six digits is readable."
  },
  {
   "property": "C73",
   "status": "proved",
   "theorems": [
    "C73_float",
    "C73_getters",
    "C73_level",
    "C73_totalizers",
    "C73_totalizers_decoded"
   ],
   "note": "Full claim. float is modelled on digit texts with round-half-even to 53 bits; Nearest is specified independently of the rounding algorithm."
  },
  {
   "property": "C74",
   "status": "partial",
   "theorems": [
    "C74_queries_partial",
    "C74_working_time_partial",
    "C74_working_time_refuted"
   ],
   "note": "Four queries proved. request_working_time_lamp sends dimension 3, documented is 8 (refuted)."
  },
  {
   "property": "C75",
   "status": "partial",
   "theorems": [
    "C75_totalizer_unit_refuted",
    "C75_raw_partial"
   ],
   "note": "Refuted: 2000 Wh are returned as 2000. The partial theorem says the raw number is returned."
  },
  {
   "property": "C72",
   "status": "partial",
   "theorems": [
    "C72_status_partial",
    "C72_dimmed_refuted"
   ],
   "note": "What is delivered is proved for every WHAT: True iff WHAT is 1. Refuted for the dimming levels."
  },
  {
   "property": "C76",
   "status": "partial",
   "theorems": [
    "C76_events_refuted",
    "C76_later_packets_refuted",
    "C76_earlier_partial"
   ],
   "note": "Refuted: an exception out of data_received makes asyncio close the transport. The partial theorem says that everything received before is kept. C76_events_refuted: after a bad packet an event client goes on exactly as if no later packet had been sent."
  },
  {
   "property": "C77",
   "status": "partial",
   "theorems": [
    "C77_refuted",
    "C77_prefix_partial"
   ],
   "note": "Refuted with a witness; the partial theorem says that the callbacks before the first raising one are started."
  },
  {
   "property": "C78",
   "status": "proved",
   "theorems": [
    "C78_invalid",
    "C78_lost",
    "C78_waits"
   ],
   "note": "Full claim."
  },
  {
   "property": "C79",
   "status": "partial",
   "theorems": [
    "C79_dispatch_partial",
    "C79_refuted",
    "C79_never_refuted"
   ],
   "note": "Refuted: ITEM_TYPES has no entry for WHO 7, so no camera event starts anything and camera callbacks are never called in any history. C79_dispatch_partial: given a camera item and a camera frame, the dispatcher itself would call every callback registered for that event, with the item and the message."
  },
  {
   "property": "C80",
   "status": "partial",
   "theorems": [
    "C80_requests_isolated_refuted",
    "C80_commands_any_schedule_refuted",
    "C80_commands_partial",
    "C80_one_at_a_time_partial",
    "C80_same_as_alone"
   ],
   "note": "Refuted under the ordinary asyncio scheduling: a status request and a command begun while it waits share the messages, so the command raises ResponseError although it was acknowledged. Partial: commands only under FIFO scheduling (any number under way), and any requests one at a time. Without FIFO scheduling (eager tasks) even commands swap answers (C80_commands_any_schedule_refuted). C80_same_as_alone: a request that is alone behaves as in the model of items."
  },
  {
   "property": "C81",
   "status": "partial",
   "theorems": [
    "C81_immutable_refuted",
    "C81_immutable_partial",
    "C81_tags_copy"
   ],
   "note": "Refuted for GenericMessage, which keeps the caller's list. Proved for everything parse_message returns and for messages made from tuples; the copy made by .tags is proved for every message."
  },
  {
   "property": "C82",
   "status": "proved",
   "theorems": [
    "C82_reconnect",
    "C82_as_new"
   ],
   "note": "Full claim; the outcome, the frames and the messages left are a function of the new connection alone."
  },
  {
   "property": "C83",
   "status": "partial",
   "theorems": [
    "C83_exact",
    "C83_close_refuted",
    "C83_close_partial"
   ],
   "note": "Exact count of connections left open for every history. Refuted by a failed start that is tried again: the first transport is overwritten without being closed. Partial: no start replaces a connection."
  },
  {
   "property": "C84",
   "status": "partial",
   "theorems": [
    "C84_after_query_refuted",
    "C84_after_query_partial",
    "C84_after_bad_reply",
    "C84_after_break"
   ],
   "note": "Refuted: Automation.get_status raises ValueError and leaves the closing ACK, which the next (refused) command takes for its own. Partial: queries read to their end with decodable replies; the other two cases are characterised exactly."
  },
  {
   "property": "C85",
   "status": "proved",
   "theorems": [
    "C85_many",
    "C85_many_one_client",
    "C85_callback",
    "C85_one_client",
    "C85_get"
   ],
   "note": "C85_many: the same with several loops on one or several clients. Full claim, by an invariant over the cache for every history. An example shows an item that keeps the client of an earlier get_item."
  },
  {
   "property": "C86",
   "status": "partial",
   "theorems": [
    "C86_class_parse_refuted",
    "C86_normal_partial",
    "C86_status_partial",
    "C86_dimension_request_partial",
    "C86_dimension_values_partial",
    "C86_generic"
   ],
   "note": "Refuted: extra tags are ignored, the '#' that tells the kinds apart is not required, missing tags raise IndexError. Partial: exact description of what each class parser accepts; GenericMessage.parse in full, with the exception."
  },
  {
   "property": "C87",
   "status": "partial",
   "theorems": [
    "C87_failures_partial",
    "C87_value_error",
    "C87_conforming_gateway_refuted"
   ],
   "note": "Refuted: an HMAC gateway that follows the documents makes start() raise ValueError. Partial: a failed start() raises TimeoutError, InvalidAuthentication, or ValueError in two situations that are described exactly, in both directions."
  },
  {
   "property": "C88",
   "status": "proved",
   "theorems": [
    "C88_login_iff",
    "C88_login_succeeds",
    "C88_zero_challenge"
   ],
   "note": "The gateway is a relation from the history of the connection to what it says next; both directions for every pair of passwords. C88_zero_challenge: a challenge of zeros makes the client write the password in clear."
  },
  {
   "property": "C89",
   "status": "proved",
   "theorems": [
    "C89_states",
    "C89_served",
    "C89_last_order"
   ],
   "note": "Refinement of a map from devices to states, by induction over programs; the house is a relation between frames. C89_served: every program has such a run in every house."
  },
  {
   "property": "C90",
   "status": "proved",
   "theorems": [
    "C90_once",
    "C90_cancel",
    "C90_cancelled",
    "C90_restart",
    "C90_resume",
    "C90_one_loop"
   ],
   "note": "Full claim, by an account of the history: which message was handled when, with which callbacks. C90_one_loop: with one loop this is the model of C44 to C53."
  },
  {
   "property": "C91",
   "status": "partial",
   "theorems": [
    "C91_open_refuted",
    "C91_hmac_partial"
   ],
   "note": "Refuted for OPEN: a function computes the password from any handshake with a challenge other than zeros. Partial: without a one-tag challenge, clients whose passwords have the same digests behave identically."
  },
  {
   "property": "C92",
   "status": "partial",
   "theorems": [
    "C92_open_refuted",
    "C92_free_refuted",
    "C92_hmac_partial",
    "C92_other_password_partial"
   ],
   "note": "Refuted: gateways that send fixed messages are accepted (OPEN, and no authentication at all). Partial: with HMAC the last message must be the HMAC of the client's key, the gateway's key and the hash of the password."
  },
  {
   "property": "C93",
   "status": "partial",
   "theorems": [
    "C93_duration",
    "C93_start_duration",
    "C93_command_duration",
    "C93_single_duration_refuted",
    "C93_start",
    "C93_command",
    "C93_methods",
    "C93_single_refuted"
   ],
   "note": "start() takes at most 4 messages, a command 1 (full). Refuted for getters built on _single_dim_req, which read until the gateway acknowledges. On a clock: start() at most 20 s after connecting, a command at most 5 s, such a getter longer than any bound."
  },
  {
   "property": "C94",
   "status": "partial",
   "theorems": [
    "C94_mirror_partial",
    "C94_mirror_refuted",
    "C94_reports_partial"
   ],
   "note": "Refuted on Python 3.13 and later (no callback is ever started). Partial: Python up to 3.12, callbacks that start. C94_reports_partial: the same in terms of the frames of the documentation."
  },
  {
   "property": "C95",
   "status": "partial",
   "theorems": [
    "C95_wire_partial",
    "C95_alone_partial",
    "C95_wire_refuted"
   ],
   "note": "Refuted: requests for parameterised dimensions, tags with '##', tags ending in '#'. Partial: the messages that keep their meaning, described exactly (C95_alone_partial), for every grouping into packets of whole frames."
  },
  {
   "property": "C96",
   "status": "proved",
   "theorems": [
    "C96_once",
    "C96_accounted",
    "C96_no_lost_wakeup",
    "C96_served",
    "C96_ends_once"
   ],
   "note": "Full claim, invariants by induction over schedules, with expirations; C96_served: resuming the woken tasks serves all that can be served."
  },
  {
   "property": "C97",
   "status": "proved",
   "theorems": [
    "C97_independent",
    "C97_others_do_not_matter"
   ],
   "note": "Full claim: the state of a client is a function of the part of the history that concerns it."
  },
  {
   "property": "C98",
   "status": "partial",
   "theorems": [
    "C98_commands",
    "C98_gateway_partial",
    "C98_energy_partial",
    "C98_stop_go_partial",
    "C98_stop_go_given_partial",
    "C98_queries_partial",
    "C98_getters_refuted"
   ],
   "note": "Commands: full. Refuted for getters: cut or nonsensical values raise IndexError, ValueError or OverflowError. Partial: no other exception of Python is raised by any getter or query."
  },
  {
   "property": "C99",
   "status": "partial",
   "theorems": [
    "C99_next_command_refuted",
    "C99_takes_nothing_partial",
    "C99_cancel_partial",
    "C99_next_partial"
   ],
   "note": "Refuted: the answer to a cancelled command is reported by the next command. Partial: a cancelled request takes nothing more and does not end."
  },
  {
   "property": "C100",
   "status": "partial",
   "theorems": [
    "C100_own_answer_refuted",
    "C100_own_answer_partial"
   ],
   "note": "Refuted: the first dimension message is taken whatever it is about; get_ip can return the netmask, a meter the power of another. Partial: if all messages of the exchange are about the question, so is the one returned."
  },
  {
   "property": "C101",
   "status": "partial",
   "theorems": [
    "C101_given",
    "C101_sends",
    "C101_bad_address",
    "C101_total",
    "C101_text_or_tag",
    "C101_energy",
    "C101_get_item",
    "C101_reported_partial",
    "C101_reported_refuted"
   ],
   "note": "Messages, addresses and exceptions: full, for all classes. Refuted for item.who: it is the WHO of the class even if another was given, and from Python 3.13 on no WHO at all."
  },
  {
   "property": "C102",
   "status": "proved",
   "theorems": [
    "C102_all",
    "C102_stops",
    "C102_refused",
    "C102_cases",
    "C102_not_open",
    "C102_event",
    "C102_shutter",
    "C102_camera"
   ],
   "note": "Full claim: the three outcomes, that there are no others, and the two example programs."
  },
  {
   "property": "C103",
   "status": "proved",
   "theorems": [
    "C103_report",
    "C103_stops",
    "C103_not_open",
    "C103_gateway",
    "C103_meter",
    "C103_light",
    "C103_custom1",
    "C103_custom1_short",
    "C103_custom1_quiet",
    "C103_custom1_cases",
    "C103_custom1_address",
    "C103_custom2",
    "C103_custom2_bad",
    "C103_custom2_cases"
   ],
   "note": "Full claim: the five example programs, for every gateway behaviour after a successful or failed handshake."
  },
  {
   "property": "C104",
   "status": "partial",
   "theorems": [
    "C104_listener_partial",
    "C104_python_refuted",
    "C104_address_refuted"
   ],
   "note": "Refuted from Python 3.13 on (nobody is told anything) and after an energy event from an address that is not documented (the loop ends). Partial: full on Python up to 3.12 with documented energy addresses, once the queue is empty."
  },
  {
   "property": "C105",
   "status": "proved",
   "theorems": [
    "C105_means",
    "C105_other",
    "C105_unique",
    "C105_numeral",
    "C105_start"
   ],
   "note": "Full, for ASCII text; digits and white space of other scripts are left out of the model of int()."
  },
  {
   "property": "C106",
   "status": "proved",
   "theorems": [
    "C106_read",
    "C106_read_forever",
    "C106_read_closed",
    "C106_again",
    "C106_order"
   ],
   "note": "Full claim, on a model with a clock. A message that arrives at the very moment the timeout expires counts as late."
  },
  {
   "property": "C107",
   "status": "proved",
   "theorems": [
    "C107_read",
    "C107_sequence",
    "C107_calls",
    "C107_start",
    "C107_commands",
    "C107_status",
    "C107_dimension",
    "C107_getters",
    "C107_command_exact",
    "C107_query_exact"
   ],
   "note": "Full claim: for every call that stops at the first read that times out, which start(), commands, queries and getters are shown to be; the outcome of commands and queries exactly."
  },
  {
   "property": "C108",
   "status": "partial",
   "theorems": [
    "C108_refuted",
    "C108_when_partial",
    "C108_once_partial",
    "C108_soon_partial",
    "C108_starved_partial"
   ],
   "note": "Refuted: the delay is only slept while the transport is congested. Partial: exactly when a message is written; less than a delay after congestion ends for good; never if congestion is over only between the looks."
  },
  {
   "property": "C109",
   "status": "proved",
   "theorems": [
    "C109_session",
    "C109_algorithm",
    "C109_handshake"
   ],
   "note": "Full claim."
  },
  {
   "property": "C110",
   "status": "partial",
   "theorems": [
    "C110_logged_partial",
    "C110_once",
    "C110_others",
    "C110_at_end_partial",
    "C110_hanging_refuted",
    "C110_unstarted_refuted"
   ],
   "note": "Refuted in two ways: a callback of the same event that does not end keeps the exceptions of the others out of the log; and when calling a later callback raises at once, the tasks of those before it are never looked at (asyncio itself may complain when they are collected). Partial: exactly what is logged for each event when all calls make tasks. The log tells the truth, each exception at most once, and which callbacks are started does not depend on how others end: proved in full."
  },
  {
   "property": "C111",
   "status": "partial",
   "theorems": [
    "C111_queue",
    "C111_command_partial",
    "C111_cut_refuted",
    "C111_query_partial",
    "C111_start_partial"
   ],
   "note": "Refuted: an ACK divided into two packets makes a command raise ResponseError, unless the division is just before the final ##. Partial: packets of whole frames, with white space, in any grouping and with any timing; the bytes written in every case."
  },
  {
   "property": "C112",
   "status": "partial",
   "theorems": [
    "C112_erase",
    "C112_exact",
    "C112_shown",
    "C112_alike",
    "C112_ready",
    "C112_debug_refuted",
    "C112_debug_partial"
   ],
   "note": "Refuted at DEBUG with OPEN authentication: challenge and answer are both logged, and determine the password. At INFO and above the claim holds in full (C112_shown, C112_alike); at DEBUG, unless the gateway sends a one-tag challenge, the log depends on the password only through its digests."
  },
  {
   "property": "C113",
   "status": "partial",
   "theorems": [
    "C113_logged",
    "C113_one",
    "C113_light_refuted",
    "C113_silent_partial",
    "C113_failed"
   ],
   "note": "Refuted: dimensions of lights other than 1, 8, 12 and 13, and the energy dimensions 1200 and 251 to 263, are dropped silently. Partial: exactly which events leave no record; everything that is logged about each event of a run."
  },
  {
   "property": "C114",
   "status": "partial",
   "theorems": [
    "C114_notfound_refuted",
    "C114_unsupported_partial",
    "C114_from313"
   ],
   "note": "Refuted: the warning is only ever logged for messages whose item is there (the callbacks raised, or Python is 3.13 or later); messages without an item are logged as \"Item type not supported\", at INFO."
  },
  {
   "property": "C115",
   "status": "partial",
   "theorems": [
    "C115_neighbours_refuted",
    "C115_unknown_who_refuted",
    "C115_refused_partial",
    "C115_not_ascii_partial",
    "C115_alone_partial"
   ],
   "note": "Refuted in two ways: good frames in a packet with a refused one are neither delivered nor logged, and the frames after it; a frame with an unknown WHO raises ValueError, which data_received does not catch, so no warning is logged and only the exception (which names the WHO) at ERROR. Partial: exactly what is logged about every refused packet; a packet of one frame that is none is quoted; a packet that is no ASCII is covered by C115_not_ascii_partial."
  },
  {
   "property": "C116",
   "status": "proved",
   "theorems": [
    "C116_received",
    "C116_readable",
    "C116_repr",
    "C116_sent",
    "C116_sent_readable",
    "C116_debug",
    "C116_sent_debug"
   ],
   "note": "Full claim, for messages that have been received; made by hand, GenericMessage([]) and GenericMessage(['']) are shown alike. The record of a sent message is at DEBUG and determines the message."
  },
  {
   "property": "C117",
   "status": "partial",
   "theorems": [
    "C117_refuted",
    "C117_untouched_partial",
    "C117_set_again",
    "C117_logged"
   ],
   "note": "Refuted: Client(...) replaces the handler of the event loop, close() does not put it back, and reports without an exception (such as asyncio's of a pending task that is destroyed) are dropped silently. Partial: nothing changes without a client; a handler set afterwards is called."
  },
  {
   "property": "C118",
   "status": "partial",
   "theorems": [
    "C118_refuted",
    "C118_history_refuted",
    "C118_open",
    "C118_written_partial",
    "C118_acknowledged",
    "C118_closed"
   ],
   "note": "Refuted: after the loss of the connection transport.write drops data without an exception, so a command that finds a left-over ACK reports success with nothing written. Partial: it holds in every history in which no message is unread when the connection is lost, unless the client was closed before. Without loss, close and congestion the model is that of Model/Concurrent (C118_open)."
  },
  {
   "property": "C119",
   "status": "partial",
   "theorems": [
    "C119_waits_refuted",
    "C119_stuck_refuted",
    "C119_new_stuck_refuted",
    "C119_paused_refuted",
    "C119_reading_refuted",
    "C119_answered_partial",
    "C119_timeout_partial",
    "C119_fails_partial"
   ],
   "note": "Refuted: connection_lost wakes nobody. A read goes on until its own timeout or cancellation; a request suspended in protocol.send_message because writing is paused, or begun there, never ends unless cancelled, as resume_writing is not called any more and send_message has no timeout. Partial: a waiting read ends with TimeoutError when its timeout expires; with no message left nothing succeeds any more."
  },
  {
   "property": "C120",
   "status": "partial",
   "theorems": [
    "C120_same",
    "C120_get_model",
    "C120_told_partial",
    "C120_event",
    "C120_names",
    "C120_h4684_refuted",
    "C120_event_generic"
   ],
   "note": "Refuted for the documented code 13, about which the library warns. Partial: everything else. The specification lists the codes of the enumeration and of the documents as literals."
  },
  {
   "property": "C121",
   "status": "partial",
   "theorems": [
    "C121_same",
    "C121_command",
    "C121_query_refuted",
    "C121_query_partial",
    "C121_readable",
    "C121_no_data"
   ],
   "note": "Refuted for queries: _check_nack says of a NACK that it was received 'instead of NACK'. Commands satisfy the claim; queries do for every other answer, and the text quotes the answer always."
  },
  {
   "property": "C122",
   "status": "partial",
   "theorems": [
    "C122_same",
    "C122_exact",
    "C122_said",
    "C122_open_refuted",
    "C122_hmac_refuted",
    "C122_password_partial"
   ],
   "note": "Refuted for 'Invalid password': with OPEN it is said of any answer but an ACK, with HMAC also when the gateway accepted the client and its own proof is wrong. C122_exact says which conversations have which text, for all of them."
  },
  {
   "property": "C123",
   "status": "partial",
   "theorems": [
    "C123_refuted",
    "C123_fixed_partial",
    "C123_digits_partial"
   ],
   "note": "Refuted with OPEN authentication: the ValueError of int(password) quotes a password that is no number. Partial: if the password is a number the exceptions of the package have one of five fixed texts, and a password of digits is in none; exceptions of Python on what the gateway sent are not given a text in the model."
  },
  {
   "property": "C124",
   "status": "proved",
   "theorems": [
    "C124_loop",
    "C124_command",
    "C124_read"
   ],
   "note": "Full claim."
  },
  {
   "property": "C125",
   "status": "partial",
   "theorems": [
    "C125_readable",
    "C125_same_partial",
    "C125_gateway_refuted"
   ],
   "note": "Refuted for the gateway, of which get_item gives one object for each address asked for while all have the empty address. Partial: items of the other kinds; the class and the address can always be read off."
  },
  {
   "property": "C126",
   "status": "partial",
   "theorems": [
    "C126_only",
    "C126_exact",
    "C126_bound",
    "C126_queue_partial",
    "C126_queue_refuted"
   ],
   "note": "Refuted for the events: after an event from an impossible energy address has ended loop(), the connection stays open and every further event is kept. The claims about items are proved in full, and a loop that waits again has left no event behind."
  },
  {
   "property": "C127",
   "status": "partial",
   "theorems": [
    "C127_partial",
    "C127_refuted",
    "C127_possible"
   ],
   "note": "Refuted for dimming to a level, timed and blinking lights, of which callbacks are told that they are off. Partial: Python up to 3.12, orders that switch lights and move or stop shutters; packets of whole frames."
  },
  {
   "property": "C128",
   "status": "proved",
   "theorems": [
    "C128_same",
    "C128_told"
   ],
   "note": "Full claim, for packets of whole frames as in C111; C128_told adds what callbacks are told, under the conditions of C104."
  },
  {
   "property": "C129",
   "status": "proved",
   "theorems": [
    "C129_react",
    "C129_event_client"
   ],
   "note": "C129_react joins the loops (many_kept), the table of items and C39: callback, event, item and frame of the command have one address. C129_event_client is the case of an event client, which is the default of loop(). Commands with parameters are those of C40 and C41, at the same item."
  },
  {
   "property": "C130",
   "status": "partial",
   "theorems": [
    "C130_as_new_partial",
    "C130_account_partial",
    "C130_quiet",
    "C130_waiting_refuted",
    "C130_abandoned",
    "C130_switch",
    "C130_once"
   ],
   "note": "C130_as_new_partial is a simulation between a restarted client and a new one with the same items and callbacks; C130_account_partial says the same with the specification of C90. C130_quiet and C130_waiting_refuted: a loop that waited never hears of the new connection (read_message waits for the queue of the old protocol). C130_abandoned and C130_switch: start() without the end of the connection; what the old connection has received and nobody waits for is never handled, and a loop that waited takes one more message from there. C130_once links the model to that of C90."
  },
  {
   "property": "C131",
   "status": "partial",
   "theorems": [
    "C131_commands",
    "C131_rest",
    "C131_reports",
    "C131_acknowledged",
    "C131_own_refuted",
    "C131_own_partial"
   ],
   "note": "Model/EventLoop joins Model/Loops and Model/Concurrent by the list of ready handles of asyncio. C131_commands (order, once, all), C131_rest (the event loop comes to rest), C131_reports (reports in the order of the answers; all report) hold in every schedule. C131_own_refuted: the interleaving in which a callback takes the answer of an earlier command is one that asyncio's own order allows, without eager tasks (compare C80). C131_own_partial: what holds when no callback begins while a reader is woken."
  },
  {
   "property": "C132",
   "status": "partial",
   "theorems": [
    "C132_harmless",
    "C132_sound",
    "C132_own_refuted",
    "C132_told_partial",
    "C132_item",
    "C132_camera"
   ],
   "note": "Refuted: without an entry in ITEM_TYPES a class is told of nothing, for a WHO of the library only of what the library's class raised on, derived indirectly never, and from Python 3.13 on never. Partial: a direct subclass, alone with its WHO, entered in ITEM_TYPES, that does not raise, on Python up to 3.12, is told of everything. C132_harmless and C132_camera are full."
  },
  {
   "property": "C133",
   "status": "partial",
   "theorems": [
    "C133_command_partial",
    "C133_refused",
    "C133_address_refuted",
    "C133_two_frames_refuted"
   ],
   "note": "Refuted: an address with ## is accepted; a command then goes to the part before it, and a setting becomes a status request and a second frame made of the values. Partial: for every fixed command the gateway reads that command once, at a prefix of the text; at the text itself if it has no ## and no # at its end."
  },
  {
   "property": "C134",
   "status": "partial",
   "theorems": [
    "C134_gateway_partial",
    "C134_client_partial",
    "C134_open_gateway_refuted",
    "C134_open_client_refuted"
   ],
   "note": "Refuted for OPEN: what the gateway said once is a login whatever the client draws, and challenges that differ in zeros have one answer. Partial: with HMAC a repeated gateway is refused with InvalidAuthentication by a client with another token, and the frames a client writes differ if the gateway number differs, provided the two texts compared are no collision of the HMAC (a hypothesis on hashlib/hmac, stated as NoCollision)."
  },
  {
   "property": "C135",
   "status": "partial",
   "theorems": [
    "C135_order",
    "C135_own_partial",
    "C135_own_refuted"
   ],
   "note": "C135_order is full: it covers timeouts and cancellations too. Refuted for the reports: two tasks, two answers in one packet; the refused command reports success and the acknowledged one raises. Partial: every answer is read before the next arrives and before another task begins, nothing times out."
  },
  {
   "property": "C136",
   "status": "proved",
   "theorems": [
    "C136_one_order",
    "C136_every_order"
   ],
   "note": "The gateway is a specification: what a house does with a frame (Spec/House). Dimmer.get_status of a plain lamp and Light.get_status of a dimmer are outside (Fits), as in C89."
  },
  {
   "property": "C137",
   "status": "partial",
   "theorems": [
    "C137_same_partial",
    "C137_light_partial",
    "C137_differ_refuted",
    "C137_full_refuted"
   ],
   "note": "Refuted: a dimmed light is told as off where the getter says nothing, the level of a dimmer comes as a bool, the temporization, brightness, white temperature, totalizers and energy per month are not told, and texts of the gateway come as single characters. Partial: the shutter, HSV, time, date, IP, uptime, date and time, power, energy, month, day, actuator and level in full; lights told as on or off."
  },
  {
   "property": "C138",
   "status": "partial",
   "theorems": [
    "C138_turns",
    "C138_handed",
    "C138_own_partial",
    "C138_served_partial",
    "C138_full_refuted"
   ],
   "note": "Refuted: an answer that comes after the timeout of its request goes to the next request, lock or not. C138_turns and C138_handed hold in every history, with timeouts and cancellations; the claims about answers hold if no timeout expires and nothing is cancelled. The lock is CPython's, part of the trusted base."
  },
  {
   "property": "C139",
   "status": "proved",
   "theorems": [
    "C139_own",
    "C139_order",
    "C139_served"
   ],
   "note": "Full claim. start() is one step that succeeds (C82 says that it is the one of a new client). The lock is CPython's, part of the trusted base."
  },
  {
   "property": "C140",
   "status": "partial",
   "theorems": [
    "C140_next_reply",
    "C140_while_reading_refuted",
    "C140_shifted_refuted",
    "C140_no_value_partial",
    "C140_one_partial",
    "C140_after_reading_partial"
   ],
   "note": "Refuted for a command inside async for: C140_next_reply says what happens for all replies and answers, C140_shifted_refuted for a query with one reply. Partial: the query is read to its end first (any number of replies, any answers), no reply gives a value (C140_no_value_partial), or only the last one does (C140_one_partial). The claim C140_full is stated of the program as a parameter."
  },
  {
   "property": "C141",
   "status": "partial",
   "theorems": [
    "C141_attempts",
    "C141_bounded",
    "C141_late_answer_refuted",
    "C141_first_partial",
    "C141_anew_partial",
    "C141_next_partial"
   ],
   "note": "Refuted on one connection for every number of attempts: the late ACK of the first attempt ends the program, and the ACK of the second is taken for the answer to the next command. C141_attempts and C141_bounded hold for everything that arrives. Partial: no attempt is given up, or start() is called before each further attempt and succeeds."
  },
  {
   "property": "C142",
   "status": "partial",
   "theorems": [
    "C142_alone_partial",
    "C142_turns_partial",
    "C142_lost_refuted"
   ],
   "note": "Refuted: with two programs both questions may come before both orders (the frames are those of C136_every_order, so the library does this). Partial: one program, n times, the others leave the lamp alone; or any number of programs, each order next after its question. The gateway is the specification of a house of C89."
  },
  {
   "property": "C143",
   "status": "partial",
   "theorems": [
    "C143_known_partial",
    "C143_table_partial",
    "C143_stale_refuted"
   ],
   "note": "Refuted: the answer may be older than a report that was missed or already handled, and stays in the table. Partial: all reports are handled after the answer. C143_table_partial joins C136 (the question), C94 (the table of the callback) and C128 (nothing is lost between start() and loop()); Python up to 3.12. The gateway is the house of C89 and reports at least the changes."
  },
  {
   "property": "C144",
   "status": "partial",
   "theorems": [
    "C144_plan",
    "C144_last_partial",
    "C144_alone_partial",
    "C144_twice_refuted"
   ],
   "note": "Refuted: a frame that was answered too late has worked, and the second one works again after the order of somebody else. Partial: the last frame counts for the house (C144_last_partial), and alone the order works once (C144_alone_partial). C144_plan joins the loop of C141 to the programs of C136. The gateway is the house of C89; orders that depend on the state (steps of a dimmer) are not in it."
  },
  {
   "property": "C145",
   "status": "partial",
   "theorems": [
    "C145_at_once_partial",
    "C145_still_partial",
    "C145_each_refuted"
   ],
   "note": "Refuted for questions one after the other: between them the other program turns off the lamp that was asked and turns on the other. Partial: one request to an address of many lamps (C145_at_once_partial, for every call of every program, with the moments in order), and lamps that nobody else switches (C145_still_partial). The gateway is the house of C89, which answers a request at one moment; no call times out."
  },
  {
   "property": "C146",
   "status": "proved",
   "theorems": [
    "C146_answered",
    "C146_unanswered",
    "C146_bounded"
   ],
   "note": "On the clock of C106/C107: only waiting and sleeping take time. The loop is a program of the user. That a late answer counts for a later attempt, and leaves the answer to that one for the next command, is the refuted part of C141."
  },
  {
   "property": "C147",
   "status": "partial",
   "theorems": [
    "C147_exact",
    "C147_lag",
    "C147_in_time_partial",
    "C147_behind_partial",
    "C147_own_refuted"
   ],
   "note": "The claim is refuted (C147_own_refuted): the first order is acknowledged after 5.5 seconds, the second is refused, and the program is told that the second succeeded. C147_exact says for all arrivals how messages are handed out, and C147_lag which message each command is told; C147_in_time_partial is the claim while answers are in time; C147_behind_partial says that after one late answer every further command is told the answer to the one before. On the clock of C106/C107: only waiting and sleeping take time."
  },
  {
   "property": "C148",
   "status": "proved",
   "theorems": [
    "C148_discard",
    "C148_time",
    "C148_own",
    "C148_sharp"
   ],
   "note": "Full claim, with the bound on the delay in the statement and C148_sharp for its sharpness (d > 0). The loop is a program of the user, made of public calls; on the clock of C106/C107, where only waiting and sleeping take time. Without the reads the claim is false (C147)."
  },
  {
   "property": "C149",
   "status": "proved",
   "theorems": [
    "C149_own",
    "C149_all"
   ],
   "note": "Full claim; without the new connection it is false (C147_own_refuted), and with reads in place of it true only up to a delay (C148_sharp). The loop is a program of the user; close() and start() are one step that takes some time and ends with the session open, and if no connection is left the program ends. On the clock of C106/C107."
  }
 ]
}