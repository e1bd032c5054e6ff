{
 "claims": [
  {
   "property": "C01",
   "status": "proved",
   "theorems": [
    "Bt.C01_one_packet"
   ],
   "note": ""
  },
  {
   "property": "C02",
   "status": "proved",
   "theorems": [
    "Bt.C02_incomplete",
    "Bt.C02_nothing_taken"
   ],
   "note": ""
  },
  {
   "property": "C03",
   "status": "proved",
   "theorems": [
    "Bt.C03_history",
    "Bt.C03_schedule_independent",
    "Bt.C03_same_results"
   ],
   "note": ""
  },
  {
   "property": "C04",
   "status": "proved",
   "theorems": [
    "Bt.C04_one_by_one"
   ],
   "note": ""
  },
  {
   "property": "C05",
   "status": "proved",
   "theorems": [
    "Bt.C05_stuck",
    "Bt.C05_every_call"
   ],
   "note": ""
  },
  {
   "property": "C06",
   "status": "proved",
   "theorems": [
    "Bt.C06_uart",
    "Bt.C06_event_link"
   ],
   "note": ""
  },
  {
   "property": "C07",
   "status": "proved",
   "theorems": [
    "Bt.C07_uart",
    "Bt.C07_event_link",
    "Bt.C07_uart_calls",
    "Bt.C07_event_link_calls"
   ],
   "note": ""
  },
  {
   "property": "C08",
   "status": "proved",
   "theorems": [
    "Bt.C08_one_packet",
    "Bt.C08_incomplete",
    "Bt.C08_nothing_taken",
    "Bt.C08_history",
    "Bt.C08_schedule_independent",
    "Bt.C08_same_results",
    "Bt.C08_one_by_one"
   ],
   "note": ""
  },
  {
   "property": "C09",
   "status": "proved",
   "theorems": [
    "Bt.C09_sound_and_complete",
    "Bt.C09_unique"
   ],
   "note": ""
  },
  {
   "property": "C10",
   "status": "proved",
   "theorems": [
    "Bt.C10_distinct",
    "Bt.C10_reports"
   ],
   "note": "Spec.Lossless names the events that keep every byte; StatusInjective: the vendor's status codes are one-to-one. C10_reports: advertising reports lose only the number of reports."
  },
  {
   "property": "C11",
   "status": "proved",
   "theorems": [
    "Bt.C11_short",
    "Bt.C11_misframed",
    "Bt.C11_cut_or_padded"
   ],
   "note": ""
  },
  {
   "property": "C12",
   "status": "proved",
   "theorems": [
    "Bt.C12_unknown_event",
    "Bt.C12_supported"
   ],
   "note": ""
  },
  {
   "property": "C13",
   "status": "partial",
   "theorems": [
    "Bt.C13_panics_iff",
    "Bt.C13_no_panic_fails",
    "Bt.C13_no_panic_partial"
   ],
   "note": "False as stated: C13_no_panic_fails gives a witness; C13_panics_iff gives exactly the panicking packets; C13_no_panic_partial is the statement away from them."
  },
  {
   "property": "C14",
   "status": "proved",
   "theorems": [
    "Bt.C14_accepted_iff",
    "Bt.C14_pairs",
    "Bt.C14_every_list"
   ],
   "note": ""
  },
  {
   "property": "C15",
   "status": "proved",
   "theorems": [
    "Bt.C15_iteration"
   ],
   "note": ""
  },
  {
   "property": "C16",
   "status": "proved",
   "theorems": [
    "Bt.C16_round_trip_received",
    "Bt.C16_round_trip"
   ],
   "note": ""
  },
  {
   "property": "C17",
   "status": "partial",
   "theorems": [
    "Bt.C17_cut_iff",
    "Bt.C17_incomplete_fails",
    "Bt.C17_incomplete_partial"
   ],
   "note": "False as stated: C17_incomplete_fails gives a witness; C17_cut_iff gives the outcome for every cut; C17_incomplete_partial covers cuts after the ninth byte."
  },
  {
   "property": "C18",
   "status": "partial",
   "theorems": [
    "Bt.C18_count_fails",
    "Bt.C18_count_ignored",
    "Bt.C18_count_partial",
    "Bt.C18_count_iff_partial"
   ],
   "note": "False as stated: C18_count_fails gives a witness; C18_count_ignored shows the byte has no influence; C18_count_partial covers packets whose count byte is true. C18_count_iff_partial: the announced number is honoured exactly when it is the true one."
  },
  {
   "property": "C19",
   "status": "proved",
   "theorems": [
    "Bt.C19_helper"
   ],
   "note": ""
  },
  {
   "property": "C20",
   "status": "proved",
   "theorems": [
    "Bt.C20_decode_standard",
    "Bt.C20_decode_vendor",
    "Bt.C20_encode_decode",
    "Bt.C20_vendor_round_trip",
    "Bt.C20_injective",
    "Bt.C20_codes"
   ],
   "note": ""
  },
  {
   "property": "C21",
   "status": "proved",
   "theorems": [
    "Bt.C21_by_opcode",
    "Bt.C21_spontaneous",
    "Bt.C21_vendor",
    "Bt.C21_unknown_opcode",
    "Bt.C21_known_iff"
   ],
   "note": ""
  },
  {
   "property": "C22",
   "status": "proved",
   "theorems": [
    "Bt.C22_recognised",
    "Bt.C22_distinct_opcodes",
    "Bt.C22_answerable",
    "Bt.C22_others"
   ],
   "note": ""
  },
  {
   "property": "C23",
   "status": "proved",
   "theorems": [
    "Bt.C23_sound_and_complete",
    "Bt.C23_only_code"
   ],
   "note": ""
  },
  {
   "property": "C24",
   "status": "partial",
   "theorems": [
    "Bt.C24_exact_length_fails",
    "Bt.C24_trailing_ignored",
    "Bt.C24_exact_length_partial"
   ],
   "note": "False as stated: C24_exact_length_fails gives a witness; C24_trailing_ignored shows that trailing bytes never matter; C24_exact_length_partial covers replies of the right length."
  },
  {
   "property": "C25",
   "status": "proved",
   "theorems": [
    "Bt.C25_supported_commands",
    "Bt.C25_channel_map",
    "Bt.C25_le_states",
    "Bt.C25_remote_features",
    "Bt.C25_local_features",
    "Bt.C25_local_le_features"
   ],
   "note": ""
  },
  {
   "property": "C26",
   "status": "proved",
   "theorems": [
    "Bt.C26_truthful",
    "Bt.C26_length_faults_rejected"
   ],
   "note": ""
  },
  {
   "property": "C27",
   "status": "proved",
   "theorems": [
    "Bt.C27_events",
    "Bt.C27_new_statuses",
    "Bt.C27_commands"
   ],
   "note": ""
  },
  {
   "property": "C28",
   "status": "proved",
   "theorems": [
    "Bt.C28_build_iff"
   ],
   "note": ""
  },
  {
   "property": "C29",
   "status": "proved",
   "theorems": [
    "Bt.C29_first_violation",
    "Bt.C29_incomplete_and_total"
   ],
   "note": ""
  },
  {
   "property": "C30",
   "status": "proved",
   "theorems": [
    "Bt.C30_from_bytes",
    "Bt.C30_fixed_from_bytes",
    "Bt.C30_errors",
    "Bt.C30_every_string",
    "Bt.C30_panic_iff"
   ],
   "note": ""
  },
  {
   "property": "C31",
   "status": "partial",
   "theorems": [
    "Bt.C31_round_trip_fails",
    "Bt.C31_round_trip_partial"
   ],
   "note": "The round trip fails off the 5 ms grid because interval_as_u16 truncates to whole milliseconds first; C31_round_trip_fails is the witness, C31_round_trip_partial the exact domain where it holds."
  },
  {
   "property": "C32",
   "status": "partial",
   "theorems": [
    "Bt.C32_lower_bound_fails",
    "Bt.C32_serialised_partial",
    "Bt.C32_lower_bound_iff_partial"
   ],
   "note": "C32_lower_bound_fails shows a serialised minimum below 6 units (7.5 ms becomes 5); C32_serialised_partial gives the exact written words and the bounds that do hold. C32_lower_bound_iff_partial: the bound of 6 units holds exactly for intervals of at least 8 ms."
  },
  {
   "property": "C33",
   "status": "proved",
   "theorems": [
    "Bt.C33_accept_iff",
    "Bt.C33_errors",
    "Bt.C33_serialised"
   ],
   "note": ""
  },
  {
   "property": "C34",
   "status": "proved",
   "theorems": [
    "Bt.C34_accept_iff",
    "Bt.C34_errors",
    "Bt.C34_build",
    "Bt.C34_serialised"
   ],
   "note": ""
  },
  {
   "property": "C35",
   "status": "partial",
   "theorems": [
    "Bt.C35_floor_fails",
    "Bt.C35_floor_partial",
    "Bt.C35_floor_iff_partial"
   ],
   "note": "The 100 ms floor for non-connectable advertising is not enforced by the builder (C35_floor_fails); C35_floor_partial states what is enforced. C35_floor_iff_partial: the floor is enforced for exactly the scannable type before version 5.0."
  },
  {
   "property": "C36",
   "status": "proved",
   "theorems": [
    "Bt.C36_accept_iff",
    "Bt.C36_serialised"
   ],
   "note": ""
  },
  {
   "property": "C37",
   "status": "proved",
   "theorems": [
    "Bt.C37_written",
    "Bt.C37_parses_back",
    "Bt.C37_long_wraps"
   ],
   "note": ""
  },
  {
   "property": "C38",
   "status": "proved",
   "theorems": [
    "Bt.C38_sequence"
   ],
   "note": ""
  },
  {
   "property": "C39",
   "status": "proved",
   "theorems": [
    "Bt.C39_one_framed_write",
    "Bt.C39_trace"
   ],
   "note": "Specification: Spec.cmdOpcode, Spec.cmdParams, Spec.headerBytes (tables with the numbers of the Bluetooth specification). Interval arguments are those the public constructors return (Command.Constructible)."
  },
  {
   "property": "C40",
   "status": "proved",
   "theorems": [
    "Bt.C40_rejected",
    "Bt.C40_only_rejected",
    "Bt.C40_conditions"
   ],
   "note": "C40_conditions spells out the conditions; the specification table is Spec.cmdReject."
  },
  {
   "property": "C41",
   "status": "proved",
   "theorems": [
    "Bt.C41_result"
   ],
   "note": ""
  },
  {
   "property": "C42",
   "status": "proved",
   "theorems": [
    "Bt.C42_stream_parses",
    "Bt.C42_accepted",
    "Bt.C42_unique"
   ],
   "note": ""
  },
  {
   "property": "C43",
   "status": "proved",
   "theorems": [
    "Bt.C43_retry_once",
    "Bt.C43_retry_ends"
   ],
   "note": ""
  },
  {
   "property": "C44",
   "status": "proved",
   "theorems": [
    "Bt.C44_random_address",
    "Bt.C44_command"
   ],
   "note": ""
  },
  {
   "property": "C45",
   "status": "proved",
   "theorems": [
    "Bt.C45_outbound_data",
    "Bt.C45_recover"
   ],
   "note": ""
  },
  {
   "property": "C46",
   "status": "proved",
   "theorems": [
    "Bt.C46_block",
    "Bt.C46_determined"
   ],
   "note": ""
  },
  {
   "property": "C47",
   "status": "proved",
   "theorems": [
    "Bt.C47_distinct",
    "Bt.C47_same_behaviour"
   ],
   "note": ""
  },
  {
   "property": "C48",
   "status": "partial",
   "theorems": [
    "Bt.C48_header_fails",
    "Bt.C48_no_commands",
    "Bt.C48_header_partial"
   ],
   "note": "True for the UART and command-link headers; for event_link::NoCommands every command gets the header 00 00 00 (C48_header_fails, C48_no_commands)."
  },
  {
   "property": "C49",
   "status": "proved",
   "theorems": [
    "Bt.C49_fields",
    "Bt.C49_combine",
    "Bt.C49_injective",
    "Bt.C49_table"
   ],
   "note": ""
  },
  {
   "property": "C50",
   "status": "proved",
   "theorems": [
    "Bt.C50_empty",
    "Bt.C50_all",
    "Bt.C50_from_bits",
    "Bt.C50_union",
    "Bt.C50_compare",
    "Bt.C50_copy",
    "Bt.C50_tables_in_range"
   ],
   "note": ""
  },
  {
   "property": "C51",
   "status": "proved",
   "theorems": [
    "Bt.C51_masks",
    "Bt.C51_arrays",
    "Bt.C51_no_alias",
    "Bt.C51_array_no_alias"
   ],
   "note": ""
  },
  {
   "property": "C52",
   "status": "proved",
   "theorems": [
    "Bt.C52_written",
    "Bt.C52_round_trip"
   ],
   "note": ""
  },
  {
   "property": "C53",
   "status": "proved",
   "theorems": [
    "Bt.C53_keys",
    "Bt.C53_recover"
   ],
   "note": ""
  },
  {
   "property": "C54",
   "status": "partial",
   "theorems": [
    "Bt.C54_rejected",
    "Bt.C54_delivered_fails",
    "Bt.C54_delivered_partial",
    "Bt.C54_delivered_iff_partial"
   ],
   "note": "False as stated: C54_rejected shows that the packet is rejected for every status and handle; C54_delivered_partial: delivered when the interval fields are legal. C54_delivered_iff_partial: delivered exactly when the interval fields are legal, whatever the status."
  },
  {
   "property": "C55",
   "status": "proved",
   "theorems": [
    "Bt.C55_link_layer_features",
    "Bt.C55_lmp_features",
    "Bt.C55_le_features",
    "Bt.C55_le_states",
    "Bt.C55_event_flags",
    "Bt.C55_le_event_flags",
    "Bt.C55_advertising_channels",
    "Bt.C55_default_channels",
    "Bt.C55_commands",
    "Bt.C55_data_channels"
   ],
   "note": ""
  },
  {
   "property": "C56",
   "status": "partial",
   "theorems": [
    "Bt.C56_event_mask",
    "Bt.C56_le_event_mask_partial",
    "Bt.C56_missing_flags"
   ],
   "note": "False for LE Data Length Change before 4.2 and LE PHY Update Complete before 5.0 (C56_missing_flags); proved for all other events and configurations."
  },
  {
   "property": "C57",
   "status": "proved",
   "theorems": [
    "Bt.C57_support"
   ],
   "note": ""
  },
  {
   "property": "C58",
   "status": "proved",
   "theorems": [
    "Bt.C58_parameters",
    "Bt.C58_plaintext",
    "Bt.C58_key",
    "Bt.C58_ciphertext"
   ],
   "note": "core::fmt is modelled for {:?}, {:X?} and {:#?}."
  },
  {
   "property": "C59",
   "status": "partial",
   "theorems": [
    "Bt.C59_shown_partial",
    "Bt.C59_exactly",
    "Bt.C59_octet_39_dropped"
   ],
   "note": "False with version-5-0 (C59_octet_39_dropped: `self.0[32..39]` leaves octet 39 out); proved without it. C59_exactly: the text determines, in every configuration, exactly the first 39 octets."
  },
  {
   "property": "C60",
   "status": "proved",
   "theorems": [
    "Bt.C60_completed_packets",
    "Bt.C60_advertising_report",
    "Bt.C60_reports_told_apart",
    "Bt.C60_items"
   ],
   "note": ""
  },
  {
   "property": "C61",
   "status": "partial",
   "theorems": [
    "Bt.C61_connection_partial",
    "Bt.C61_update_partial",
    "Bt.C61_timeout_100ms"
   ],
   "note": "False for a supervision timeout of exactly 100 ms (C61_timeout_100ms); the partial theorems say that this is the only exception."
  },
  {
   "property": "C62",
   "status": "partial",
   "theorems": [
    "Bt.C62_never_right",
    "Bt.C62_phy_partial"
   ],
   "note": "False for every PHY (C62_never_right); C62_phy_partial says exactly what is reported instead."
  },
  {
   "property": "C63",
   "status": "proved",
   "theorems": [
    "Bt.C63_first_fault",
    "Bt.C63_one_fate"
   ],
   "note": ""
  },
  {
   "property": "C64",
   "status": "proved",
   "theorems": [
    "Bt.C64_uart",
    "Bt.C64_two_links"
   ],
   "note": ""
  },
  {
   "property": "C65",
   "status": "proved",
   "theorems": [
    "Bt.C65_recovers",
    "Bt.C65_link_recovers",
    "Bt.C65_bound_needed"
   ],
   "note": ""
  },
  {
   "property": "C66",
   "status": "partial",
   "theorems": [
    "Bt.C66_distinct",
    "Bt.C66_registered_partial",
    "Bt.C66_tk_value",
    "Bt.C66_written"
   ],
   "note": "False for SecurityManagerTkValue (C66_tk_value); everything else proved."
  },
  {
   "property": "C67",
   "status": "proved",
   "theorems": [
    "Bt.C67_renaming"
   ],
   "note": ""
  },
  {
   "property": "C68",
   "status": "proved",
   "theorems": [
    "Bt.C68_no_vendor"
   ],
   "note": ""
  },
  {
   "property": "C69",
   "status": "proved",
   "theorems": [
    "Bt.C69_pairs",
    "Bt.C69_reports"
   ],
   "note": ""
  },
  {
   "property": "C70",
   "status": "proved",
   "theorems": [
    "Bt.C70_status"
   ],
   "note": ""
  },
  {
   "property": "C71",
   "status": "proved",
   "theorems": [
    "Bt.C71_uart",
    "Bt.C71_two_links"
   ],
   "note": ""
  },
  {
   "property": "C72",
   "status": "proved",
   "theorems": [
    "Bt.C72_uart",
    "Bt.C72_event_link",
    "Bt.C72_uart_every",
    "Bt.C72_event_link_every",
    "Bt.C72_uart_next_call",
    "Bt.C72_event_link_next_call"
   ],
   "note": ""
  },
  {
   "property": "C73",
   "status": "proved",
   "theorems": [
    "Bt.C73_commands",
    "Bt.C73_events",
    "Bt.C73_read",
    "Bt.C73_application"
   ],
   "note": ""
  },
  {
   "property": "C74",
   "status": "proved",
   "theorems": [
    "Bt.C74_exactly"
   ],
   "note": ""
  },
  {
   "property": "C75",
   "status": "proved",
   "theorems": [
    "Bt.C75_exactly",
    "Bt.C75_uart",
    "Bt.C75_event_link"
   ],
   "note": ""
  },
  {
   "property": "C76",
   "status": "proved",
   "theorems": [
    "Bt.C76_every_packet",
    "Bt.C76_every_event",
    "Bt.C76_two_not_enough",
    "Bt.C76_link_every_packet"
   ],
   "note": ""
  },
  {
   "property": "C77",
   "status": "proved",
   "theorems": [
    "Bt.C77_sent",
    "Bt.C77_heard"
   ],
   "note": ""
  },
  {
   "property": "C78",
   "status": "partial",
   "theorems": [
    "Bt.C78_fails",
    "Bt.C78_exactly_partial",
    "Bt.C78_other_commands"
   ],
   "note": "False for three kinds of intervals (C78_fails); C78_exactly_partial says that these are the only exceptions."
  },
  {
   "property": "C79",
   "status": "partial",
   "theorems": [
    "Bt.C79_fails",
    "Bt.C79_update_partial",
    "Bt.C79_create_partial"
   ],
   "note": "False for lower bounds that are no multiple of 5 ms (C79_fails); the partial theorems bound the error by 2 ms and show that all other bounds are kept."
  },
  {
   "property": "C80",
   "status": "proved",
   "theorems": [
    "Bt.C80_uart",
    "Bt.C80_two_links"
   ],
   "note": ""
  },
  {
   "property": "C81",
   "status": "partial",
   "theorems": [
    "Bt.C81_delivered_partial",
    "Bt.C81_before_42",
    "Bt.C81_identity",
    "Bt.C81_fails"
   ],
   "note": "False from 4.2 on (C81_fails): reports with identity addresses are rejected; C81_delivered_partial says that these are the only exceptions, C81_identity what happens to them."
  },
  {
   "property": "C82",
   "status": "partial",
   "theorems": [
    "Bt.C82_accepted",
    "Bt.C82_understood_partial",
    "Bt.C82_success",
    "Bt.C82_fails",
    "Bt.C82_misread"
   ],
   "note": "False (C82_fails): the exceptions are listed by StdEvent.Rejected, StdEvent.Misread and, for failures, StdEvent.InRange; C82_understood_partial says that they are all."
  },
  {
   "property": "C83",
   "status": "proved",
   "theorems": [
    "Bt.C83_no_panic",
    "Bt.C83_uart",
    "Bt.C83_event_link"
   ],
   "note": ""
  },
  {
   "property": "C84",
   "status": "proved",
   "theorems": [
    "Bt.C84_handle",
    "Bt.C84_completed",
    "Bt.C84_peer",
    "Bt.C84_report",
    "Bt.C84_rand",
    "Bt.C84_encrypted",
    "Bt.C84_channel_map",
    "Bt.C84_two_devices"
   ],
   "note": ""
  },
  {
   "property": "C85",
   "status": "proved",
   "theorems": [
    "Bt.C85_uart",
    "Bt.C85_two_links"
   ],
   "note": ""
  },
  {
   "property": "C86",
   "status": "proved",
   "theorems": [
    "Bt.C86_builders",
    "Bt.C86_written"
   ],
   "note": ""
  },
  {
   "property": "C87",
   "status": "proved",
   "theorems": [
    "Bt.C87_uart",
    "Bt.C87_packets"
   ],
   "note": ""
  },
  {
   "property": "C88",
   "status": "partial",
   "theorems": [
    "Bt.C88_open",
    "Bt.C88_closed",
    "Bt.C88_unknown",
    "Bt.C88_allowed",
    "Bt.C88_event_partial",
    "Bt.C88_fails",
    "Bt.C88_uart_partial",
    "Bt.C88_event_link_partial"
   ],
   "note": "False (C88_fails): a connection with a supervision timeout of 100 ms is rejected, so the application does not know of it. C88_event_partial says which events are missed: such connections and updates, and replies to failed commands with fields out of range; otherwise the accounts agree in every conversation."
  },
  {
   "property": "C89",
   "status": "proved",
   "theorems": [
    "Bt.C89_asked_for",
    "Bt.C89_uart",
    "Bt.C89_packets"
   ],
   "note": ""
  },
  {
   "property": "C90",
   "status": "partial",
   "theorems": [
    "Bt.C90_events",
    "Bt.C90_uart",
    "Bt.C90_event_link",
    "Bt.C90_uart_partial",
    "Bt.C90_event_link_partial",
    "Bt.C90_not_told_apart"
   ],
   "note": "False with version-5-0 only (C90_not_told_apart: two replies to Read Local Supported Commands that differ in octet 39 print alike); proved without it for everything read returns. C90_events, C90_uart and C90_event_link give the exact boundary in every configuration: octets of supported commands from 39 on are all that the text does not determine."
  },
  {
   "property": "C91",
   "status": "proved",
   "theorems": [
    "Bt.C91_advertising_parameters",
    "Bt.C91_scan_parameters",
    "Bt.C91_connection_parameters",
    "Bt.C91_masks",
    "Bt.C91_names",
    "Bt.C91_flags",
    "Bt.C91_advertising_interval",
    "Bt.C91_scan_window",
    "Bt.C91_expected_length",
    "Bt.C91_connection_interval",
    "Bt.C91_results",
    "Bt.C91_would_block_needed"
   ],
   "note": "C91_advertising_parameters, C91_scan_parameters, C91_connection_parameters, C91_masks and C91_names for parameters; C91_advertising_interval, C91_scan_window, C91_expected_length and C91_connection_interval for results of constructors; C91_results for results of commands. C91_would_block_needed shows that the condition on WouldBlock cannot be dropped."
  },
  {
   "property": "C92",
   "status": "partial",
   "theorems": [
    "Bt.C92_exactly_partial",
    "Bt.C92_fails",
    "Bt.C92_fails_test",
    "Bt.C92_other_commands",
    "Bt.C92_tests",
    "Bt.C92_multiples_of_5ms"
   ],
   "note": "False for two kinds of packets (C92_fails, C92_fails_test); C92_exactly_partial says that these are the only exceptions. C92_other_commands, C92_tests and C92_multiples_of_5ms are the cases that hold without exception."
  },
  {
   "property": "C93",
   "status": "partial",
   "theorems": [
    "Bt.C93_rounds_partial",
    "Bt.C93_kept",
    "Bt.C93_settles",
    "Bt.C93_fails"
   ],
   "note": "False (C93_fails): the interval loses 1.25 ms per round until it is a multiple of 5 ms, and below 10 ms the loop ends with parameters the library itself rejects. C93_rounds_partial gives the parameters after n rounds exactly; C93_kept the intervals that stay."
  },
  {
   "property": "C94",
   "status": "proved",
   "theorems": [
    "Bt.C94_decoding",
    "Bt.C94_steps",
    "Bt.C94_reading",
    "Bt.C94_iterators",
    "Bt.C94_writing",
    "Bt.C94_commands"
   ],
   "note": "Target.* repeats the functions that compute with usize, with the arithmetic of a machine (wrapping or checked); each is proved equal to the one with unbounded numbers."
  },
  {
   "property": "C95",
   "status": "partial",
   "theorems": [
    "Bt.C95_fails",
    "Bt.C95_reads_partial",
    "Bt.C95_blocks",
    "Bt.C95_no_parameters",
    "Bt.C95_never_panics",
    "Bt.C95_read_into_continues"
   ],
   "note": "False (C95_fails): the example peeks at the first parameter for the length. C95_reads_partial says exactly what it takes; C95_blocks and C95_no_parameters are the complete packets on which it blocks; C95_never_panics holds for every controller. C95_read_into_continues is about the example of read_into, which is right."
  },
  {
   "property": "C96",
   "status": "proved",
   "theorems": [
    "Bt.C96_framed",
    "Bt.C96_exactly",
    "Bt.C96_uart",
    "Bt.C96_uart_occurs",
    "Bt.C96_event_link",
    "Bt.C96_event_link_occurs",
    "Bt.C96_commands"
   ],
   "note": "Both directions: no other error occurs, and every specified one does. C96_uart and C96_event_link need only that bytes are handed out in order."
  },
  {
   "property": "C97",
   "status": "proved",
   "theorems": [
    "Bt.C97_decoding",
    "Bt.C97_vendor_event",
    "Bt.C97_vendor_reply",
    "Bt.C97_uart",
    "Bt.C97_event_link"
   ],
   "note": "Non-interference: the vendor functions may be replaced by any others, even panicking ones, that agree on the named arguments."
  },
  {
   "property": "C98",
   "status": "proved",
   "theorems": [
    "Bt.C98_uart",
    "Bt.C98_event_link",
    "Bt.C98_command",
    "Bt.C98_uart_application",
    "Bt.C98_link_application",
    "Bt.C98_uart_calls",
    "Bt.C98_link_calls",
    "Bt.C98_reading_calls_made"
   ],
   "note": "Relational: a relation between the states of two controllers that is kept by the listed calls is kept by every application."
  },
  {
   "property": "C99",
   "status": "proved",
   "theorems": [
    "Bt.C99_pairs",
    "Bt.C99_reports",
    "Bt.C99_reports_bounds",
    "Bt.C99_commands"
   ],
   "note": "Exact: each bound is attained."
  },
  {
   "property": "C100",
   "status": "proved",
   "theorems": [
    "Bt.C100_history",
    "Bt.C100_one_by_one",
    "Bt.C100_takeData",
    "Bt.C100_takeData_promptly",
    "Bt.C100_schedule_independent"
   ],
   "note": "The method that takes other packets is the application's, not part of the crate; the theorems are about the crate's read together with any such method."
  },
  {
   "property": "C101",
   "status": "proved",
   "theorems": [
    "Bt.C101_uart_no_overrun",
    "Bt.C101_uart_in_order",
    "Bt.C101_uart_paired",
    "Bt.C101_two_links_no_overrun",
    "Bt.C101_two_links_in_order",
    "Bt.C101_two_links_paired"
   ],
   "note": ""
  },
  {
   "property": "C102",
   "status": "proved",
   "theorems": [
    "Bt.C102_uart",
    "Bt.C102_two_links"
   ],
   "note": ""
  },
  {
   "property": "C103",
   "status": "proved",
   "theorems": [
    "Bt.C103_uart_known",
    "Bt.C103_uart",
    "Bt.C103_two_links_known",
    "Bt.C103_two_links"
   ],
   "note": ""
  },
  {
   "property": "C104",
   "status": "proved",
   "theorems": [
    "Bt.C104_enough",
    "Bt.C104_258",
    "Bt.C104_stuck",
    "Bt.C104_exact",
    "Bt.C104_link_enough",
    "Bt.C104_link_stuck",
    "Bt.C104_link_exact"
   ],
   "note": ""
  },
  {
   "property": "C105",
   "status": "proved",
   "theorems": [
    "Bt.C105_told",
    "Bt.C105_procedures",
    "Bt.C105_no_confusion",
    "Bt.C105_noticed"
   ],
   "note": ""
  },
  {
   "property": "C106",
   "status": "proved",
   "theorems": [
    "Bt.C106_exact",
    "Bt.C106_accepted",
    "Bt.C106_off",
    "Bt.C106_stale",
    "Bt.C106_uart",
    "Bt.C106_event_link"
   ],
   "note": ""
  },
  {
   "property": "C107",
   "status": "partial",
   "theorems": [
    "Bt.C107_way_back_partial",
    "Bt.C107_clean_partial",
    "Bt.C107_history_partial",
    "Bt.C107_all_partial",
    "Bt.C107_exact_partial",
    "Bt.C107_fails"
   ],
   "note": "False in general: C107_fails gives a valid event, sent again and again, that a host which lost four bytes never reports. C107_way_back_partial: with no 0x04 inside the later packets all are found that begin 258 bytes or more after the remains; C107_exact_partial: nothing is lost exactly if the remains are stray bytes and whole events; C107_history_partial and C107_all_partial say what the application is told."
  },
  {
   "property": "C108",
   "status": "proved",
   "theorems": [
    "Bt.C108_same_key",
    "Bt.C108_started"
   ],
   "note": ""
  },
  {
   "property": "C109",
   "status": "proved",
   "theorems": [
    "Bt.C109_answer",
    "Bt.C109_session"
   ],
   "note": ""
  },
  {
   "property": "C110",
   "status": "proved",
   "theorems": [
    "Bt.C110_uart",
    "Bt.C110_link",
    "Bt.C110_uart_all",
    "Bt.C110_link_all",
    "Bt.C110_uart_before",
    "Bt.C110_link_before",
    "Bt.C110_indicator",
    "Bt.C110_length"
   ],
   "note": ""
  },
  {
   "property": "C111",
   "status": "proved",
   "theorems": [
    "Bt.C111_reason",
    "Bt.C111_said",
    "Bt.C111_version",
    "Bt.C111_features"
   ],
   "note": ""
  },
  {
   "property": "C112",
   "status": "proved",
   "theorems": [
    "Bt.C112_heard",
    "Bt.C112_determined",
    "Bt.C112_white_list",
    "Bt.C112_session"
   ],
   "note": ""
  },
  {
   "property": "C113",
   "status": "proved",
   "theorems": [
    "Bt.C113_made",
    "Bt.C113_updated"
   ],
   "note": ""
  },
  {
   "property": "C114",
   "status": "proved",
   "theorems": [
    "Bt.C114_never_overrun",
    "Bt.C114_no_credit_lost",
    "Bt.C114_known",
    "Bt.C114_handles_reused"
   ],
   "note": ""
  },
  {
   "property": "C115",
   "status": "proved",
   "theorems": [
    "Bt.C115_uart",
    "Bt.C115_event_link",
    "Bt.C115_uart_exact",
    "Bt.C115_event_link_exact"
   ],
   "note": ""
  },
  {
   "property": "C116",
   "status": "proved",
   "theorems": [
    "Bt.C116_catches_up",
    "Bt.C116_no_leak",
    "Bt.C116_handles_reused",
    "Bt.C116_turned_off",
    "Bt.C116_unknown_reason"
   ],
   "note": ""
  },
  {
   "property": "C117",
   "status": "proved",
   "theorems": [
    "Bt.C117_uart",
    "Bt.C117_event_link",
    "Bt.C117_uart_complete",
    "Bt.C117_event_link_complete",
    "Bt.C117_no_leak_uart",
    "Bt.C117_no_leak_event_link"
   ],
   "note": ""
  },
  {
   "property": "C118",
   "status": "proved",
   "theorems": [
    "Bt.C118_uart",
    "Bt.C118_event_link",
    "Bt.C118_uart_every_state",
    "Bt.C118_event_link_every_state",
    "Bt.C118_two_not_enough"
   ],
   "note": ""
  },
  {
   "property": "C119",
   "status": "proved",
   "theorems": [
    "Bt.C119_no_deadlock",
    "Bt.C119_credit_again",
    "Bt.C119_unknown_reason",
    "Bt.C119_lost_for_good"
   ],
   "note": ""
  },
  {
   "property": "C120",
   "status": "proved",
   "theorems": [
    "Bt.C120_uart",
    "Bt.C120_event_link"
   ],
   "note": ""
  },
  {
   "property": "C121",
   "status": "proved",
   "theorems": [
    "Bt.C121_uart_goes_on",
    "Bt.C121_event_link_goes_on",
    "Bt.C121_uart",
    "Bt.C121_event_link",
    "Bt.C121_uart_catches_up",
    "Bt.C121_event_link_catches_up"
   ],
   "note": ""
  },
  {
   "property": "C122",
   "status": "proved",
   "theorems": [
    "Bt.C122_uart",
    "Bt.C122_event_link",
    "Bt.C122_uart_may_send",
    "Bt.C122_event_link_may_send"
   ],
   "note": ""
  },
  {
   "property": "C123",
   "status": "proved",
   "theorems": [
    "Bt.C123_packets",
    "Bt.C123_uart",
    "Bt.C123_event_link",
    "Bt.C123_uart_unknown_reason",
    "Bt.C123_event_link_unknown_reason"
   ],
   "note": ""
  },
  {
   "property": "C124",
   "status": "proved",
   "theorems": [
    "Bt.C124_uart",
    "Bt.C124_event_link"
   ],
   "note": ""
  }
 ]
}