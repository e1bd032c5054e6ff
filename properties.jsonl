{"id": "C01", "title": "UART read delivers exactly one framed packet", "statement": "When the controller's receive queue starts with a complete HCI event packet (0x04, event code, length n, n bytes), host::uart::Hci::read consumes exactly those 3+n bytes and nothing after them, and its result (event or BLE error) is the result of decoding exactly that packet, independent of whatever bytes follow it.", "quantifier": "every event code, every payload of length 0..255, every queue tail, every vendor type, every feature configuration", "why_tests_cant": "The framing must be right for every payload length (including 0 and 255) and every suffix; a unit test fixes one packet and an empty tail.", "anchors": ["src/host/uart.rs:Hci::read", "src/host/uart.rs:Hci::read_event", "src/lib.rs:Controller"]}
{"id": "C02", "title": "An incomplete packet blocks and consumes nothing", "statement": "If the receive queue is a proper prefix of a UART event packet, read returns WouldBlock and leaves the queue unchanged, so no byte is lost whatever the moment at which the host polls.", "quantifier": "every packet and every proper prefix of it (including the empty one)", "why_tests_cant": "There are 3+n cut points per packet and unboundedly many packets; tests only try one or two cut points.", "anchors": ["src/host/uart.rs:Hci::read", "src/host/uart.rs:Hci::read_event"]}
{"id": "C03", "title": "Polling schedule does not change what is received", "statement": "For every controller that honours the documented peek/read_into contract (bytes in order, nothing consumed by peek or by a failed read_into, spurious WouldBlock and communication errors allowed at any call), any history of read calls returns, apart from WouldBlock and communication errors, exactly the decodings of the packets in the byte stream, in order, each once, and the bytes consumed are exactly those packets.", "quantifier": "every contract-conforming controller, every byte stream, every interleaving of arrivals, spurious blocks, errors and read calls, every number of calls", "why_tests_cant": "Quantifies over unbounded schedules and adversarial (but contract-conforming) controllers.", "anchors": ["src/host/uart.rs:Hci::read", "src/lib.rs:Controller::peek", "src/lib.rs:Controller::read_into"]}
{"id": "C04", "title": "A malformed packet does not desynchronise the stream", "statement": "If the stream is a concatenation of well framed event packets, then reading repeatedly produces exactly one result per packet, in order, and each result depends only on its own packet, even when other packets in the stream are rejected with a BLE error.", "quantifier": "every finite sequence of framed packets, with any mixture of valid and invalid payloads", "why_tests_cant": "An unbounded sequence property: resynchronisation after every possible malformed packet.", "anchors": ["src/host/uart.rs:Hci::read", "src/event/mod.rs:Event::new"]}
{"id": "C05", "title": "A byte that is not an event indicator is reported and not consumed", "statement": "If the first queued byte is not 0x04, read returns BadPacketType with that byte and consumes nothing; consequently every later read returns the same error until the application removes the byte by other means, no matter how many further bytes arrive.", "quantifier": "every non-event first byte, every tail, every number of retries, every later arrival", "why_tests_cant": "The livelock consequence is about unbounded retry histories.", "anchors": ["src/host/uart.rs:Hci::read", "src/host/uart.rs:Error::BadPacketType"]}
{"id": "C06", "title": "Controller errors reach the caller unchanged", "statement": "For an arbitrary controller, if peek or read_into fails with a communication error e then read returns Comm(e), if it would block then read returns WouldBlock; read never invents a communication error or WouldBlock, and never reports an event when the controller failed.", "quantifier": "every controller behaviour (no contract assumed), every controller state", "why_tests_cant": "Quantifies over all controller implementations.", "anchors": ["src/host/uart.rs:rewrap_error", "src/host/uart.rs:Hci::read", "src/host/event_link.rs:Hci::read"]}
{"id": "C07", "title": "Receiving cannot overrun the packet buffer", "statement": "For an arbitrary, even misbehaving, controller, read never panics on buffer indexing: whatever length byte the controller reports, the 258-byte packet buffer suffices. A panic of read implies that decoding the received packet panicked.", "quantifier": "every controller behaviour and state, including one whose peek and read_into disagree", "why_tests_cant": "Memory-bounds safety for all 256 length values and adversarial peripherals.", "anchors": ["src/host/uart.rs:MAX_EVENT_LENGTH", "src/host/uart.rs:Hci::read_event", "src/host/event_link.rs:Hci::read"]}
{"id": "C08", "title": "Event-link read has the same guarantees without the packet type byte", "statement": "host::event_link::Hci::read consumes exactly 2+n bytes for a complete packet, nothing when the packet is incomplete, and its history of results is the sequence of decodings of the packets in the stream, for every schedule.", "quantifier": "every contract-conforming controller, every byte stream, every schedule", "why_tests_cant": "Unbounded schedules and streams.", "anchors": ["src/host/event_link.rs:Hci::read"]}
{"id": "C09", "title": "Event decoding is sound and complete for the wire format", "statement": "Event::new(packet) returns event e if and only if packet is a wire encoding of e: correct event code, length byte equal to the number of parameter bytes, each field at its specified offset in little-endian order with values in the recognised ranges. Hence no valid packet is rejected, no field is misread, and no invalid packet is accepted.", "quantifier": "every byte string and every event value, in every feature configuration, for every vendor", "why_tests_cant": "Both directions range over all byte strings; tests only sample packets.", "anchors": ["src/event/mod.rs:Event::new", "src/event/mod.rs:to_connection_complete", "src/event/mod.rs:to_le_connection_complete", "src/event/mod.rs:to_le_meta_event"]}
{"id": "C10", "title": "Distinct packets give distinct events", "statement": "For events with a fixed layout and no truncated flag fields, two packets that decode to the same event are byte-for-byte equal: decoding loses no information.", "quantifier": "every pair of packets", "why_tests_cant": "Quantifies over pairs of inputs (injectivity).", "anchors": ["src/event/mod.rs:Event::new"]}
{"id": "C11", "title": "Truncated or padded packets are rejected with the true lengths", "statement": "A packet shorter than two bytes, or whose length byte differs from the number of parameter bytes present, is rejected with BadLength(a, b) where a is the number of bytes actually present and b the number announced; no such packet produces an event.", "quantifier": "every byte string", "why_tests_cant": "Every byte string of every length.", "anchors": ["src/event/mod.rs:Event::new", "src/event/mod.rs:Error::BadLength"]}
{"id": "C12", "title": "Unknown event codes are reported with the offending code", "statement": "A correctly framed packet yields UnknownEvent(c) exactly when c is its event code (or, for LE meta events, its subevent code) and c is not one of the supported codes; supported codes are never reported as unknown.", "quantifier": "every framed packet, vendor-independent", "why_tests_cant": "All 256 codes with all payloads.", "anchors": ["src/event/mod.rs:Event::new", "src/event/mod.rs:to_le_meta_event"]}
{"id": "C13", "title": "Decoding never panics", "statement": "Event::new returns Ok or Err for every byte string. (The code violates this for Command Complete with too few return-parameter bytes and for truncated LE advertising reports; the exact set of panicking packets is characterised.)", "quantifier": "every byte string, every feature configuration, every vendor whose own code does not panic", "why_tests_cant": "Absence of panics over all inputs; the known violations were missed by the unit tests.", "anchors": ["src/event/mod.rs:Event::new", "src/event/command.rs:to_status", "src/event/command.rs:to_le_read_white_list_size", "src/event/mod.rs:to_le_advertising_report"]}
{"id": "C14", "title": "Number Of Completed Packets yields each pair once, in order", "statement": "When a Number Of Completed Packets event is accepted, iterating it yields exactly the announced number of (connection handle, count) pairs, in packet order, each with the values in the packet, and never panics; the packet is accepted exactly when its payload is 1+4n bytes for the announced n.", "quantifier": "every payload, every n from 0 to 63", "why_tests_cant": "Iteration length and content for every n and every payload.", "anchors": ["src/event/mod.rs:to_number_of_completed_packets", "src/event/mod.rs:NumberOfCompletedPacketsIterator::next"]}
{"id": "C15", "title": "Iterating an accepted advertising report never panics", "statement": "If an LE Advertising Report event is accepted, then iterating over it terminates, never panics, and yields advertisements whose concatenated encodings are exactly the report bytes in the packet.", "quantifier": "every accepted report, of any number of advertisements with any data lengths", "why_tests_cant": "The iterator unwraps internally; safety depends on an invariant established for all inputs by the constructor.", "anchors": ["src/event/mod.rs:LeAdvertisingReportIterator::next", "src/event/mod.rs:LeAdvertisingReportInnerIterator::next", "src/event/mod.rs:to_le_advertising_report"]}
{"id": "C16", "title": "Advertising reports round-trip", "statement": "For every list of advertisements (any event type, address, data, RSSI) that fits in an event, the packet encoding them is accepted and iterating the result yields exactly that list in order, except that an RSSI of 127, the code for 'not available', is read back as None.", "quantifier": "every list of advertisements with total encoded size at most 253 bytes", "why_tests_cant": "Lists of unbounded shape.", "anchors": ["src/event/mod.rs:to_le_advertising_report", "src/event/mod.rs:LeAdvertisingReportInnerIterator::next_report"]}
{"id": "C17", "title": "Truncated advertising reports are rejected as incomplete", "statement": "An LE Advertising Report packet whose last advertisement is cut short is rejected with LeAdvertisementReportIncomplete. (False when the cut falls inside the first nine bytes of an advertisement: the decoder panics.)", "quantifier": "every report and every cut point", "why_tests_cant": "Every cut point of every report.", "anchors": ["src/event/mod.rs:LeAdvertisingReportInnerIterator::next"]}
{"id": "C18", "title": "The announced number of advertising reports is honoured", "statement": "An accepted LE Advertising Report event yields as many advertisements as its Num_Reports byte announces. (False: the byte is ignored; the number of advertisements is determined by the data alone.)", "quantifier": "every accepted report packet", "why_tests_cant": "A relation between two parts of every packet.", "anchors": ["src/event/mod.rs:to_le_advertising_report"]}
{"id": "C19", "title": "The report test helper agrees with the decoder", "statement": "event::test_helpers::report_with_advertisements(advs) iterates back to advs for every list that fits in 253 bytes (and panics exactly when it does not fit), except that RSSI Some(127) comes back as None.", "quantifier": "every list of advertisements", "why_tests_cant": "Lists of unbounded shape.", "anchors": ["src/event/mod.rs:test_helpers::report_with_advertisements"]}
{"id": "C20", "title": "Status codes map one-to-one", "statement": "Every byte 0x00..0x40 (0x00..0x44 with version-5-0) decodes to a standard status that encodes back to the same byte; distinct standard statuses have distinct codes; every other byte is passed to the vendor and, when the vendor rejects it, the error carries the byte the vendor reported. Encoding then decoding gives back the same status for all standard statuses, and for vendor statuses whose code lies outside the standard range and which the vendor decodes back.", "quantifier": "every byte, every status, every vendor status type", "why_tests_cant": "Quantifies over vendor implementations as well as all codes.", "anchors": ["src/lib.rs:Status", "src/lib.rs:TryFrom<u8> for Status", "src/lib.rs:Into<u8> for Status"]}
{"id": "C21", "title": "Command Complete is decoded according to its opcode", "statement": "A Command Complete payload of at least three bytes is decoded with the return-parameter layout of exactly the command whose opcode it carries; a vendor opcode (OGF 0x3F) goes to the vendor; opcode 0 is Spontaneous; any other opcode is rejected with UnknownOpcode carrying that opcode.", "quantifier": "all 65536 opcodes with all parameter bytes", "why_tests_cant": "All opcodes with all payloads.", "anchors": ["src/event/command.rs:CommandComplete::new"]}
{"id": "C22", "title": "Every command's response is recognised as that command's response", "statement": "For each API command that the controller answers with Command Complete, a Command Complete event carrying the opcode that the API wrote and well-formed return parameters is decoded into the ReturnParameters variant of that command. API methods share an opcode only when they send the same HCI command.", "quantifier": "every API command with every argument and every well-formed response", "why_tests_cant": "Relates the transmit side to the receive side for all arguments.", "anchors": ["src/host/mod.rs:Hci", "src/event/command.rs:CommandComplete::new", "src/opcode.rs"]}
{"id": "C23", "title": "Return parameters are decoded exactly", "statement": "Command Complete decoding is sound and complete: it returns e if and only if the payload is num_hci_command_packets, the opcode and the encoded return parameters of e (modulo the documented truncation of reserved feature bits and ignored trailing bytes after status-only replies).", "quantifier": "every payload and every return-parameter value", "why_tests_cant": "Both directions range over all byte strings.", "anchors": ["src/event/command.rs:CommandComplete::new", "src/event/command.rs:ReturnParameters"]}
{"id": "C24", "title": "Oversized replies to status-only commands are rejected", "statement": "A Command Complete event for a command that returns only a status is rejected unless exactly one return-parameter byte is present. (False: trailing bytes are silently accepted, and zero bytes panic.)", "quantifier": "every status-only opcode and every payload", "why_tests_cant": "All payload lengths.", "anchors": ["src/event/command.rs:to_status"]}
{"id": "C25", "title": "Reserved flag bits are handled uniformly and never reported as set", "statement": "A supported-commands map, a channel map, an LE states mask and a remote feature mask with a reserved bit set are rejected (except for the supported-commands map the error carries the offending value); local LMP and LE feature masks are accepted with reserved bits cleared. In every case an accepted value contains exactly the recognised bits of the packet.", "quantifier": "every 64-byte / 40-bit / 64-bit mask, every feature configuration", "why_tests_cant": "2^512 command masks, 2^64 feature masks.", "anchors": ["src/bitflag_array.rs:from_bits", "src/event/command.rs:to_supported_commands", "src/event/command.rs:to_le_channel_map_parameters", "src/event/command.rs:to_le_read_supported_states", "src/event/mod.rs:to_le_read_remote_used_features_complete"]}
{"id": "C26", "title": "Errors are truthful", "statement": "Every error returned by Event::new is justified by the packet: the value it carries is present at the corresponding field of the packet and is outside the accepted set, and the length pair it carries is the actual and required length.", "quantifier": "every rejected packet", "why_tests_cant": "All rejected packets.", "anchors": ["src/event/mod.rs:Error", "src/event/mod.rs:Event::new"]}
{"id": "C27", "title": "Upgrading the Bluetooth version feature only adds behaviour", "statement": "Every packet accepted with a lower version feature set is accepted with version-5-0 as well and decodes to the same event, unless it carries a status byte 0x41..0x44 interpreted by the vendor or feature bits that the lower version masks out; every command writes the same bytes in every configuration.", "quantifier": "every packet, every pair of feature configurations", "why_tests_cant": "Relates two builds of the crate over all inputs.", "anchors": ["Cargo.toml:features", "src/lib.rs:Status", "src/lib.rs:LinkLayerFeature", "src/event/command.rs:CommandFlags"]}
{"id": "C28", "title": "Connection interval builder accepts exactly the legal parameters", "statement": "ConnectionIntervalBuilder::build succeeds exactly when all three parameters were given, 7.5 ms <= min <= max <= 4 s, latency <= 499, (1+latency)*max*2 < 32 s, and the supervision timeout is strictly greater than both 100 ms and (1+latency)*max*2 and at most 32 s; the result holds exactly the last values given, whatever the order of the setter calls.", "quantifier": "every pair of durations, every latency, every timeout, every sequence of setter calls", "why_tests_cant": "Four-dimensional input space with interacting bounds.", "anchors": ["src/types/connection_interval.rs:ConnectionIntervalBuilder"]}
{"id": "C29", "title": "Connection interval builder reports the first violated constraint", "statement": "When build fails the error names a constraint that is really violated, carries the offending values, and is the first violated one in the documented order.", "quantifier": "every builder state", "why_tests_cant": "All combinations of simultaneous violations.", "anchors": ["src/types/connection_interval.rs:ConnectionIntervalBuilder::build", "src/types/connection_interval.rs:ConnectionIntervalError"]}
{"id": "C30", "title": "Connection intervals from bytes are decoded in 1.25 ms / 10 ms units and validated", "statement": "ConnectionInterval::from_bytes and FixedConnectionInterval::from_bytes accept exactly the byte strings whose decoded parameters satisfy the builder's constraints, never report Incomplete, never overflow, and return the decoded values; the interval reported equals raw*1.25 ms and the timeout raw*10 ms.", "quantifier": "all 2^64 (2^48) parameter byte strings", "why_tests_cant": "All 2^64 inputs.", "anchors": ["src/types/connection_interval.rs:ConnectionInterval::from_bytes", "src/types/connection_interval.rs:FixedConnectionInterval::from_bytes"]}
{"id": "C31", "title": "Connection intervals survive a round trip through their wire form", "statement": "Serialising a valid connection interval that is a multiple of 1.25 ms and decoding it again gives the same interval. (False: the serialiser truncates to whole milliseconds first; the exact set on which the round trip holds, multiples of 5 ms, is proved.)", "quantifier": "every valid connection interval on the 1.25 ms grid", "why_tests_cant": "The failing inputs are three quarters of the grid but the unit test uses multiples of 5 ms.", "anchors": ["src/types/connection_interval.rs:ConnectionInterval::copy_into_slice", "src/types/connection_interval.rs:ConnectionInterval::interval_as_u16"]}
{"id": "C32", "title": "Serialised connection parameters are legal on the air interface", "statement": "copy_into_slice of any built connection interval writes 8 bytes with interval values in 6..3200 with min <= max, latency at most 499 and timeout in 10..3200. (False for the lower bound: 7.5 ms is written as 5; 5..3200 is proved.)", "quantifier": "every value the builder can produce", "why_tests_cant": "All builder outputs.", "anchors": ["src/types/connection_interval.rs:ConnectionInterval::copy_into_slice"]}
{"id": "C33", "title": "Scan windows are legal exactly when accepted, and serialise legally", "statement": "ScanWindow construction succeeds exactly when 2.5 ms <= window <= interval <= 10.24 s; the error is the documented one; the serialised form is two little-endian values in 4..16384 in 0.625 ms units with window <= interval, each the exact floor of the duration.", "quantifier": "every pair of durations", "why_tests_cant": "All durations (2^94 pairs), including wrap-around of the 16-bit fields.", "anchors": ["src/types/scan_window.rs:ScanWindow", "src/types/scan_window.rs:ScanWindowBuilder"]}
{"id": "C34", "title": "Advertising intervals are legal exactly when accepted, and serialise legally", "statement": "AdvertisingInterval construction succeeds exactly under the documented bounds for its type and Bluetooth version; the serialised form is min, max, type with min <= max in 32..16384 (both zero for high duty cycle directed advertising).", "quantifier": "every advertising type, every pair of durations, every version", "why_tests_cant": "All durations.", "anchors": ["src/types/advertising_interval.rs:AdvertisingIntervalBuilder", "src/types/advertising_interval.rs:AdvertisingInterval::copy_into_slice"]}
{"id": "C35", "title": "Non-connectable advertising also respects the 100 ms floor before Bluetooth 5", "statement": "Before version 5.0, an accepted advertising interval of scannable or non-connectable undirected type has a minimum of at least 100 ms. (False for the non-connectable type: the code only checks the scannable type although the struct documentation names both.)", "quantifier": "every accepted interval", "why_tests_cant": "All accepted intervals; the missing case was not tested.", "anchors": ["src/types/advertising_interval.rs:AdvertisingIntervalBuilder::with_range", "src/types/advertising_interval.rs:AdvertisingInterval"]}
{"id": "C36", "title": "Expected connection lengths are accepted exactly when encodable", "statement": "ExpectedConnectionLength::new succeeds exactly when min <= max <= 40.959375 s; the serialised values are the exact floors in 0.625 ms units and never wrap.", "quantifier": "every pair of durations", "why_tests_cant": "All durations including the wrap-around boundary.", "anchors": ["src/types/expected_connection_length.rs:ExpectedConnectionLength"]}
{"id": "C37", "title": "Advertisement structures are well-formed length-type-value records", "statement": "Advertisement::copy_into_slice writes exactly the structure's length, leaves the rest of the buffer untouched, panics exactly when the buffer is too short, and, for content up to the 255-byte limit, the bytes written parse back (length, type, little-endian UUID, data) to the same advertisement; beyond the limit the length byte wraps.", "quantifier": "every advertisement content and every buffer", "why_tests_cant": "All content lengths including the wrap boundary.", "anchors": ["src/types/advertisement.rs:Advertisement::copy_into_slice", "src/types/advertisement.rs:Advertisement::len"]}
{"id": "C38", "title": "Sequences of advertisement structures can be parsed back", "statement": "Writing any list of advertisements, each within the 255-byte limit of the length byte, one after another into a buffer and parsing the buffer as a sequence of length-type-value records recovers the list.", "quantifier": "every list of advertisements whose records each fit a length byte", "why_tests_cant": "Lists of unbounded length.", "anchors": ["src/types/advertisement.rs:Advertisement"]}
{"id": "C39", "title": "Each command writes exactly one correctly framed packet", "statement": "For an arbitrary controller, each Hci method with acceptable arguments performs exactly one controller write, with a header holding the packet indicator (UART), the little-endian opcode assigned to that command, and the parameter length, and with the parameter bytes prescribed for that command in little-endian order; it touches the controller in no other way and never panics.", "quantifier": "every command, every argument value, every controller, every controller state, both command header kinds, every feature configuration", "why_tests_cant": "All argument values of about 35 commands, against arbitrary controllers.", "anchors": ["src/host/mod.rs:Hci", "src/host/mod.rs:write_command", "src/host/uart.rs:CommandHeader", "src/host/cmd_link.rs:Header"]}
{"id": "C40", "title": "Rejected arguments never reach the controller", "statement": "When a command rejects its arguments it performs no controller operation at all and returns the documented error carrying the offending value; rejection happens exactly for the documented argument conditions.", "quantifier": "every command and argument, every controller", "why_tests_cant": "Absence of side effects for all rejected inputs; exactness of the condition.", "anchors": ["src/host/mod.rs:Hci", "src/host/mod.rs:Error"]}
{"id": "C41", "title": "The result of a command is the controller's result", "statement": "An accepted command returns Ok exactly when the controller's write returned Ok, WouldBlock exactly when it would block, and Comm(e) exactly when it failed with e.", "quantifier": "every command, every controller behaviour", "why_tests_cant": "All controller behaviours.", "anchors": ["src/host/mod.rs:rewrap_as_comm", "src/host/mod.rs:write_command"]}
{"id": "C42", "title": "A command stream can be parsed back by the controller", "statement": "The bytes written by any sequence of commands over UART split uniquely into packets, one per accepted command in order, each with the opcode and parameters of that command; rejected commands leave no trace.", "quantifier": "every finite sequence of commands with arbitrary arguments", "why_tests_cant": "Unbounded command histories.", "anchors": ["src/host/mod.rs:write_command", "src/host/uart.rs:CommandHeader"]}
{"id": "C43", "title": "Retrying on WouldBlock sends a command exactly once", "statement": "If the controller's write consumes nothing when it would block, then repeating a command until it no longer would block transmits it exactly once, for every blocking schedule.", "quantifier": "every command, every schedule of WouldBlock results", "why_tests_cant": "Unbounded retry schedules.", "anchors": ["src/host/mod.rs:write_command", "src/lib.rs:Controller::write"]}
{"id": "C44", "title": "Random addresses are validated exactly", "statement": "le_set_random_address accepts an address exactly when its two most significant bits are 00 or 11 (non-resolvable, static) and the remaining 46 bits are neither all zero nor all one, or its two most significant bits are 10 (resolvable) and the remaining 22 bits of its three most significant bytes are neither all zero nor all one; otherwise it returns BadRandomAddress with that address.", "quantifier": "all 2^48 addresses", "why_tests_cant": "2^48 inputs.", "anchors": ["src/host/mod.rs:validate_random_address"]}
{"id": "C45", "title": "Advertising and scan response data are padded to 32 bytes", "statement": "le_set_advertising_data and le_set_scan_response_data send a 32-byte parameter block consisting of the data length, the data and zero padding for data of at most 31 bytes, and reject longer data with its length; the data can be recovered from the block.", "quantifier": "every data slice of any length", "why_tests_cant": "All lengths and contents.", "anchors": ["src/host/mod.rs:set_outbound_data"]}
{"id": "C46", "title": "Create Connection ignores the peer when the white list is used", "statement": "le_create_connection writes a 25-byte block; with the white-list filter policy the peer address type and address are all zero; otherwise the block determines every parameter given (up to duration quantisation).", "quantifier": "every connection parameter set", "why_tests_cant": "All parameter combinations.", "anchors": ["src/host/mod.rs:ConnectionParameters::copy_into_slice"]}
{"id": "C47", "title": "Distinct command arguments give distinct packets", "statement": "Two accepted commands that write the same bytes are the same command with the same arguments, up to quantisation of durations and the documented don't-care fields.", "quantifier": "every pair of commands", "why_tests_cant": "Pairs of arbitrary commands.", "anchors": ["src/host/mod.rs:Hci"]}
{"id": "C48", "title": "Every command header identifies its command", "statement": "Every header written for a command identifies the command. (False for event_link::NoCommands: the header written is three zero bytes whatever the command; true for the UART and command-link headers.)", "quantifier": "every header type, every command", "why_tests_cant": "All commands and header kinds.", "anchors": ["src/host/event_link.rs:NoCommands", "src/host/mod.rs:write_command"]}
{"id": "C49", "title": "Opcodes are faithful pairs of group and command fields", "statement": "Opcode::new(ogf, ocf) has exactly the group ogf modulo 64 and command ocf modulo 1024; every opcode is the combination of its fields; for in-range fields new is injective; all opcodes in the crate's table are pairwise distinct and have in-range fields.", "quantifier": "all 2^32 field pairs, all 2^16 opcodes", "why_tests_cant": "All values.", "anchors": ["src/opcode.rs:Opcode"]}
{"id": "C50", "title": "Bit-flag arrays behave as finite sets of flags", "statement": "For every declared flag table, the generated type's empty, all, |, |=, contains, is_set, ==, From and from_bits behave as set operations on the set of bits: from_bits accepts exactly the subsets of all, bits/from_bits are inverse, a union contains exactly the members of both, contains is inclusion, and equality is equality of sets.", "quantifier": "every flag table, every array size, every pair of flag sets", "why_tests_cant": "All sets of up to 512 flags and all tables the macro may be used with.", "anchors": ["src/bitflag_array.rs:bitflag_array"]}
{"id": "C51", "title": "Declared flags are distinct single bits within range", "statement": "In the crate's channel, supported-command, LMP-feature, LE-feature, LE-state, link-layer-feature and event-mask tables every flag is a single bit and no two flags share a bit (per feature configuration), so or-ing flags never aliases.", "quantifier": "every pair of flags in every table, in every feature configuration", "why_tests_cant": "All pairs across about 500 flags; a typo affects one pair only.", "anchors": ["src/lib.rs:ChannelClassification", "src/lib.rs:LinkLayerFeature", "src/event/command.rs:CommandFlags", "src/event/command.rs:LmpFeatures", "src/event/command.rs:LeStates", "src/host/mod.rs:EventFlags"]}
{"id": "C52", "title": "Addresses with types round-trip", "statement": "BdAddrType::copy_into_slice writes the type byte and the six address bytes, to_bd_addr_type inverts it, and to_bd_addr_type rejects exactly the type bytes other than 0 and 1, returning the byte.", "quantifier": "every address and type byte", "why_tests_cant": "2^56 inputs.", "anchors": ["src/lib.rs:BdAddrType", "src/lib.rs:to_bd_addr_type"]}
{"id": "C53", "title": "Key material is written in the byte order given and kept out of other fields", "statement": "le_encrypt, le_start_encryption and le_long_term_key_request_reply place the key, plaintext, random number and diversifier at the prescribed offsets, unmodified, so that the controller recovers exactly the values given.", "quantifier": "all 128-bit keys, blocks and values", "why_tests_cant": "2^256 inputs.", "anchors": ["src/host/mod.rs:le_encrypt", "src/host/mod.rs:le_start_encryption", "src/host/mod.rs:le_long_term_key_request_reply"]}
{"id": "C54", "title": "Failed connections are still reported", "statement": "An LE Connection Complete event with a failure status and otherwise zero parameters is delivered to the application. (False: the zero connection interval is rejected with BadConnectionInterval.)", "quantifier": "every failure status and every handle", "why_tests_cant": "All failure codes.", "anchors": ["src/event/mod.rs:to_le_connection_complete"]}
{"id": "C55", "title": "Flag constants have the standard's names and positions", "statement": "In every feature configuration each flag type (link-layer features, LMP features, LE features, LE states, event masks, advertising channels, supported commands, data channels) offers exactly the flags of that Bluetooth version, and each named constant is the bit to which the standard gives that meaning.", "quantifier": "every flag name and bit position, in every feature configuration", "why_tests_cant": "About 500 constants; a wrong shift in one of them shows only with a controller that sets that bit.", "anchors": ["src/lib.rs:LinkLayerFeature", "src/lib.rs:ChannelClassification", "src/event/command.rs:CommandFlags", "src/event/command.rs:LmpFeatures", "src/event/command.rs:LeFeatures", "src/event/command.rs:LeStates", "src/host/mod.rs:EventFlags", "src/host/mod.rs:LeEventFlags", "src/host/mod.rs:Channels"]}
{"id": "C56", "title": "Every event the decoder produces can be asked for", "statement": "For every event that decoding can produce and that the standard lets a host mask, the crate offers in the same configuration the event-mask flag of that event, and in the bytes written by set_event_mask (le_set_event_mask) the bit assigned to the received event (subevent) code is set exactly when the mask contains that flag. (False before 4.2 for LE Data Length Change and before 5.0 for LE PHY Update Complete: they are decoded, but the flags do not exist.)", "quantifier": "every decodable packet, every mask, every configuration", "why_tests_cant": "Relates three tables (event codes, flag constants, wire layout) that no single test touches together.", "anchors": ["src/event/mod.rs:Event::new", "src/host/mod.rs:EventFlags", "src/host/mod.rs:LeEventFlags", "src/host/mod.rs:set_event_mask"]}
{"id": "C57", "title": "Supported Commands answers for every command of the API", "statement": "When a reply to Read Local Supported Commands is accepted, then for every command of the API that has a bit in the standard there is a flag constant, and is_set of that flag on the decoded value is the bit of the packet that the standard assigns to the command.", "quantifier": "every accepted reply, every command", "why_tests_cant": "All 2^512 masks and all commands.", "anchors": ["src/event/command.rs:to_supported_commands", "src/event/command.rs:CommandFlags", "src/bitflag_array.rs:is_set"]}
{"id": "C58", "title": "Debug output does not disclose plaintext", "statement": "Debug-printing AES parameters or a plaintext block, with {:?} or {:#?}, gives the same text for every plaintext; two parameter sets print alike exactly when their keys are equal (so keys, unlike plaintext, are disclosed), and printed ciphertexts can be told apart.", "quantifier": "all keys, plaintexts and ciphertexts", "why_tests_cant": "Independence of a 128-bit value is a property of all pairs of runs.", "anchors": ["src/host/mod.rs:PlaintextBlock", "src/host/mod.rs:EncryptionKey", "src/host/mod.rs:AesParameters", "src/event/command.rs:EncryptedBlock"]}
{"id": "C59", "title": "The printed supported-command set shows every command", "statement": "The Debug text of CommandFlags determines which of the commands of the configured version are supported, and printing does not panic. (False with version-5-0: octet 39 is left out.)", "quantifier": "all pairs of command bit fields, every configuration", "why_tests_cant": "Injectivity over 2^312 values.", "anchors": ["src/event/command.rs:CommandFlags"]}
{"id": "C60", "title": "Printing a received event list is total and faithful", "statement": "Debug-printing a received Number Of Completed Packets event or LE Advertising Report never panics; the former's text determines its pairs and their order, the latter's text is the texts of the advertisements of the packet in packet order and determines the report bytes of the packet, though not the announced number of reports.", "quantifier": "every accepted packet", "why_tests_cant": "The printing loops run iterators that index into buffers and unwrap; no finite set of packets covers them.", "anchors": ["src/event/mod.rs:NumberOfCompletedPackets", "src/event/mod.rs:LeAdvertisingReport"]}
{"id": "C61", "title": "Every connection of a conforming controller is reported", "statement": "An LE Connection Complete or LE Connection Update Complete event whose interval, latency and supervision timeout lie in the ranges of the standard is decoded, with those values. (False: a supervision timeout of exactly 100 ms, the smallest legal one, is rejected as too short.)", "quantifier": "every status, handle, role, address and every legal parameter combination", "why_tests_cant": "The failing value is a single point of a four-dimensional range; the tests use 99 ms.", "anchors": ["src/types/connection_interval.rs:ConnectionIntervalBuilder::build", "src/event/mod.rs:to_le_connection_complete", "src/event/mod.rs:to_le_connection_update_complete"]}
{"id": "C62", "title": "PHY updates are reported truthfully", "statement": "The LE PHY Update Complete event of a conforming controller is decoded to the PHYs it carries (1 = LE 1M, 2 = LE 2M, 3 = LE Coded). (False: the crate numbers the PHYs from 0, so that 1M is reported as 2M, 2M as Coded, and Coded is rejected.)", "quantifier": "every status, handle and pair of PHYs", "why_tests_cant": "The crate has no test of this event; a test written from the code would repeat its numbering.", "anchors": ["src/event/mod.rs:Phy", "src/event/mod.rs:to_le_phy_update_complete"]}
{"id": "C63", "title": "The first fault of a packet decides the error", "statement": "When a packet has several faults, the error reported is that of the first one: a wrong length before anything else, otherwise the faulty field that comes first in the packet. Consequently every packet either encodes exactly one event, or has exactly one first fault, which is the error reported, or is one of the packets on which decoding panics.", "quantifier": "all byte sequences, every configuration, every vendor whose parsers return", "why_tests_cant": "Combinations of faults multiply; tests break one field at a time.", "anchors": ["src/event/mod.rs:Event::new", "src/event/command.rs:CommandComplete::new", "src/event/mod.rs:to_le_connection_complete"]}
{"id": "C64", "title": "Sending and receiving do not disturb each other", "statement": "In any session that interleaves reads and commands in any order, with failures and arriving bytes anywhere, the events read are the decodings of the packets received, in order, each once, and the bytes sent are exactly the packets of the commands that returned Ok, in order; over a UART as well as over separate event and command links.", "quantifier": "all sessions, all controllers whose two directions are independent, every configuration and vendor", "why_tests_cant": "Sessions are unbounded interleavings of two protocols; tests run one call on a scripted controller.", "anchors": ["src/host/uart.rs:read", "src/host/uart.rs:read_event", "src/host/event_link.rs:read", "src/host/mod.rs:write_command"]}
{"id": "C65", "title": "Reading recovers from failures", "statement": "If the controller fails at most f times when bytes are available, then with n packets pending n + f calls of read deliver all n, in order. (The bound is needed: read starts over after a failure, so a controller failing every third call can keep a UART packet from ever being delivered.)", "quantifier": "all controllers with a bound on their failures, all packet sequences, both transports", "why_tests_cant": "A liveness claim over all failure schedules.", "anchors": ["src/host/uart.rs:read", "src/host/uart.rs:read_event", "src/host/event_link.rs:read"]}
{"id": "C66", "title": "Data type numbers are those of the registry", "statement": "Every CommonDataType has the number registered for it in the Bluetooth Assigned Numbers, different types have different numbers, and the type byte of every advertisement the crate writes is the registered one. (False for SecurityManagerTkValue: it is numbered 0x11, but registered as 0x10.)", "quantifier": "all data types; all advertisements and buffers", "why_tests_cant": "The tests look at the type byte of a few advertisements; the other numbers of the public enumeration are never used.", "anchors": ["src/types/common.rs:CommonDataType", "src/types/advertisement.rs:get_type", "src/types/advertisement.rs:copy_into_slice"]}
{"id": "C67", "title": "Decoding treats vendors uniformly", "statement": "Decoding looks at nothing of a vendor but what its three functions (status, event, return parameters) return: if the functions of two vendors return the same up to the names of the vendors' own values, then decoding any packet with the one and with the other gives the same event, the same error or a panic, up to those names.", "quantifier": "all packets, all pairs of vendors related by a renaming, every configuration", "why_tests_cant": "A statement about every instantiation of a generic type, and about pairs of runs.", "anchors": ["src/event/mod.rs:Event::new", "src/event/command.rs:CommandComplete::new", "src/lib.rs:Status::try_from", "src/lib.rs:Vendor"]}
{"id": "C68", "title": "A vendor cannot change standard behaviour", "statement": "A packet is decoded to an event that contains nothing of a vendor with vendor V exactly when it is decoded to that event with the vendor that adds nothing; if decoding with the vendor that adds nothing gives an error in which a vendor has no say (anything but a bad status, a bad reason, or the vendor's own error) or panics, then it does the same with every vendor.", "quantifier": "all packets, all vendors, every configuration", "why_tests_cant": "Non-interference: quantifies over all implementations of the vendor traits.", "anchors": ["src/event/mod.rs:Event::new", "src/event/command.rs:CommandComplete::new", "src/lib.rs:Status::try_from", "src/event/mod.rs:VendorEvent"]}
{"id": "C69", "title": "Iterators deliver the items in order, then None for ever", "statement": "The results of the first n calls of next on the iterator of a Number Of Completed Packets event are the pairs of the packet in order followed by None from then on; likewise for the iterator of an LE Advertising Report and its advertisements, and further calls after the end neither panic nor start again.", "quantifier": "all accepted packets, all n", "why_tests_cant": "Tests use a for loop, which stops at the first None; calls after the end are never made.", "anchors": ["src/event/mod.rs:NumberOfCompletedPacketsIterator", "src/event/mod.rs:LeAdvertisingReportIterator", "src/event/mod.rs:LeAdvertisingReportInnerIterator"]}
{"id": "C70", "title": "Command Status identifies the command", "statement": "Whatever opcode bytes the API wrote for a command, a Command Status event with those bytes is accepted exactly when its status is known, and it carries the opcode of that command; two API methods have the same opcode exactly when they send the same HCI command.", "quantifier": "all commands with all arguments, both transports, all status bytes, every configuration and vendor", "why_tests_cant": "Relates the writing side to the parsing side for every command; tests check each with its own literals.", "anchors": ["src/event/mod.rs:to_command_status", "src/host/mod.rs:write_command", "src/opcode.rs:Opcode", "src/host/uart.rs:CommandHeader", "src/host/cmd_link.rs:Header"]}
{"id": "C71", "title": "Answers reach the command they answer", "statement": "In any session that interleaves reads and commands with failures anywhere: if the j-th packet received answers (by Command Complete or Command Status) the i-th command on the wire, then the j-th event read, unless it is an error, tells the host that the i-th of its commands that returned Ok was answered.", "quantifier": "all sessions, all controllers whose directions are independent, all orders of answers, both transports", "why_tests_cant": "An end-to-end statement over unbounded executions; the crate has no test with both directions.", "anchors": ["src/host/uart.rs:read", "src/host/event_link.rs:read", "src/host/mod.rs:write_command", "src/event/command.rs:CommandComplete::new", "src/event/mod.rs:to_command_status"]}
{"id": "C72", "title": "What read returns is determined by the conversation with the controller", "statement": "For every controller, consistent or not: the calls made by read together with their answers are one of the listed conversations (packet type at 0 and length at 2, or length at 1, are peeked; the buffer read has 3 or 2 plus the peeked length bytes; the first unsuccessful answer ends the conversation), and the result is the one the conversation implies, the bytes read being judged by the wire format alone; every such conversation happens for some controller; two conversations are the same up to a call that is answered differently.", "quantifier": "all controllers and states, including controllers whose answers contradict each other, both transports, all vendors that do not panic, every configuration", "why_tests_cant": "Quantifies over all implementations of the Controller trait; the crate's tests use one well-behaved sink.", "anchors": ["src/host/uart.rs:read", "src/host/uart.rs:read_event", "src/host/event_link.rs:read", "src/lib.rs:Controller"]}
{"id": "C73", "title": "The transports carry the same commands and the same events", "statement": "A command over a UART has, for every controller, the result and effect of the same command over the command link with the indicator 0x01 put in front; if the same packets arrive over a UART and over an event link then, whatever the schedules, what has been reported over one is a prefix of what has been reported over the other, and once both have read everything they have reported the same. With a UART in front of any controller, even one that contradicts itself, every adaptive application is told what it is told over the event and command links, and leaves the controller in the same state.", "quantifier": "all commands and arguments, all controllers and states; all pairs of conforming controllers, all packet sequences, all pairs of schedules; all adaptive applications over reads and commands", "why_tests_cant": "Relates two transports over all controllers and schedules; tests exercise each transport alone with fixed bytes.", "anchors": ["src/host/uart.rs:CommandHeader", "src/host/uart.rs:read_event", "src/host/cmd_link.rs:Header", "src/host/event_link.rs:read", "src/host/mod.rs:write_command"]}
{"id": "C74", "title": "What decoding forgets is exactly known", "statement": "Two packets decode to the same standard event exactly when they are equal or differ only in one of: the parameters of a Command Complete for opcode 0, bytes after the status of a status-only reply, bytes after the white list size, reserved bits of the local LMP or LE feature replies, the number-of-reports byte of an advertising report. Any change elsewhere gives another event or an error; any change there is accepted and invisible.", "quantifier": "all pairs of packets, every configuration, every vendor with one-to-one status codes", "why_tests_cant": "An equivalence over all pairs of packets; tests compare a handful of packets with expected values.", "anchors": ["src/event/mod.rs:Event", "src/event/command.rs:CommandComplete", "src/event/command.rs:to_status"]}
{"id": "C75", "title": "The events an application can be given are exactly the valid ones", "statement": "An event is the decoding of some packet exactly when it is valid: every status is one of the configuration or made by the vendor from a code beyond the standard ones, connection parameters are on the 1.25 ms and 10 ms grids and legal, flag fields have only defined bits, at most 63 handles or 253 report bytes with the rest of the buffer zero, the report bytes are well-formed reports, counts fit their wire width, and the name of the advertising-enable reply is that of the version. Whatever the controller does, read gives valid events only.", "quantifier": "all values of the event type, every configuration and vendor; all controllers and states, both transports", "why_tests_cant": "Describes the whole image of the decoder in the event type; tests show single members of it.", "anchors": ["src/event/mod.rs:Event", "src/event/command.rs:CommandComplete", "src/host/uart.rs:read_event", "src/host/event_link.rs:read"]}
{"id": "C76", "title": "Every packet is eventually reported", "statement": "In an execution that never ends, in which read is called again and again on a UART controller that may fail infinitely often but again and again serves three calls in a row, every packet that arrives is reported after finitely many calls, in order, once; two calls in a row are not enough; over an event link two are.", "quantifier": "all infinite executions, conforming controllers, arrival schedules and packet sequences", "why_tests_cant": "A liveness claim about infinite executions under a fairness assumption; every test is finite.", "anchors": ["src/host/uart.rs:read", "src/host/uart.rs:read_event", "src/host/event_link.rs:read"]}
{"id": "C77", "title": "Advertised structures reach the scanner", "statement": "Advertisement structures of at most 31 bytes in total, written one after another into a buffer and sent with le_set_advertising_data or le_set_scan_response_data, are read back from the significant part of the packet written, and again from the advertising report in which another host receives them, at any place among other reports.", "quantifier": "all lists of structures, buffers, controllers, positions in a report", "why_tests_cant": "Composes four functions over unbounded lists of variable-length structures; tests exercise each with one value.", "anchors": ["src/types/advertisement.rs:Advertisement::copy_into_slice", "src/host/mod.rs:set_outbound_data", "src/event/mod.rs:LeAdvertisingReport"]}
{"id": "C78", "title": "Packets written are acceptable to a conforming controller", "statement": "Every command that can be written down, is not rejected and has connection handles of at most 0x0EFF is sent with the number of parameter bytes and with parameter values that the standard allows in the configured version: no reserved value, no value out of range, no contradiction between parameters. (False: intervals below 8 ms are written as 5 units; a supervision timeout is cut off to 10 ms and may then be too short for interval and latency; non-connectable advertising below 100 ms is accepted before 5.0. Exactly these are the exceptions.)", "quantifier": "all commands and arguments, every configuration", "why_tests_cant": "All argument combinations of 43 commands against the ranges of the standard.", "anchors": ["src/host/mod.rs:Hci", "src/types/connection_interval.rs:ConnectionInterval::copy_into_slice", "src/types/advertising_interval.rs:AdvertisingIntervalBuilder::with_range"]}
{"id": "C79", "title": "A connection has the parameters asked for", "statement": "After le_create_connection or le_connection_update, if the controller chooses any interval in the range it was given and keeps latency and timeout, then the event reports an interval within the range the caller asked for, the latency, and the timeout to within 10 ms. (False: the lower bound is cut off to whole milliseconds and then to 1.25 ms, so that the interval reported may be up to 2 ms below it; this can happen exactly when the bound is no multiple of 5 ms.)", "quantifier": "all legal parameters, all choices of the controller, every configuration, controller and vendor", "why_tests_cant": "Relates what the caller asked, the bytes written, every choice of the controller and the event read.", "anchors": ["src/types/connection_interval.rs:ConnectionInterval::copy_into_slice", "src/types/connection_interval.rs:FixedConnectionInterval", "src/host/mod.rs:le_connection_update"]}
{"id": "C80", "title": "Every command is eventually answered", "statement": "In a session that never ends, in which commands and reads are interleaved in any way, the host again and again reads while the controller serves three calls in a row (two over an event link), and the controller answers every command it receives with a packet the host can decode, in any order and among any other packets: for every command that returned Ok the host is given, after finitely many acts, an event that tells that this command was answered, at the place of the answer.", "quantifier": "all infinite sessions, controllers, command arguments, orders of answers and schedules of failures; both transports", "why_tests_cant": "Liveness of the closed loop of host and controller over infinite executions.", "anchors": ["src/host/mod.rs:Hci", "src/host/uart.rs:read", "src/host/event_link.rs:read", "src/event/command.rs:CommandComplete"]}
{"id": "C81", "title": "Every advertising report of a conforming controller is delivered", "statement": "An LE Advertising Report event whose reports have the values the standard of the configured version permits is decoded, and iterating it gives for every report, in order, its event type, address, data and RSSI. (False from 4.2 on: one report with an identity address, types 2 and 3, makes the whole event be rejected.)", "quantifier": "all lists of reports that fit in an event, every configuration and vendor", "why_tests_cant": "Quantifies over all lists of conforming reports and states when exactly nothing is lost.", "anchors": ["src/event/mod.rs:to_le_advertising_report", "src/event/mod.rs:LeAdvertisingReportInnerIterator", "src/lib.rs:to_bd_addr_type"]}
{"id": "C82", "title": "Every event of a conforming controller is understood", "statement": "Every supported event with the error codes, the field values and the number of parameter bytes that the standard of the configured version allows is decoded as what it says. (False: a supervision timeout of 100 ms, an identity address in an advertising report, a feature of the peer that is newer than the configured version, the Coded PHY, and the unspecified fields of an event that reports a failure make the event be rejected, and the other PHYs are taken for each other. Nothing else is rejected or misread.)", "quantifier": "all supported events and replies and all their field values, every configuration and vendor", "why_tests_cant": "Compares the decoder with the ranges of the standard for every field of 18 events and 18 kinds of reply at once, and names all exceptions.", "anchors": ["src/event/mod.rs:Event", "src/event/mod.rs:to_le_connection_complete", "src/event/command.rs:CommandComplete"]}
{"id": "C83", "title": "A conforming controller cannot make the host panic or lose its place", "statement": "Whatever events a conforming controller sends, in whatever pieces they arrive and however often calls fail: no call of read panics, none reports BadPacketType, and what is reported are the outcomes of decoding the events sent, in order, each one once, whether or not some of them are rejected.", "quantifier": "all sequences of conforming events, all histories of arrivals and calls, all controllers that deliver bytes in order, both transports, every configuration and vendor", "why_tests_cant": "Quantifies over whole conversations; a test plays one of them.", "anchors": ["src/host/uart.rs:read", "src/host/uart.rs:read_event", "src/host/event_link.rs:read", "src/event/mod.rs:Event"]}
{"id": "C84", "title": "What was reported can be handed back unchanged", "statement": "A command about the connection of an event carries the two bytes that were the handle in the event; a command about the peer of a connection or about a device that was heard carries the address type and address bytes of the event or report; a random number, an encrypted block or a channel map that a reply delivered is sent with the bytes of the reply. Across two devices: the numbers that the central puts into LE Start Encryption are those the other device is asked for a key with, and the same key is sent as the same bytes.", "quantifier": "all events with a handle, all advertising reports of a conforming controller, all commands that take such a value, all their other arguments, both links, every configuration and vendor", "why_tests_cant": "Relates two pieces of code, the decoder and the encoder, that no test exercises together, for every pair of an event and a command.", "anchors": ["src/event/mod.rs:Event", "src/host/mod.rs:Hci", "src/event/command.rs:ReturnParameters", "src/lib.rs:BdAddrType"]}
{"id": "C85", "title": "A conforming controller's answers reach the commands they answer", "statement": "In a session that never ends, in which the host again and again reads while the controller serves it, and with a controller that answers every command as the standard says (a Command Complete with the return parameters of the command, or a Command Status, with fields in range, among other conforming events): every command that returned Ok is reported to be answered, and the event reported says what the answer says.", "quantifier": "all endless sessions, all schedules of arrivals, reads, failures and commands, all conforming controllers, both ways of connecting a controller, every configuration and vendor", "why_tests_cant": "A liveness statement about all endless conversations whose only assumption about the controller is the standard.", "anchors": ["src/host/uart.rs:read", "src/host/event_link.rs:read", "src/host/mod.rs:Hci", "src/event/command.rs:CommandComplete"]}
{"id": "C86", "title": "Debug and release builds agree", "statement": "Overflow of integer arithmetic panics in a debug build and wraps around in a release build. The builders and parsers of connection intervals and expected connection lengths return the same in both builds for all arguments, and every interval, window and length that the API can produce is written as the same bytes.", "quantifier": "all builder states, all durations, all byte strings, all values of the four types that the API can produce, all buffers", "why_tests_cant": "Tests run in one profile; that no overflow is reachable is a statement about all durations.", "anchors": ["src/types/connection_interval.rs:build", "src/types/connection_interval.rs:interval_as_u16", "src/types/advertising_interval.rs:duration_as_u16", "src/types/scan_window.rs:duration_as_u16", "src/types/expected_connection_length.rs:duration_as_u16"]}
{"id": "C87", "title": "The controller is set as the application asked", "statement": "For every sequence of calls and whichever of the commands the controller carries out: the event masks, random address, advertising parameters, advertising and scan response data, scan parameters, white list, channel classification and the on/off state of advertising and scanning that a controller derives from the packets it received are those of the calls that returned Ok and were carried out, durations up to less than one unit of 0.625 ms; Reset restores the defaults, rejected calls change nothing.", "quantifier": "all sequences of calls, all arguments, all all-or-nothing controllers, all choices of the commands carried out, both ways of connecting a controller", "why_tests_cant": "A refinement between two state machines over all sequences of calls.", "anchors": ["src/host/mod.rs:Hci", "src/host/uart.rs:CommandHeader", "src/host/cmd_link.rs:Header"]}
{"id": "C88", "title": "Connections and buffer credits can be tracked", "statement": "A host that keeps account, from the events it is handed, of the open connections and their parameters, of their encryption, of the data packets completed, of the data lengths and of the number of commands allowed, has the same account as the conforming controller that sent the events, at every point of a conversation up to the packets that are still under way.", "quantifier": "all conversations with conforming controllers, all schedules of reads, all initial accounts, both ways of connecting a controller, every configuration and vendor", "why_tests_cant": "A refinement between two state machines over all conversations; tests decode single events.", "anchors": ["src/event/mod.rs:Event", "src/event/mod.rs:LeConnectionComplete", "src/event/mod.rs:NumberOfCompletedPackets", "src/host/uart.rs:read", "src/host/event_link.rs:read"]}
{"id": "C89", "title": "The controller sends the events that were asked for", "statement": "At every point of a session that starts with the defaults, and whichever of the commands the controller carried out: by the bits of the event masks in the packets that it received, a conforming controller sends an event that the crate can decode exactly if the flag of that event is contained in the masks that the application passed to the last calls of set_event_mask and le_set_event_mask that took effect, or in the default masks of the standard if there was none. (LE events of versions that the crate is not compiled for have no flag: C56.)", "quantifier": "all sequences of calls, all masks, all choices of the commands carried out, all packets the decoder accepts, both ways of connecting a controller, every configuration and vendor", "why_tests_cant": "Relates three parts of the crate, the flag tables, the encoder and the decoder, over all sessions.", "anchors": ["src/host/mod.rs:set_event_mask", "src/host/mod.rs:le_set_event_mask", "src/host/mod.rs:EventFlags", "src/host/mod.rs:LeEventFlags", "src/event/mod.rs:Event"]}
{"id": "C90", "title": "What an application logs tells what was received", "statement": "The text that {:?} or {:#?} makes of what read returned, over uart or event_link (an event with all its fields, WouldBlock, a communication error, a wrong packet indicator or any decoding error), can always be made and is the text of no other result: from a log one can tell exactly what the application was given. This supposes that the texts of the vendor's values and of the controller's errors can be told apart in the same way.", "quantifier": "all pairs of results of read, all controllers and states, all packets, both transports, every configuration and vendor", "why_tests_cant": "Injectivity of the printed form over all pairs of events and errors, including all durations, flag sets and lists; tests print nothing.", "anchors": ["src/event/mod.rs:Event", "src/event/mod.rs:Error", "src/event/command.rs:ReturnParameters", "src/event/command.rs:CommandFlags", "src/host/uart.rs:read", "src/host/event_link.rs:read", "src/lib.rs:Status"]}
{"id": "C91", "title": "What an application logs tells what was asked for and why it failed", "statement": "The text that {:?} or {:#?} makes of the parameters of a command (advertising, scan and connection parameters, event masks), of what a constructor of such parameters returned, or of what a command returned (Ok, WouldBlock, a communication error or any of the reasons for rejecting arguments, with its values) is the text of no other value of the same type, so that from a log one can tell exactly what was asked for and why it failed. This supposes that the texts of vendor statuses and of the controller's errors can be told apart, and that no error of the controller is printed as WouldBlock where a method returns it unwrapped. (The plaintext of le_encrypt is hidden on purpose: C58.)", "quantifier": "all pairs of parameters, all durations, addresses, masks and channel maps made of declared flags, all calls and results of all controllers, every configuration and vendor", "why_tests_cant": "Injectivity of the printed form over all pairs of values; tests print nothing.", "anchors": ["src/host/mod.rs:AdvertisingParameters", "src/host/mod.rs:ScanParameters", "src/host/mod.rs:ConnectionParameters", "src/host/mod.rs:Error", "src/types/advertising_interval.rs:AdvertisingIntervalError", "src/types/scan_window.rs:ScanWindowError", "src/types/common.rs:CommonDataType"]}
{"id": "C92", "title": "Everything the standard allows can be asked for", "statement": "For every command of the API and every packet that the standard allows for it in the configured version (parameter count, ranges, no reserved value or mask bit), there are arguments with which the method is not rejected and sends this packet and nothing else, apart from bytes that the controller ignores. (False for two kinds of packets: transmitter tests of 38 to 255 bytes, legal from 4.2 on, are rejected; and since connection intervals are written from whole milliseconds, an interval can only be asked for with a supervision timeout that suits the next whole millisecond. Exactly these are the exceptions; connection parameters whose longest interval is a multiple of 5 ms are never among them.)", "quantifier": "all packets that the standard allows, all commands, both ways of connecting a controller, every configuration and vendor", "why_tests_cant": "Surjectivity of the encoder onto all legal packets, with the constructors of the arguments in between; tests encode single calls.", "anchors": ["src/host/mod.rs:Hci", "src/host/mod.rs:le_transmitter_test", "src/types/connection_interval.rs:ConnectionIntervalBuilder::build", "src/types/connection_interval.rs:interval_as_u16", "src/types/advertising_interval.rs:with_range", "src/types/scan_window.rs:open_for", "src/types/expected_connection_length.rs:new"]}
{"id": "C93", "title": "Asking again for the reported connection parameters changes nothing", "statement": "When the host takes the connection parameters of an LE Connection Complete or LE Connection Update Complete event, builds a ConnectionInterval with both bounds equal to the reported interval and the reported latency and timeout, sends le_connection_update and the controller grants a choice in the range it was sent, the next report has the same parameters, however often this is repeated.", "quantifier": "For every reported set of connection parameters, every number of rounds, every transport, every configuration and every choice of the controller in the range it was sent.", "why_tests_cant": "The error of one round is at most one unit of 1.25 ms and goes unnoticed in a test of one round with a round number; it adds up over rounds, which is seen only by induction over their number.", "anchors": ["src/types/connection_interval.rs:interval_as_u16", "src/types/connection_interval.rs:FixedConnectionInterval", "src/host/mod.rs:le_connection_update", "src/event/mod.rs:to_le_connection_update_complete"]}
{"id": "C94", "title": "Sizes and indices fit a usize of 16 bits", "statement": "Every sum, product and difference of lengths and indices that the crate computes as a usize has the same value as in unbounded arithmetic, on every target with a usize of at least 16 bits, whether overflow is checked (debug) or wraps around (release): decoding any packet that fits in memory, stepping through reports and pairs, reading packets on both transports from any controller, writing advertisement structures and reports of the test helper, sending advertising data and validating random addresses do on every such target exactly what they do with unbounded numbers.", "quantifier": "For every width of usize of at least 16 bits, with and without overflow checks, all slices of at most isize::MAX bytes, all packets, events, reports, advertisement structures, controllers and states, any number of calls of the iterators, every configuration and vendor.", "why_tests_cant": "Tests run on one machine of 64 bits; overflow would need slices that a test does not allocate, or the 16-bit targets that no test runs on.", "anchors": ["src/event/mod.rs:full_length", "src/event/mod.rs:to_number_of_completed_packets", "src/event/mod.rs:LeAdvertisingReportInnerIterator", "src/event/mod.rs:to_le_advertising_report", "src/event/mod.rs:report_with_advertisements", "src/types/advertisement.rs:copy_into_slice", "src/host/uart.rs:read_event", "src/host/event_link.rs:read", "src/host/mod.rs:set_outbound_data", "src/host/mod.rs:pop_count_except_top_2_bits"]}
{"id": "C95", "title": "The reading code shown in the documentation reads one packet", "statement": "If an event packet is pending, the code that the documentation of Controller::peek shows for reading an event puts exactly the bytes of this packet in its buffer and takes exactly these from the controller. (False: it peeks at byte 3, the first parameter, for the length, which is byte 2, and counts a header of two bytes instead of three. It takes two bytes more than the first parameter says; it reads the packet only if this byte happens to be the number of parameters plus one, and it blocks on a complete packet if the byte asks for more than has arrived or if there are no parameters. It never panics and never takes other bytes than it puts in the buffer.)", "quantifier": "all controllers that hand out bytes in order, all states, all packets with any number of parameters, any bytes that follow", "why_tests_cant": "The example is compiled as a documentation test, but only against a controller whose peek always returns 0, so that its body is never run; whether it reads a packet depends on a parameter byte, which a test fixes.", "anchors": ["src/lib.rs:Controller::peek", "src/lib.rs:Controller::read_into", "src/host/uart.rs:read_event"]}
{"id": "C96", "title": "The errors an application can be given are exactly the possible ones", "statement": "The set of errors that decoding can return is exactly the specified one: each error with exactly the values it can carry (codes out of range, masks with reserved bits, numbers of parameter bytes, durations that are numbers of 1.25 ms or 10 ms), and the errors of the vendor's own functions. Reading on either transport returns the same errors except those of packets that are not framed, which reading cannot produce, and every one of the others does occur. Likewise the errors of the methods of commands, over all arguments and controllers, are exactly the specified ones; BadConnectionLengthRange is not among them.", "quantifier": "all byte strings, all errors with all their values, all controllers that hand out bytes in order and all states, all commands with all arguments, every configuration and vendor", "why_tests_cant": "The statement is about the image of the decoder: that no input leads to an error outside of the set cannot be seen from samples, and tests have one value for each kind of error.", "anchors": ["src/event/mod.rs:Error", "src/event/mod.rs:Event::new", "src/event/command.rs:CommandComplete::new", "src/host/mod.rs:Error", "src/host/uart.rs:read", "src/host/event_link.rs:read", "src/types/connection_interval.rs:ConnectionIntervalError"]}
{"id": "C97", "title": "Only complete packets are passed on to vendor code", "statement": "The code of a vendor is asked only about the whole payload of a complete vendor event, the whole payload of a complete Command Complete event with an opcode of group 0x3F, and single bytes of a complete packet that stand where the standard has a status or a reason and are not in the standard's table. Whatever a vendor's functions do with anything else, up to a panic, does not matter to what is decoded or read, nor to the state of the controller. What they return for a vendor event or reply is the result.", "quantifier": "all byte strings, all vendors, all replacements of their three functions that agree on the named arguments, all controllers and states, both ways of connecting a controller, every configuration", "why_tests_cant": "That a function is never called with anything else is a statement about all inputs and all vendors; tests have one vendor whose functions are harmless everywhere.", "anchors": ["src/event/mod.rs:Event::new", "src/event/mod.rs:VendorEvent", "src/event/mod.rs:VendorReturnParameters", "src/event/command.rs:CommandComplete::new", "src/lib.rs:Vendor", "src/host/uart.rs:read", "src/host/event_link.rs:read"]}
{"id": "C98", "title": "Controllers that agree on a few calls can replace one another", "statement": "Reading and commands use a controller only by a few calls: over a UART peek(0), peek(2), read_into of 3 to 258 bytes and write of a four-byte command header with at most 32 parameter bytes; over the event and command links peek(1), read_into of 2 to 257 bytes and write of a three-byte header with at most 32 parameter bytes. Every one of the reading calls does occur. If two controllers give the same answers to these calls, whatever their state, their type of errors and their answers to other calls, then every application, choosing what to call next by what it has been told so far, is told the same with either, up to the names of communication errors.", "quantifier": "all pairs of controllers and relations between their states, all adaptive applications over reads and commands, any number of rounds, any changes of the controllers between calls that keep their states related, both transports, every configuration and vendor", "why_tests_cant": "It is a statement about pairs of arbitrary controllers and about all strategies of an application; a test has one controller and one fixed sequence of calls.", "anchors": ["src/lib.rs:Controller", "src/host/uart.rs:read", "src/host/uart.rs:read_event", "src/host/event_link.rs:read", "src/host/mod.rs:write_command", "src/host/mod.rs:Hci"]}
{"id": "C99", "title": "Buffers of fixed size suffice", "statement": "A Number Of Completed Packets event has at most 63 pairs, and every number up to this occurs. The advertisements of an LE Advertising Report can have exactly those lists of data sizes of which the sum, with ten more for each advertisement, is at most 253: so at most 25 advertisements, and at most 243 bytes of data in one; both occur. A command writes at most 36 bytes to a UART and at most 35 to a command link, and LE Encrypt writes as many. So an application or controller without an allocator can use arrays of these sizes, and no smaller ones.", "quantifier": "all packets, all lists of sizes, all commands with all arguments, both transports, all controllers and states, every configuration and vendor", "why_tests_cant": "A maximum over all packets is not seen from samples: tests have at most two pairs and two advertisements.", "anchors": ["src/event/mod.rs:NumberOfCompletedPackets", "src/event/mod.rs:to_number_of_completed_packets", "src/event/mod.rs:LeAdvertisingReport", "src/event/mod.rs:to_le_advertising_report", "src/host/mod.rs:write_command", "src/host/uart.rs:CommandHeader", "src/host/cmd_link.rs:Header"]}
{"id": "C100", "title": "Packets other than events can be taken from the UART by the application", "statement": "When a packet that is not an event is next on a UART, a read reports its type byte and leaves the packet where it is. So an application that then takes the packet itself, by any method that takes one whole packet or fails and takes nothing, sees every packet received, events and others, in order, once and whole, and never sees BadPacketType. If whole packets are pending and the controller serves the calls, each call gives the next packet. A method that peeks at the length of ACL and synchronous data and reads that much is such a method; with it, what the application is told does not depend on how the bytes arrive or on which calls fail.", "quantifier": "all controllers that hand out bytes in order, all sequences of calls, failures and arrivals, all packets, all methods with that contract, every configuration and vendor", "why_tests_cant": "It speaks of every interleaving of events and other packets, in whatever pieces they arrive; the tests have one packet that is not an event and end there.", "anchors": ["src/host/uart.rs:read", "src/host/uart.rs:Packet", "src/host/uart.rs:Error", "src/lib.rs:Controller"]}
{"id": "C101", "title": "A host that waits for each answer can pair answers and commands by counting", "statement": "Consider a host that issues a command only when, for every earlier command that returned Ok, it has read an event that tells that this command was answered. Then, whatever the controller sends and whatever calls fail, at any time all but at most one of the commands on the wire are answered by the packets received (Command Complete and Command Status with a nonzero opcode count as answers). If moreover the controller answers only what it received, and nothing twice, the answers on the wire come in the order of the commands, and the i-th answer that the host reads tells that the i-th of its commands that returned Ok was answered, even if two commands have the same opcode.", "quantifier": "all endless sessions of such hosts, all controllers that hand out bytes in order and write whole commands or nothing, all failures, all arrivals, all packets, a UART and two links, every configuration and vendor", "why_tests_cant": "It relates commands and events over whole sessions of any length with any controller; the tests send one command, or read one packet, but never both.", "anchors": ["src/host/uart.rs:read", "src/host/event_link.rs:read", "src/host/mod.rs:write_command", "src/host/mod.rs:Hci", "src/event/command.rs:CommandComplete::new", "src/event/mod.rs:CommandStatus"]}
{"id": "C102", "title": "A host that waits for each answer does not wait in vain", "statement": "Consider an endless session of a host that issues a command only when all its earlier commands that returned Ok are answered, and that reads again and again while the controller serves it. If the controller answers only what it received, nothing twice, and each command at some time with something the host understands, then after every command that returned Ok an event is read that tells that this very command was answered, also if the same command was answered before; and again and again all commands are answered, so that the host may issue the next one.", "quantifier": "all endless sessions of such hosts, all such controllers, all schedules of arrivals, reads, failures and commands, a UART and two links, every configuration and vendor", "why_tests_cant": "A liveness statement about endless conversations; no finite run shows that a host cannot get stuck.", "anchors": ["src/host/uart.rs:read", "src/host/event_link.rs:read", "src/host/mod.rs:write_command", "src/host/mod.rs:Hci", "src/event/command.rs:CommandComplete::new", "src/event/mod.rs:CommandStatus"]}
{"id": "C103", "title": "A host that waits and heeds the number of commands allowed never sends one too many", "statement": "Consider an endless session of a host that issues a command only when all its earlier commands that returned Ok are answered, with a controller that answers only what it received, nothing twice, and changes the number of commands it allows only in answers. Whenever the host issues a command, the number of commands allowed in the last event that told it one is the last number in all packets received by then, read or not. So if the host issues no command when it was told zero last, it never issues a command when the controller's last word was zero.", "quantifier": "all endless sessions of such hosts, all such controllers, all schedules of arrivals, reads, failures and commands, a UART and two links, every configuration and vendor", "why_tests_cant": "It compares what a host knows with what is pending on the wire at every moment of sessions of any length; the tests never send a command and read an event in one session.", "anchors": ["src/event/command.rs:CommandComplete::new", "src/event/mod.rs:CommandStatus", "src/host/uart.rs:read", "src/host/event_link.rs:read", "src/host/mod.rs:write_command", "src/host/mod.rs:Hci"]}
{"id": "C104", "title": "How large a receive buffer must be", "statement": "A controller has a receive buffer of limited size and stops the other side while it is full. If each packet fits into the buffer (over a UART with the byte before it), every packet sent is reported, once and in order. If a packet does not fit, it is never reported, nor is anything after it, whatever is called and happens. So 258 bytes over a UART and 257 bytes over an event link are enough for every sequence of packets, and a smaller buffer is not.", "quantifier": "all configurations, vendors, buffer sizes, packet sequences, executions that never end with again and again three (two) calls served in a row; for the second part all finite histories of any controller that does not hand out more than its buffer holds", "why_tests_cant": "deadlocks depend on packet length, buffer size and timing together and on executions without end; a test with short packets passes with a buffer that is too small", "anchors": ["src/host/uart.rs:Hci::read", "src/host/uart.rs:Hci::read_event", "src/host/event_link.rs:Hci::read", "src/lib.rs:Controller::read_into"]}
{"id": "C105", "title": "The event that concludes a command can be recognised", "statement": "Six commands are answered with Command Status and concluded by a later event. From the bytes written for such a command and the bytes of any packet that is decoded: the event is of the concluding kind and has the connection handle given to the command (for LE Create Connection: the role of central) exactly if the packet concludes that command on the wire. These six commands and no others can be concluded; one event does not conclude commands of different kinds or about different connections; and in an execution that never ends a concluding packet that can be decoded is returned by some read.", "quantifier": "all commands and arguments, configurations, vendors, transports of commands, packets; all fair executions without end", "why_tests_cant": "the pairing goes through two independent encoders and decoders and all 65536 handles; a swapped byte order or a handle taken from the wrong place in only one of them shows only with handles and events that a test happens to use", "anchors": ["src/host/mod.rs:Hci::disconnect", "src/host/mod.rs:Hci::read_remote_version_information", "src/host/mod.rs:Hci::le_create_connection", "src/host/mod.rs:Hci::le_connection_update", "src/host/mod.rs:Hci::le_read_remote_used_features", "src/host/mod.rs:Hci::le_start_encryption", "src/event/mod.rs:Event::new"]}
{"id": "C106", "title": "No packet makes a host believe wrongly that a connection is encrypted", "statement": "An application keeps account of which connections are encrypted from the events that read hands it, and ignores what read rejects. Whatever bytes the controller sends, well-formed or not, the application believes a connection to be encrypted exactly if, of the packets taken that are accepted and that in their bytes speak of the encryption of this connection, the last says that it is encrypted: Encryption Change with status 0 and encryption 1 or 2, or Connection Complete with status 0 and encryption 1. The packet that turns encryption off is always accepted; the packet that ends the connection is accepted exactly if its reason is a known status code, and if it is not, the belief stays.", "quantifier": "all sequences of packets of arbitrary bytes, all connection handles, configurations, vendors, histories of read over both transports", "why_tests_cant": "that no sequence of bytes at all leads to a wrong belief cannot be shown with the few well-formed packets of the tests; a handle or status read from the wrong place shows only with particular values", "anchors": ["src/event/mod.rs:Event::new", "src/event/mod.rs:to_encryption_change", "src/event/mod.rs:to_connection_complete", "src/event/mod.rs:to_disconnection_complete", "src/event/mod.rs:to_le_connection_complete", "src/host/uart.rs:Hci::read", "src/host/event_link.rs:Hci::read"]}
{"id": "C107", "title": "A host on a UART finds its way back after bytes have been lost", "statement": "Bytes of the UART stream are lost, so that the host begins to read in the middle of a packet; what is left of it is in front of the packets that follow. An application that takes and throws away a byte whenever read returns BadPacketType finds the packets again after a bounded number of bytes and is told of all later ones. (This holds, with a bound of 258 bytes, if the packets that follow do not contain the byte 0x04, and at once if the remains do not contain it; in general it does not.)", "quantifier": "all remains, all sequences of packets, all controllers that hand out bytes in order, all histories, every configuration and vendor", "why_tests_cant": "whether a wrong alignment ends depends on the values of the bytes in all later packets; that it may never end is a statement about streams without end", "anchors": ["src/host/uart.rs:Hci::read", "src/host/uart.rs:Hci::read_event", "src/lib.rs:Controller::read_into"]}
{"id": "C108", "title": "The two ends of a connection use the same key", "statement": "The host of a central starts encryption with a random number, a diversifier and a key. Its controller takes the key from the bytes of the command and passes the bytes of the other two on; the controller of the peripheral asks its host with these bytes and its own handle of the connection. The host of the peripheral is given the two numbers of the central, looks up a key for them, and answers with one command for that connection. The controller of the peripheral gets the key of the central exactly if the peripheral has this key under these two numbers, and a negative reply exactly if it has none.", "quantifier": "all parameters, keys, tables of keys, handles at both ends, controllers, transports and configurations of the two ends", "why_tests_cant": "it goes through an encoder at one end and a decoder and an encoder at the other; a byte order that differs between the command and the event shows only if both are composed, which the tests never do", "anchors": ["src/host/mod.rs:Hci::le_start_encryption", "src/host/mod.rs:Hci::le_long_term_key_request_reply", "src/host/mod.rs:Hci::le_long_term_key_request_negative_reply", "src/event/mod.rs:to_le_ltk_request"]}
{"id": "C109", "title": "A value asked for is the value that the device has", "statement": "A device at the other end of the bytes has a cipher, a random generator, for each connection a signal strength, two transmit powers and a channel map, and its versions, address, sets of supported commands, features and states, sizes and counters; all arbitrary, and what can change changes from command to command. It takes the commands apart and answers on the wire. An application that calls one of the fifteen methods that ask for a value gets exactly the value of the device: for le_encrypt the cipher applied to the key and block it gave, for a connection the value of the connection it asked about. Asking any number of questions over a UART, with one read after each, gives the answers in order, each as the device had it when it was asked, and leaves nothing behind.", "quantifier": "all devices, questions, arguments, lengths of conversation, both transports of commands, every controller connected to such a device, every configuration and vendor", "why_tests_cant": "it composes the encoder of the command with the decoder of the answer for an arbitrary device; a test of either side with its own literals passes if both are wrong in the same way, or differ in a byte order", "anchors": ["src/host/mod.rs:Hci::le_encrypt", "src/host/mod.rs:Hci::le_rand", "src/host/mod.rs:Hci::read_rssi", "src/host/mod.rs:Hci::read_tx_power_level", "src/host/mod.rs:Hci::le_read_channel_map", "src/host/mod.rs:Hci::read_local_version_information", "src/host/mod.rs:Hci::read_local_supported_commands", "src/host/mod.rs:Hci::read_bd_addr", "src/host/mod.rs:Hci::le_read_buffer_size", "src/host/mod.rs:Hci::le_test_end", "src/event/command.rs:CommandComplete::new", "src/event/command.rs:to_le_encrypted_data", "src/event/command.rs:to_random_number", "src/host/uart.rs:Hci::read"]}
{"id": "C110", "title": "A damaged byte spoils one packet, unless it is an indicator or a length", "statement": "A byte of a sequence of event packets arrives changed. If it is neither a packet indicator nor the length byte of a packet, every other packet is reported exactly as it would have been, in its place, the damaged one is reported as the decoding of the damaged packet, and over a UART no BadPacketType is returned. Whatever is changed from some place on, packets that end before it are reported as they were sent. The two exceptions are real: after a changed indicator neither this nor any later packet is ever reported by read alone, and a changed length can swallow a later packet that arrives unharmed.", "quantifier": "all sequences of packets, all positions and values of the changed byte, all controllers that hand out bytes in order, all histories of calls, both transports, every configuration and vendor", "why_tests_cant": "it compares two endless families of byte streams at every position; a test damages a few bytes of one packet and reads no packet after it", "anchors": ["src/host/uart.rs:Hci::read", "src/host/uart.rs:Hci::read_event", "src/host/event_link.rs:Hci::read", "src/event/mod.rs:Event::new"]}
{"id": "C111", "title": "What one host says or is, the host at the other end is told", "statement": "Two hosts at the ends of a connection, with independent configurations, vendors and links; the controllers copy what they tell each other. If disconnect writes anything, the status is one of the seven reasons, the controller can take the bytes apart, and the other host is told that its connection ended, for this reason; every one of the seven can be given. read_remote_version_information tells a host, for the connection it asked about, the version, company and subversion that the other host is told by its own controller. le_read_remote_used_features tells a host all features of the other end if it knows them all, and the other host is told the same of each that it knows; if there is one that the asking host does not know, the event is rejected, with the features in the error.", "quantifier": "all handles, reasons, versions, feature sets, pairs of configurations and vendors, both transports of commands", "why_tests_cant": "it relates the encoder on one device to the decoder on another that is built with other options; a test has one host and its own literals", "anchors": ["src/host/mod.rs:Hci::disconnect", "src/host/mod.rs:Hci::read_remote_version_information", "src/host/mod.rs:Hci::le_read_remote_used_features", "src/event/mod.rs:to_disconnection_complete", "src/event/mod.rs:to_remote_version_info", "src/event/mod.rs:to_le_read_remote_used_features_complete", "src/event/command.rs:to_le_local_supported_features"]}
{"id": "C112", "title": "A device is heard as it asked to be, and can be called", "statement": "One host gives any sequence of commands to its controller, which takes some of them, carries out some of these, and transmits as it has been told. Another controller reports such a packet, perhaps among others with public and random addresses. The application at the other end is then given, in the place of the report, the kind of advertisement (or scan response), the public or random address and the data that the calls which returned Ok asked for. A command of this application that names the device it heard (connection, white list, directed advertising) carries the address type and address of the sender. A white list lets the packets of the sender through exactly if the application has put there what it heard.", "quantifier": "all sequences of commands, verdicts of the controller, packets, positions of a report in its event, pairs of configurations, vendors, links and controllers", "why_tests_cant": "it goes from the arguments of calls at one device through two byte formats to the values at another, for every history of settings; a test checks one command or one event against literals", "anchors": ["src/host/mod.rs:Hci::le_set_random_address", "src/host/mod.rs:Hci::le_set_advertising_parameters", "src/host/mod.rs:AdvertisingParameters::copy_into_slice", "src/host/mod.rs:Hci::le_set_advertising_data", "src/host/mod.rs:Hci::le_set_scan_response_data", "src/host/mod.rs:Hci::le_add_device_to_white_list", "src/host/mod.rs:Hci::le_create_connection", "src/event/mod.rs:to_le_advertising_report", "src/event/mod.rs:LeAdvertisingReportIterator::next"]}
{"id": "C113", "title": "The two ends of a connection are told the same of it", "statement": "An application calls a device, by its address or by the white list, and the controllers make a connection with parameters in the range asked for. The host that called and the host that was called are told of it alike: the one event is accepted with an interval, latency and timeout exactly if the other is accepted with the same. The caller is told that it is the central and whom it is connected to, which is whom it asked to call; the other end is told that it is the peripheral and the address that the application at the caller asked to use. If the parameters are legal as written and the timeout is at least 110 ms, both are told. The same holds when the parameters of a connection change.", "quantifier": "all settings of the caller's controller that agree with its application, all parameters that the API can build, all connections that conforming controllers may make, handles, pairs of configurations and vendors, both transports of commands", "why_tests_cant": "it relates what two hosts decode from two different packets to the arguments of the call at one of them; a test decodes one packet of literals at one host", "anchors": ["src/host/mod.rs:Hci::le_create_connection", "src/host/mod.rs:ConnectionParameters::copy_into_slice", "src/host/mod.rs:PeerAddrType::copy_into_slice", "src/event/mod.rs:to_le_connection_complete", "src/event/mod.rs:to_le_connection_update_complete", "src/types/connection_interval.rs:FixedConnectionInterval::from_bytes"]}
{"id": "C114", "title": "An application that counts credits does not overrun the buffers of the controller", "statement": "A controller has N buffers for data packets. An application knows the connections it has been told of by events, counts for each the packets it has sent, subtracts what Number Of Completed Packets says, sets the count to nothing when a connection has ended, and sends only while the sum is below N. Then the controller never has more than N packets, whatever happens in whatever order: connections made and ended, several handles completed in one event, events delayed, other packets in between, packets sent on a connection that has just ended. No credit is lost: when the events on their way have been read, the count is exactly what is in the buffers, and only open connections are known. This needs that a handle is not used again before the host has read that its old connection has ended; otherwise a buffer can be overrun.", "quantifier": "all interleavings of sending, completing, opening, closing and reading, of any length, all numbers of buffers, handles and event contents, every configuration and vendor", "why_tests_cant": "it is an invariant of an unbounded concurrent system through the decoder and the iterator of events; a test runs a few steps in one order", "anchors": ["src/event/mod.rs:NumberOfCompletedPackets", "src/event/mod.rs:NumberOfCompletedPacketsIterator::next", "src/event/mod.rs:to_number_of_completed_packets", "src/event/mod.rs:to_disconnection_complete", "src/event/mod.rs:to_le_connection_complete", "src/event/mod.rs:Event::new"]}
{"id": "C115", "title": "Counting credits keeps the buffers from overrunning over any stream of bytes", "statement": "The application of C114 does not get whole packets: the bytes of the events arrive over a UART or an event link in pieces of any size, at any time, also during calls; the application calls read whenever it likes, calls of the controller may fail at any time, and the application notes what read reports, be it an event or an error. Still the buffers of the controller never hold more than N packets; and whenever all bytes have been handed out, the count of the application is exactly what is in the buffers and every connection that it knows of is open.", "quantifier": "all interleavings of the steps of C114 with arrivals of bytes and calls of read, of any length, all controllers that hand out bytes in order, both transports, every configuration and vendor", "why_tests_cant": "it is an invariant of the whole receiving path, from single bytes to the account of an application, under all timings; a test fixes one timing", "anchors": ["src/host/uart.rs:Hci::read", "src/host/event_link.rs:Hci::read", "src/event/mod.rs:Packet", "src/event/mod.rs:Event::new", "src/event/mod.rs:NumberOfCompletedPacketsIterator::next"]}
{"id": "C116", "title": "An application that heeds the events does not send secrets in the clear", "statement": "Connections of the controller are made, become encrypted and end, and the events that tell of it reach the application late. The application keeps the account of C106 and sends secrets on a connection only while the account says that it is encrypted. Then no secret is ever sent over a connection that is not encrypted, however late events are read; a secret for a connection that has ended meanwhile is thrown away. And when all events have been read, the account says that a connection is encrypted exactly if it is. This needs three things, each shown to be necessary: a handle is not used again before the host has read that its old connection has ended; a connection does not become unencrypted again; and the reasons given for the end of connections are statuses that the crate knows, since it rejects the event otherwise.", "quantifier": "all interleavings of making, encrypting and ending connections, sending, reading and other packets, of any length, all handles, every configuration and vendor", "why_tests_cant": "it is a safety property of an unbounded concurrent system with events that are late; a test runs one order of steps", "anchors": ["src/event/mod.rs:to_encryption_change", "src/event/mod.rs:to_disconnection_complete", "src/event/mod.rs:to_le_connection_complete", "src/event/mod.rs:rewrap_bad_reason", "src/event/mod.rs:Event::new"]}
{"id": "C117", "title": "Reasoning with whole packets is sound and complete for streams of bytes", "statement": "Take any system of a controller, an environment and an application, in which the application reads event packets one at a time and does anything with what it reads. Replace the packets by their bytes, which arrive over a UART or an event link in pieces of any size and at any time, and reading by calls of read at any time, with calls of the controller that may fail. Then exactly the same states can be reached. So whatever is proved with whole packets holds with bytes, for instance that no secret is sent in the clear (C116).", "quantifier": "all systems (any states, any behaviour of controller, environment and application), all runs of any length, all controllers that hand out bytes in order, both transports, every configuration and vendor", "why_tests_cant": "it quantifies over all applications and all timings at once; a test has one application and one timing", "anchors": ["src/host/uart.rs:Hci::read", "src/host/event_link.rs:Hci::read", "src/event/mod.rs:Packet", "src/event/mod.rs:Event::new"]}
{"id": "C118", "title": "An application that keeps reading catches up and stays caught up", "statement": "Let an application call read for ever and fold the outcomes reported into whatever it keeps, by any function. If the bytes of finitely many event packets arrive, in any pieces at any time, and no others, and the controller, which may fail infinitely often, again and again serves as many calls in a row as one read makes (three over a UART, two over an event link), then from some call on the application keeps, for ever, exactly what it would keep had it been given the packets one after the other. If packets never stop arriving, it passes through every state that it would pass through had it been given the packets one after the other: none is skipped. Over a UART two calls in a row are not enough.", "quantifier": "for all controllers that deliver what they receive, all endless executions, all sequences of framed packets, all arrivals, all states and functions of the application, all vendors and configurations", "why_tests_cant": "It is a statement about endless executions with infinitely many failures; a test ends, and can neither see that the application stays caught up nor that every state is passed through.", "anchors": ["src/host/uart.rs:Hci::read", "src/host/event_link.rs:Hci::read", "src/event/mod.rs:Event::new"]}
{"id": "C119", "title": "An application that counts credits can always go on", "statement": "Let an application send data packets only while by its account, which it keeps by the events that the crate decodes, fewer than N are in the N > 0 buffers of the controller. There is no deadlock: in every state that can be reached it has a credit, or an event is on its way, or a packet is in the buffers. And in every endless execution in which the application keeps reading events while some are on their way and the controller keeps freeing the buffers that are used, by sending the packets or ending their connections, the application has a credit again and again, whatever else happens. Not covered is the end of a connection for a reason that the crate does not know: that event is rejected and the credits never come back.", "quantifier": "for all N > 0, all reachable states, all endless executions of application and controller in any order with other events in between, all vendors and configurations", "why_tests_cant": "That a credit always comes back is a statement about endless executions and all orders in which sending, completing, ending and reading can happen; a test sees finitely many steps of a few orders.", "anchors": ["src/event/mod.rs:Event::new", "src/event/mod.rs:to_number_of_completed_packets", "src/event/mod.rs:to_disconnection_complete"]}
{"id": "C120", "title": "An application that counts credits can always go on, over any stream of bytes", "statement": "The same when the events arrive as bytes over a UART or an event link, in pieces of any size, and the application calls read at any time: in every endless execution in which what the controller tells arrives some time, the controller keeps freeing the buffers that are used, and again and again read is called when the transport serves as many calls in a row as one read makes (three over a UART, two over an event link), though it may fail in between as often as it likes, the application has a credit again and again.", "quantifier": "for all N > 0, all controllers that deliver what they receive, all endless executions of application, controller and transport, all ways in which the bytes arrive, all vendors and configurations", "why_tests_cant": "It is a statement about endless executions with infinitely many failures of the transport and all ways of cutting the stream into pieces; a test ends after finitely many steps of a few schedules.", "anchors": ["src/host/uart.rs:Hci::read", "src/host/event_link.rs:Hci::read", "src/event/mod.rs:Event::new", "src/event/mod.rs:to_number_of_completed_packets"]}
{"id": "C121", "title": "Reasoning with whole packets about endless executions carries over to streams of bytes", "statement": "Take any system of a controller, its surroundings and an application, in which the application notes by any function what read reports. Every endless execution of it in which bytes arrive over a UART or an event link, in pieces of any size, and read is called at any time is, step for step, an endless execution in which whole packets are read one at a time, some steps doing nothing. If what is told arrives some time, and again and again read is called when the transport serves three calls in a row (two over an event link), it is one in which the application reads some time whenever a packet is on its way. So whatever is proved of the executions with whole packets, be it that something never happens or that something happens some time, holds with bytes. In particular an application that changes only by reading comes, after any time, to exactly what the packets told up to that time amount to.", "quantifier": "for all systems (states, steps, noting), all controllers that deliver what they receive, all endless executions, all ways in which the bytes arrive, all vendors and configurations", "why_tests_cant": "The statement is about all systems and all their endless executions; no test runs for ever, and none ranges over all systems.", "anchors": ["src/host/uart.rs:Hci::read", "src/host/event_link.rs:Hci::read", "src/event/mod.rs:Event::new"]}
{"id": "C122", "title": "Whether a connection is encrypted, the application gets to know", "statement": "In every endless execution of the system of C116 over a UART or an event link, in which bytes arrive in pieces of any size and read is called at any time, if the transport is fair (what is told arrives some time, and again and again read is called when as many calls in a row are served as one read makes) and connections end only for reasons that the crate knows, then whatever is the case at some time, that a connection is encrypted or that it is not, the application believes some time later. So secrets are not held back for ever: on a connection that stays encrypted the application may send them again and again.", "quantifier": "for all controllers that deliver what they receive, all endless executions, all connections, all times, all ways in which the bytes arrive, all vendors and configurations", "why_tests_cant": "It is a statement about endless executions; a test ends, and sees a few orders of encrypting, ending, opening, arriving and reading.", "anchors": ["src/host/uart.rs:Hci::read", "src/host/event_link.rs:Hci::read", "src/event/mod.rs:to_encryption_change", "src/event/mod.rs:to_disconnection_complete"]}
{"id": "C123", "title": "An application that has caught up with the encryption of a connection does not waver", "statement": "In every endless execution of the system of C116 over a UART or an event link, over a fair transport and with connections ending only for reasons that the crate knows, if a connection stays encrypted from some time on, then from some time on the application believes so at every moment; and if it stays unencrypted from some time on, then from some time on the application believes that at every moment. No event that is still on its way, about this or any other connection, makes it change its mind again.", "quantifier": "for all controllers that deliver what they receive, all endless executions, all connections, all times from which the encryption stays as it is, all ways in which the bytes arrive, all vendors and configurations", "why_tests_cant": "That something holds at every moment from some time on is a statement about endless executions, which no finite test can confirm or refute.", "anchors": ["src/host/uart.rs:Hci::read", "src/host/event_link.rs:Hci::read", "src/event/mod.rs:to_encryption_change", "src/event/mod.rs:to_disconnection_complete"]}
{"id": "C124", "title": "When the controller falls silent, the application is up to date for good", "statement": "Take any system of a controller, its surroundings and an application that changes only by noting, by any function, what read reports. In every endless execution over a UART or an event link, over a fair transport and with bytes arriving in pieces of any size, if nothing more is told from some time on, then from some time on no packet is left unread and the application is, at every moment, exactly where the packets that were still on their way lead: each is noted once, in order, and calls of read without a packet change nothing.", "quantifier": "for all systems and notings, all controllers that deliver what they receive, all endless executions in which nothing more is told from some time on, all ways in which the bytes arrive, all vendors and configurations", "why_tests_cant": "That something holds at every moment from some time on is a statement about endless executions, and it ranges over all systems; a test sees finitely many steps of one.", "anchors": ["src/host/uart.rs:Hci::read", "src/host/event_link.rs:Hci::read", "src/event/mod.rs:Event::new"]}
