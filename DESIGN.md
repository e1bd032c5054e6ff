# Formal model of bluetooth-hci in Lean 4

The Rust crate in `/repo` (danielgallagher0/bluetooth-hci, pinned commit) is a `no_std` HCI host
library: it serialises HCI commands, reads HCI event packets from a byte-oriented `Controller`, and
decodes them. The crate is small and sequential, so it is modelled function by function as executable,
total Lean definitions in which panics are values. The properties of `properties.jsonl` are proved about
those definitions for all inputs, controllers, schedules and histories.

## 1. Layout

| path | contents |
|---|---|
| `lean/Verif/Basic.lean` | `Res` (ok / err / panic), Rust slices, little-endian integers, mutable buffers |
| `lean/Verif/Model/` | the model, one file per Rust source file or part of it; every definition cites file and lines |
| `lean/Verif/Spec/` | specifications: wire formats, the standard's tables, stream framing, legality of parameters. They use the model's *data types*. The definitions that say what a packet, a value or a byte means use none of its functions. Found by listing the constants of every definition: the exceptions are (a) what an application does with the interface, where calling the crate is the point: `scriptedActs`, `AnswersAll`, `Ledger.note`, `Mixed.news`, `Reported`, `Round`, and the values obtained from the crate's constructors, `Built`, `BuiltAdv`, `BuiltLength`, `scanWindow`; (b) capacities that the types are indexed by (`COMMAND_FLAGS_SIZE`, `MAX_ADVERTISING_REPORT_LEN`, `NUMBER_OF_COMPLETED_PACKETS_MAX_LEN`; C99 and the lengths in C11 fix their values as numbers); (c) names for what is present in a build (`Gate.on`, `Status.available`, the flag tables `eventFlags` and `leEventFlags`, which `Spec/FlagTables` pins) and `linkHeader`, which only selects one of the two transports |
| `lean/Verif/Lemmas/` | helper lemmas |
| `lean/Verif/Props/` | the property theorems (`C01_...`), with `example`s that meet their hypotheses |
| `lean/Verif/Conformance/` | the crate's own tests (`/repo/tests/*.rs`, the 150 test functions and the 37 instances of the three test macros) and the examples of the documentation that have an outcome, as kernel-checked `example`s about the model. Tests of the transcription; no property rests on them |
| `MANIFEST.json` | property → theorems |
| `seeded/LOG.jsonl` | wrong-program tests: edits of the model, and the theorems that failed |

## 2. Modelling decisions

* **Panics are data.** `Res ε α` has constructors `ok`, `err`, `panic`. Every slice index, sub-slice,
  `copy_from_slice`, `unwrap`, `assert!` and arithmetic operation that can panic in Rust is written so
  that the Lean function returns `panic` on exactly those inputs.
* **Order of evaluation.** Struct-literal fields and early returns are evaluated in source order, so the
  model reports the same error as the code when several faults are present.
* **Integers.** `u8/u16/u32/u64/i8` are Lean's `UInt8/…/Int8`; intermediate `u32`/`u64`/`u128`
  arithmetic on durations is done on natural numbers with the overflow check written out. Overflow is a
  panic (debug build); C86 shows that the release build (wrapping, `Model/Release.lean`) agrees. `usize` is a
  natural number; C94 shows that machines with a `usize` of 16 bits or more (`Model/Target.lean`) agree, in both builds.
* **Duration.** `core::time::Duration` is a number of nanoseconds below `2^64 * 10^9`.
* **Byte arrays.** `[u8; N]` is a list with a proof of its length, `&[u8]` a list; a function with a
  `&mut [u8]` argument returns the new contents.
* **Features.** `version-4-2` and `version-5-0` form a record `Cfg` (four configurations) that every
  gated function takes as argument; `version-4-1` gates nothing. Variants that exist only in some
  configurations are part of the Lean type; where it matters a theorem carries the hypothesis that the
  value exists in the configuration.
* **Vendor.** The `Vendor`/`VendorEvent` traits are a record of arbitrary functions that may fail or
  panic; theorems quantify over it. C13 needs that the vendor functions themselves return
  (`VendorReturns`), and says so.
* **Controller.** The `Controller` trait is a record of arbitrary state transformers `write`, `readInto`,
  `peek`, which may return ok, WouldBlock, an error, or panic. Theorems about commands (C39–C48) and about
  error propagation and buffer bounds (C06, C07) quantify over all of them. Theorems about received
  streams (C01–C05, C08) assume the documented contract `Spec.Delivers`: bytes are handed out in arrival
  order, `peek` and a failed `read_into` consume nothing, a successful `read_into` consumes what was asked
  for; any call may fail, and bytes may arrive at any time. Where a call has to succeed the hypothesis is
  `Spec.Prompt`, where it has to block `Spec.Quiet`.
* **Flags.** `bitflags!` types are integers plus a table of declared masks; `from_bits`,
  `from_bits_truncate`, `all`, `bits` follow the documented behaviour of the `bitflags` crate. The
  `bitflag_array!` macro of the crate is modelled function by function, generically in the table.

## 3. Trusted base

* The Lean 4.33.0 kernel. Of the theorems in the manifest, each depends on a subset of `propext`,
  `Classical.choice`, `Quot.sound` and nothing else (`#print axioms`, checked by `vcheck`). No own axioms,
  no `sorry`, no `native_decide`, no `bv_decide`. `decide +kernel` is used where a statement is a finite
  table and the whole table is checked.
* The transcription of Rust into Lean, done by reading. `Conformance/` replays on the model every test the
  crate ships. That is evidence about the transcription, on sample inputs only, and it has its own limits:
  the Rust tests were read and not run, so it shows that the model does what the tests demand and takes it
  on trust that the crate passes them; byte arrays and line ranges in `Conformance/` were extracted from or
  compared with the test sources by a script, the other expected values were rewritten in the model's
  constructors by hand. Tests gated by `version-4-1` or `version-4-2` run in the configuration with only that feature, those
  gated by `version-5-0` with it, all others in every configuration.
  The nine flag tables (names, gates, bytes, masks), the opcodes and the status codes of the model were also compared
  with the sources by a script, entry by entry.
* The transcription of the Bluetooth standard into `Spec/` (opcodes, parameter layouts, flag positions and
  names, version in which they appear), done from the crate's documentation comments and knowledge of the
  standard. `Spec/FlagTables.lean`, `Spec/Opcode.lean`, `Spec/Commands.lean`, `Spec/Events.lean`,
  `Spec/Replies.lean` contain no reference to the model's tables.
* External code, modelled by its documented behaviour: `byteorder::LittleEndian`, `bitflags`,
  `core::time::Duration`, slices, integer casts, `nb::Error`, `core::fmt` for `{:?}`, `{:X?}` and `{:#?}` of
  integers, slices, derived structs and enums; `{:?}` of `Duration` (`core::time`), of flag sets (`bitflags` 1.2)
  and of `nb::Error` (`nb` 0.1.2, which prints an error of the other kind as itself); `mem::transmute` between `u8` and `i8` is the identity on bits.

### What is modelled

| source | coverage |
|---|---|
| `src/opcode.rs` | all |
| `src/bitflag_array.rs` | all operations of the macro, and the two instances |
| `src/lib.rs` | `Controller` (as parameter), `Vendor` (as parameter), `Status` and its conversions, `ConnectionHandle`, `BdAddr`, `BdAddrType`, `LinkLayerFeature`, `ChannelClassification` |
| `src/types/*.rs` | all |
| `src/event/mod.rs` | `Packet`, `Event::new` and every parser, both iterators, `report_with_advertisements`, the two `Debug` implementations |
| `src/event/command.rs` | `CommandComplete::new`, every return-parameter parser, every flag table, the two `Debug` implementations |
| `src/host/mod.rs` | all 43 command methods of `Hci`, `write_command`, `set_outbound_data`, `validate_random_address`, all parameter types, flags, `Channels::default`, the two `Debug` implementations |
| `src/host/{uart,event_link,cmd_link}.rs` | headers, `read` of both transports, `rewrap_error` |

Derived `Debug` is modelled (`Model/DebugEvent.lean`, `Model/DebugHost.lean`) for everything that `read` returns
(events, return parameters, errors, results) and for everything that commands take and return (parameters, intervals
and windows, flag sets, `AesParameters`, errors, results), with the types of their fields. `[Style]` says whether the text is that of `{:?}` or of `{:#?}`, where
`core::fmt` puts every field on lines of its own and indents them (`fmtPad`); theorems with `[Style]` hold of both. The
hand-written implementations call `write!` with `{:?}` or `{:X?}`, so that what they write does not depend on it.

**Not modelled:** derived `Clone`/`Copy`/`PartialEq`; documentation (except the
example of `Controller::peek`, `Model/DocExample.lean`); compile-time effects (trait
bounds, `#[cfg]` selection beyond `Cfg`); memory representation.

## 4. Properties

"FALSE" means: the English claim does not hold of the code; a witness theorem proves the negation, and a
theorem with suffix `_partial` states what does hold, as sharply as possible.

| id | what is modelled and how it is proved |
|---|---|
| C01 | `uart` read against any `Delivers`+`Prompt` controller holding a whole packet: the packet is decoded and exactly its bytes are consumed. Case analysis of the read, all lengths |
| C02 | same with an incomplete packet: `WouldBlock`, nothing consumed |
| C03 | any history of reads, arrivals and failures delivers a prefix of the packets of the stream, in order; two schedules give the same results. Invariant, induction on histories |
| C04 | iterated read over a concatenation of frames, malformed ones included: one result per frame. Induction on the list |
| C05 | a wrong indicator is reported by every later call, nothing is consumed. Induction on the calls |
| C06, C07 | read against an arbitrary controller: errors come back unchanged; never more than 258 (uart) / 257 bytes are requested |
| C08 | C01–C04 for `event_link` |
| C09 | `Event.new = ok e` iff the packet is an encoding of `e` by the relational specification `Spec.EventSpec` (soundness and completeness), for all events |
| C10 | from C09: the specification determines the packet, up to the documented don't-care bytes (reserved bits, trailing bytes, padding, count byte); exceptions are listed in `Spec.Lossless` |
| C11, C12 | length faults and unknown codes |
| C13 | FALSE: exact set of panicking packets (`C13_panics_iff`) |
| C14 | number-of-completed-packets parser and iterator. Induction on the pairs |
| C15, C16 | advertising report parser and iterators. Well-founded induction on the remaining bytes, induction on the list |
| C17 | FALSE for cuts inside the nine-byte header; outcome for every cut proved |
| C18 | FALSE: the count byte is ignored (`C18_count_ignored`); honoured exactly when it is true (`C18_count_iff_partial`) |
| C19 | `report_with_advertisements` |
| C20 | `Status` conversions, whole table |
| C21–C23 | `CommandComplete::new`: by opcode; for every command of the API; iff with the relational specification `Spec.ReplySpec` |
| C24 | FALSE: trailing bytes after a status-only reply are ignored |
| C25 | reserved bits in masks: bit-level lemmas |
| C26 | every error names the actual fault |
| C27 | a packet decoded in one configuration is decoded alike in a later one, apart from truncated flags and new status codes; likewise commands |
| C28, C29 | `ConnectionIntervalBuilder` after any sequence of calls: accepted iff legal; otherwise the first violated rule is reported |
| C30 | intervals from bytes |
| C31, C32 | FALSE: `interval_as_u16` truncates to whole milliseconds; exact domain and exact written words; the lower bound holds exactly from 8 ms (`C32_lower_bound_iff_partial`) |
| C33 | scan windows |
| C34, C35 | advertising intervals; C35 FALSE for non-connectable advertising; `C35_floor_iff_partial` says exactly which types have the floor |
| C36 | expected connection length |
| C37, C38 | advertisement structures |
| C39–C41 | each command writes once, header and parameters as in `Spec.cmdParams`; rejected arguments write nothing; the result is the controller's |
| C42, C43 | histories of commands parse back uniquely; retry until done writes the command once |
| C44 | random addresses: bit-counting lemmas against the standard's definition |
| C45–C47, C53 | command parameters: recoverable, distinct arguments give distinct packets |
| C48 | FALSE for `event_link::NoCommands` (header of three zero bytes) |
| C49 | opcodes |
| C50, C51 | flag arrays are sets; declared flags do not alias |
| C52 | addresses |
| C54 | FALSE: a failed LE Connection Complete with zeroed parameters is rejected; delivered exactly when the interval fields are legal, whatever the status (`C54_delivered_iff_partial`) |
| C55 | every flag table offers exactly the standard's names at the standard's positions |
| C56 | event masks: FALSE for two LE events before the version that introduced them |
| C57 | Supported Commands is answered for every command of the API |
| C58 | `Debug` of AES parameters, as `{:?}` and as `{:#?}`, does not depend on the plaintext |
| C59 | FALSE with `version-5-0`: `Debug` of `CommandFlags` leaves octet 39 out |
| C60 | `Debug` of event lists: total, determines the contents; `C60_items` for the items printed one by one |
| C61 | FALSE for a supervision timeout of exactly 100 ms; proved for all other connections the standard permits |
| C62 | FALSE: PHY codes are off by one; exact outcome proved |
| C63 | `Spec.FaultAt` gives every field fault its position; the error is that of the least position (`FirstFault`), as an iff; with C09 and C13 this fixes the fate of every packet |
| C64 | sessions (`Spec.Session`): reads and commands interleaved over a controller whose two directions are independent (`Duplex`), or over one controller per direction (`twoLinks`); receiving side by C03, sending side by C39/C40 and induction |
| C65 | liveness: `Spec.Patient` bounds the failures by a decreasing measure; induction on the number of calls. `C65_bound_needed` shows a controller that works two times out of three and starves `read` |
| C66 | the numbers of `CommonDataType` against the registry (`Spec/CommonDataType.lean`): distinct; FALSE for `SecurityManagerTkValue`; the type byte of every written advertisement is right |
| C67 | `Spec.Renaming` relates the functions of two vendors; every parser is shown to commute with it, step by step (`Follows`, `Lemmas/Vendors.lean`) |
| C68 | the same simulation from the vendor that adds nothing (`Spec.noVendor`) to any vendor; the converse from C09 by cases on the specification of packets |
| C69 | `Spec.calls` records the results of the first n calls of `next`; equal to the list of items followed by `None`s, by induction on the state of the iterator |
| C70 | the opcode bytes of a recorded write (C39), put in a Command Status, through C09; the opcode table is injective both ways |
| C71 | C64 for the session, `wire_comparable` to align received packets with outcomes, C21/C09 to identify the answer (`Spec.TellsAnswer`) |
| C72 | `Spec.UartRun`/`LinkRun` list the conversations and results (decoding through `Encodes`, `FirstFault`, `Panics`); case analysis of `read` under `Spec.transcribing`, replay under `Spec.replaying` for the converse; needs a vendor that does not panic (`VendorReturns`) as C13 and C63 do |
| C73 | A command over `uartHeader` with `Spec.behindUart k` equals the command over `cmdLinkHeader` with `k` (from C39, C40). Two histories, one per transport, that receive the same framed packets: from the history lemma behind C03/C08 and prefix-freeness of framing. `Spec.overUart k` shows every packet with 0x04 in front; `C73_read` by cases of the read for any controller, `C73_application` round by round as in C98 |
| C74 | `Spec.SameMeaning`, a relation on packets given by the seven kinds of don't-care bytes. `C74_exactly`: for an accepted packet, the packets with the same event are exactly the related ones; from C09, C10 and inversion of `Returns` |
| C75 | `Spec.ValidEvent`, a predicate on events that mentions no packets except for vendor payloads. `C75_exactly`: the image of the decoder is the set of valid events (soundness by inversion of `Says`, completeness by writing a packet for each valid event, both through C09). `C75_uart`, `C75_event_link`: what `read` returns is valid for every controller |
| C76 | `Spec.Forever` (infinite executions as functions on ℕ), `Spec.Fair` (again and again n calls in a row serve what has arrived). Induction on the number of outcomes reported, with the history lemma behind C03; `C76_two_not_enough` shows that three calls are needed |
| C77 | C38, C45 and C16 composed: writer, command, packet, report, reader |
| C78 | FALSE for three kinds of intervals. `Spec.Acceptable`, the standard's parameter counts and ranges as a predicate on packet bytes; `C78_exactly_partial` says for every command when it holds |
| C79 | FALSE for lower bounds that are no multiple of 5 ms. `Spec.Chosen` is what a controller may choose from the bytes written; `C79_update_partial`, `C79_create_partial` bound what is reported and say when it is |
| C80 | `Spec.Dialogue` (infinite sessions), `ReadsFairly`, `AnswersAll`. Every prefix is a session, so C64 fixes the commands on the wire; the liveness argument of C76 (`live_core`) for sessions; the answer is identified as in C71. `Spec.responder` is a controller for which the assumptions hold whatever the host does |
| C81 | FALSE from 4.2 on. `Spec.RawReport` gives the fields on the wire and the ranges of the standard (Vol 2 Part E 7.7.65.2); a report with a plain address is the encoding of an advertisement (C16), the first other one is the first fault (`ReportFault`): `C81_delivered_partial` (exact), `C81_before_42`, `C81_identity`, `C81_fails` |
| C82 | FALSE. `Spec.StdEvent` and `Spec.StdReply` are the fields of the supported events on the wire, `InRange` and `Conforms` the values the standard allows. For every event the chain of field parsers is followed (`Fate`: a value if the condition holds, an error otherwise): `C82_accepted` and `C82_understood_partial` (exact; the latter with the standard's PHY numbers), `C82_success`, `C82_fails`, `C82_misread` |
| C83 | `C83_no_panic` from the same case analysis, without assumptions about the vendor; conversations by the history theorems of C03 and C08 and prefix-freeness of packets |
| C84 | `Spec.Echo` has the offsets of handles, addresses and key blocks in events and commands. From C09 (the bytes an event came from) and C39 (the bytes a command writes): `C84_handle`, `C84_completed`, `C84_peer`, `C84_report`, `C84_rand`, `C84_encrypted`, `C84_channel_map`, `C84_two_devices` |
| C85 | `Spec.AnswersByStandard` replaces the assumption of C80 that answers are understood by the standard's own conditions (`StdEvent.Conforms`, `InRange`); C82 shows that such answers are understood, the liveness argument is that of C80: `C85_uart`, `C85_two_links` |
| C86 | `Model/Release.lean` has the functions with `u32`/`u64` arithmetic with results reduced modulo 2^32 or 2^64. Equality with the checked versions, by the bounds that validation gives: `C86_builders` (all arguments), `C86_written` (all values the API produces) |
| C87 | `Spec.Told.hear` is the state machine of the controller's settings on packet bytes, `Spec.Asked.say` that of the application on calls, `Spec.Agree` the simulation relation. One step per command (`agree_step`, from the parameter bytes of C39), induction over sessions with C42: `C87_uart` (byte stream), `C87_packets` (both links) |
| C88 | `Spec.Ledger` is the account, `Ledger.send` its update from the fields on the wire, `Ledger.note` that from the event handed over. False (`C88_fails`, disagreement 23); `C88_event_partial`: an event keeps the accounts equal iff it is not `Missed`; conversations with C83: `C88_uart_partial`, `C88_event_link_partial`. What the account says is told from the history, without keeping an account (`Spec/Account.lean`): `C88_open`, `C88_closed`, `C88_unknown`, `C88_allowed` |
| C89 | `Spec.Told.Passes` reads the masks in the packets by event code, `Spec.Asked.Wants` the masks in the calls by flag name. Equivalent in all states related by `Agree` (`C89_asked_for`, with C09 and C55), hence in all sessions (`C89_uart`, `C89_packets`, with C87) |
| C90 | FALSE with `version-5-0`, by C59. `Spec.Legible`: a printed value can be read off alone and within a longer text. Every derived `Debug` is shown legible bottom up (words, numbers, durations, flag sets, structs, variants, lists), as `{:?}` and as `{:#?}` (`pad_end`: indented lines can be read off), received events by C75, C14, C15. Exact boundary for events and for what `read` returns: `C90_events`, `C90_uart`, `C90_event_link` |
| C91 | `Model/DebugHost.lean`: derived `Debug` of parameters, of their errors and of `host::Error`. Each shown legible by the lemmas of C90; results of commands by C40, which bounds the channel map that an error can carry. `nb::Error` prints its content bare, so for methods that return the controller's own error the text must not be `WouldBlock`; `C91_would_block_needed` shows why |
| C92 | FALSE for two kinds of packets. The converse of C78, over the same `Spec.Acceptable`; `Spec.significant` sets the bytes that controllers ignore to zero. For each opcode the arguments are constructed from the bytes of the packet; `C92_exactly_partial` says which packets cannot be asked for |
| C93 | FALSE. `Spec.Round` runs builder, `leConnectionUpdate`, a controller that chooses in the range of the bytes it was sent, and `Event::new` on the report; `Spec.Rounds` repeats it. Induction on the number of rounds: `C93_rounds_partial` characterises what is reported after `n` rounds (an iff); the fixed points are the multiples of 5 ms (`C93_kept`), reached after three rounds (`C93_settles`) |
| C94 | `Model/Target.lean` has the functions that compute with lengths and indices, with the results of a `usize` of any width from 16 bits on, checked or wrapping. `Spec.InMemory`: a slice has at most `isize::MAX` bytes. Equality with the functions on natural numbers: `C94_decoding`, `C94_steps`, `C94_reading`, `C94_iterators`, `C94_writing`, `C94_commands`; from the bound and, in the test helper, an invariant of its loop (the index never leaves the buffer) |
| C95 | FALSE. `Model/DocExample.lean`: the example of `Controller::peek`, call by call. `C95_fails`: of a Command Complete event of seven bytes it takes three. `C95_reads_partial`: it takes two bytes more than the first parameter says, hence the packet if this is the number of parameters plus one. `C95_blocks`, `C95_no_parameters`: complete packets on which it blocks. `C95_never_panics`: what it does on any controller. `C95_read_into_continues`: the example of `read_into` is right. |
| C96 | `Spec/Errors.lean` lists the errors with the values they can carry. `C96_framed`, `C96_exactly`: an error occurs if and only if it is listed. No other one by C26 (every error is justified by the packet), each listed one by a packet constructed for it. `C96_uart`, `C96_event_link`: reading gives no framing errors; `C96_uart_occurs`, `C96_event_link_occurs`: all others occur with a receive queue. `C96_commands`: the same for the methods of commands, from C40. |
| C97 | `Spec/Consulted.lean`: a vendor with other functions (`reprogrammed`), the places of statuses (`statusPlaces`) and agreement on the named arguments (`SameOn`). `C97_decoding`: decoding is the same, step by step through every parser; `C97_uart`, `C97_event_link`: so is reading from any controller. `C97_vendor_event`, `C97_vendor_reply`: what the functions return is the result. The claim is made in the documentation of the crate (lib.rs 28-33). |
| C98 | `Spec/Interchangeable.lean`: the calls (`Called`), agreement of two controllers on them (`Interchangeable`, a relation between states), applications that choose by what they were told (`play`). `C98_uart`, `C98_event_link`, `C98_command`: one call, by cases of the read and C39/C40. `C98_uart_application`, `C98_link_application`: any number of rounds, by induction. `C98_uart_calls`, `C98_link_calls`: no other call is made, by taking for the second controller the first one with a log. `C98_reading_calls_made`: each reading call occurs |
| C99 | `C99_pairs`: the possible numbers of pairs, from C14. `C99_reports`: the possible lists of data sizes, both directions, from the shape of accepted packets (C09) and the round trip (C16). `C99_reports_bounds`: hence at most 25 advertisements and 243 bytes of data, both attained. `C99_commands`: the sizes of writes, by a controller with a log |
| C100 | `Spec/Mixed.lean`: `readAny` calls `Uart.read` and, on `BadPacketType`, a method of the application (application code, not part of the crate) with the contract `TakesOther`. `C100_history`: by induction on the history, from `uart_step`. `C100_one_by_one`: by induction on the packets. `C100_takeData`, `C100_takeData_promptly`: a method for ACL and synchronous data meets both contracts on every controller. `C100_schedule_independent`: no packet is the beginning of another |
| C101 | `Spec/Waiting.lean`: `OneAtATime` (what the host does, from what it was told), `AnswersOnly` (at every time, at most as many answers to an opcode as commands with it), `answeredOpcode` (a decoder of answers, written on bytes; `answeredOpcode_iff` relates it to `Answer` of C71). `no_overrun`: by induction, a host that waits has been told all answers but at most one (`told_but_one`), and what is told as an answer was one on the wire (by soundness of decoding, C09). `in_order`: strong induction on the last command: before it, counting shows that all answers were received; after it, at most one more can come. `paired`: by induction on the acts |
| C102 | `Spec.AnswersEach`. The answers arrive, so they are read (`live_dialogue`, as for C80) and told as answers (`answered_isAnswer`, by C09 and C21); the one at the place of the command tells that the command was answered (C101), and it was not read before the command was sent, because the answers read until then are as many as the commands before (`answers_prefix`). `settles`: from this, by the last command |
| C103 | `Spec.allowance` reads the number from the bytes of a packet; `Spec.AllowsInAnswers`, `Spec.Heeds`. When a command is issued, as many answers are read as commands were sent (C101); the packets received have no more (the controller answers only what it received), so the packets not yet read have no answer and, by assumption, no number. For the packets read, the number told is that of the bytes (`allowance_told`, by C09 and C21); packets that the host rejects answer no command of the crate, so with the same count there is none such among the answers. A controller that also sends numbers in other packets (Command Complete with opcode 0) is not covered: its last word may be still unread when the host sends |
| C104 | `Spec.FlowControlled` (as long as fewer than `cap` bytes wait, another one comes at some time), `Spec.HoldsAtMost`. All packets arrive by induction on their number: those arrived are reported (the lemma behind C76), then less than one packet waits, so there is room until the next one is complete. For small buffers: every call takes at most `cap` bytes, so a history reports only packets of at most `cap` bytes, and prefix-freeness places it before the large one. `C104_exact` puts both together for the controller `Spec.ring`, which always keeps its buffer as full as it can. Bytes lost in a buffer without flow control are not modelled |
| C105 | `Spec.Concludes` relates opcode and parameter bytes of a command to event packets, `Spec.TellsConclusion` the command to the decoded event. Both directions by C09 (inversion of `Says`), the bytes of the command by C39, injectivity of `le16`; `C105_noticed` by C76. Packets that conclude a command but are rejected are those of C54, C82 and disagreements 8, 22, 23. That a controller concludes LE Create Connection with another address than that asked for is not excluded (it must for resolvable addresses) |
| C106 | `Spec.Encrypts`, `Spec.Unencrypts`: the packets in bytes; `LastEncrypts`: the last accepted one says so. The account is that of C88 (`Ledger.noteOutcome`), here for arbitrary packets, not only those of conforming controllers. Induction over the packets from the end; for one accepted packet by inversion of `Says` (C09) and `note_says`; histories by C03. Rejected packets are ignored by assumption on the application; `C106_stale` shows what that costs |
| C107 | FALSE, disagreement 30. The skipping application is `readAny` of C100 with `skipByte`. `Spec.Recovers`: what the remains and the lost packets are taken for, and what is found. `C107_way_back_partial` by strong induction over the remains (a false event has at most 258 bytes, then the rest of the packet that was cut is skipped); `C107_history_partial`, `C107_all_partial` by C100 and unique parsing; `C107_exact_partial`: when nothing is lost; `C107_fails` by induction over the number of packets. Missing from the full statement: packets that contain 0x04, for which it fails |
| C108 | The controllers are specified as copying byte strings (`Spec.StartsEncryption`, `keyRequest`, `RepliesKey`, `RepliesNoKey`); the application of the peripheral is `answerRequest`. By C39 at both ends, C09 for the request, injectivity of the encodings. The key exchange over the air and the cipher are not modelled |
| C109 | `Spec.Device`: arbitrary values for the fifteen methods that ask for one, which may change with the number of commands served and have no undefined flag set (`Device.Sound`); `Device.serve` works on bytes only, from the Core Specification. `Spec.Serves` describes a controller connected to it, `Spec.ask` the application. One question by C39 and C09 (`C109_answer`), any sequence by induction with the progress of `read` (`C109_session`). `deviceFifo_serves`: every device has such a controller |
| C110 | `Spec.changed` puts another byte at one place of the transmitted bytes, `Spec.changedLead` at the place of an indicator. A changed code or parameter gives another framed packet (`changed_eq`, `framed_set`); then the histories of C03 and C08 and unique parsing (`C110_uart`, `C110_link`, `C110_uart_all`, `C110_link_all`). Any damage after a packet: `C110_uart_before`, `C110_link_before`. The exceptions: `C110_indicator` for every indicator, `C110_length` by a witness |
| C111 | `Spec/Peers.lean`: the byte layouts of the command and of the two events, one for each host; the controllers copy the reason, version and features from one to the other. The seven reasons are a type of their own (`Spec.Reason`) that has a status for every vendor. Command: C39; events: C09 and C25, each with its own configuration (`C111_reason`, `C111_said`, `C111_version`, `C111_features`). The rejection of unknown features is disagreement 22 |
| C112 | `Spec/Air.lean`: `OnAir` is what a controller transmits, read from what it has been told (`Told` of C87), in the form in which the controller of a scanner reports it; `HeardAsAsked` is the same in terms of the arguments of the calls. Both controllers are specification, the hosts are the model. C87 (the settings of every session), C81 (each report is delivered) and C84 (what is heard is handed back) are joined (`C112_heard`, `C112_white_list`, `C112_session`). That what was asked for leaves no choice: `C112_determined`. Reports with identity addresses are left out: disagreement 21 |
| C113 | `Spec/Pair.lean`: `Makes` are the connections that controllers may make from the bytes of LE Create Connection and the settings of C87, `Made.atCaller` and `Made.atCalled` the events at the two ends, `Calls` whom the application asked to call. The layout of the command (`create_layout`), C79 for the parameters, C112 for the white list, C09 for the two events with their own configurations (`C113_made`, `C113_updated`). Identity addresses are left out, since the crate has no resolving list. Timeouts of 100 ms are rejected by both hosts (disagreement 23) |
| C114 | `Spec/Credits.lean`: a transition system of a controller (`buffer`, `isOpen`), the event packets on their way, and an application (`Credits.note`) that sees them only through `Event.new` and the iterator of Number Of Completed Packets; the sending of data is not in the crate. Proved by an invariant (`Balanced`) that is kept by every step (`balanced_step`): `C114_never_overrun`, `C114_no_credit_lost`, `C114_known`. Reasons of disconnections are assumed to be statuses that the crate knows. That handles must not be used again too early is shown by a witness (`C114_handles_reused`); this is a matter of the controller, not of the crate |
| C115 | `Spec/CreditsWire.lean`: the system of C114 with a transport between (`Wired`): all that the controller has told, as bytes; arrivals of any prefix; calls of `read` with any controller that satisfies `Delivers`. Proved by refinement (`wired_reached`): every run is a run of the system of C114 in which a notice is read when its last byte is taken; the packet that a call takes is the first unread one, because packets are prefix free. `C115_uart`, `C115_event_link`, `C115_uart_exact`, `C115_event_link_exact`. That every byte is taken at last is C76 |
| C116 | `Spec/Secrets.lean`: a transition system as in C114, of LE connections that become encrypted and end, with the account of C88 and C106. `C116_catches_up` by an invariant about the account after all packets on their way (`Coherent`), `C116_no_leak` by one about the account now (`Guarded`): a connection that is believed to be encrypted is, or the packet that tells its end is on its way. The assumptions `fresh`, `steady` and `known` are parameters of the system; without each there is a run with a leak (`C116_handles_reused`, `C116_turned_off`, `C116_unknown_reason`). Sending of data is not in the crate |
| C117 | `Spec/Wholes.lean`: two inductive definitions of reachable states with arbitrary types and relations as parameters, `PacketRun` and `ByteRun`; `Bytes.world` takes the one to the other (a packet is on its way until its last byte is taken). `C117_uart`, `C117_event_link`: forward simulation for every controller with `Delivers` (as for C115). `C117_uart_complete`, `C117_event_link_complete`: the other direction, for the queue of `Spec/Controllers.lean`, where all bytes arrive before `read` is called. `C117_no_leak_uart`, `C117_no_leak_event_link`: the system of C116 as an instance |
| C118 | Endless executions (`Forever`, `Fair` of `Spec/Forever.lean`), any type `A` and function `note`. `C118_uart`, `C118_event_link`: C76 gives a call after which all packets are reported; by the history invariant no more than the packets is ever reported, so the outcomes, and with them any fold over them, stay the same from then on. `C118_uart_every_state`, `C118_event_link_every_state`: the number of outcomes grows by at most one with a call. `C118_two_not_enough`: witness that over a UART two calls served in a row do not suffice |
| C119 | The system of C114, `Spec/CreditsForever.lean`: endless executions (`Traffic.Endless`) with two assumptions of fairness, `KeepsReading` and `KeepsFreeing`. `C119_no_deadlock` from `C114_no_credit_lost`. `C119_credit_again`: without a credit nothing is sent, so the buffers only become emptier; one is freed; after reading what is then on its way the account is what is in the buffers, fewer than `N`: contradiction. Example: an execution that sends, completes and reads for ever. `C119_unknown_reason`, `C119_lost_for_good`: a Disconnection Complete with an unknown reason leaves the account as it is, and nothing that the controller tells afterwards changes that (§5, 31) |
| C120 | The system of C115 in endless executions, `Spec/CreditsWireForever.lean`, with the assumption of fairness `FairPort` about the transport. `C120_uart`, `C120_event_link`: a step of the system of C115 is a step of that of C114, or of reading, or nothing (`wired_step`), so the execution is one of C119; `wired_keeps_reading`: if nothing were read any more, the first unread notice would arrive and a call served would report it. Example: an execution that sends, completes and reads for ever, on both transports |
| C121 | The systems of C117 in endless executions, `Spec/WholesForever.lean` (`PacketEndless`, `ByteEndless`, `BytesFair`). `C121_uart`, `C121_event_link`: each step with bytes is a step with whole packets or none (`byte_step`); fairness as in C120 (`byte_packets_read`). `C121_uart_catches_up`, `C121_event_link_catches_up`: proved with whole packets (`all_noted`) and carried over. `C121_uart_goes_on`, `C121_event_link_goes_on`: every reachable state has a fair endless execution, so the assumptions are not vacuous. Example: a system in which an error is told again and again, and counted |
| C122 | The system of C116 as an instance of C121. `C122_uart`, `C122_event_link`: `C121_*_catches_up`, since the account changes only by reading (`secretEnv_same`), and `C116_catches_up`. `C122_uart_may_send`, `C122_event_link_may_send`: consequences. Examples: a connection is opened and encrypted, nothing has been read, and the execution goes on from there |
| C123 | Same system. Invariant `Settling`: the packets on their way are some old ones, after which the account is right, followed by new ones none of which says the opposite (`told_not_denied`: while the encryption of a connection stays as it is, the controller says nothing else). Reading shortens the old ones (`belief_settles`); when none are left, no packet changes the belief (`settled_stays`). With whole packets `C123_packets`; carried over by C121: `C123_uart`, `C123_event_link`. Examples: a connection becomes encrypted unread; an encrypted one ends unread, so that the belief is wrong at first. That known reasons are needed: `C123_uart_unknown_reason`, `C123_event_link_unknown_reason`, fair endless executions in which the belief stays wrong for ever |
| C124 | The two systems of C121, any application that changes only by reading. While nothing is told every step reads a packet or changes nothing for the application (`silent_draining`, from `byte_step`), so what it will come to stays the same (`comesTo_same`) and the packets on their way run out (`drains`). `C124_uart`, `C124_event_link`. Examples: two packets are on their way |

## 5. Disagreements between code and claims

Found while modelling; each has a theorem or is visible in one.

1. `CommandComplete::new` panics on a 3-byte payload whose opcode has a status-only reply, and
   `LE_READ_WHITE_LIST_SIZE` panics on a 4-byte payload (C13).
2. An LE Advertising Report meta event with only the subevent byte panics; so does one with 1–8 bytes after
   the last complete report (C13, C17).
3. The number-of-reports byte of an LE Advertising Report is ignored (C18).
4. Status-only replies, and the reply to opcode 0, accept trailing bytes (C24).
5. `interval_as_u16` truncates to milliseconds before dividing: 7.5 ms is written as 5 (6.25 ms), which is
   illegal (C31, C32).
6. `ConnectionIntervalBuilder` rejects a supervision timeout of exactly 100 ms, which its documentation
   ("less than 100 ms") and the standard allow; hence such connections are not reported (C61).
7. Non-connectable undirected advertising below 100 ms is accepted in versions before 5.0 (C35).
8. A failed LE Connection Complete (zero parameters) is reported as `BadConnectionInterval` (C54).
9. `uart` read with a wrong packet indicator consumes nothing, so the stream is stuck (C05).
10. `event_link::NoCommands` writes a header of three zero bytes for every command (C48).
11. An advertisement longer than 255 bytes gets a length byte that wraps (C37_long_wraps).
12. `Opcode::new` silently truncates an OGF of 64 or more (C49).
13. PHYs are decoded with codes 0/1/2 although the standard uses 1/2/3 (C62); C09 is stated with the
    crate's codes (`Spec.phyCode`).
14. RSSI `Some(127)` written by `report_with_advertisements` reads back as `None` (C16, C19).
15. `BadCommandFlag` carries no value (C26).
16. LE Data Length Change and LE PHY Update Complete are decoded in every configuration, but their
    event-mask flags exist only from 4.2 and 5.0 on (C56).
17. `CommonDataType::SecurityManagerTkValue` is 0x11, but is registered as 0x10; no advertisement uses it (C66).
18. `Debug` of `CommandFlags` prints octets 0..38 (C59); `Debug` of `EncryptionKey` prints the key (C58).
19. A supervision timeout is cut off to whole 10 ms after it has been checked: with an interval of 50 ms a
    timeout of 100.5 ms is accepted and written as 100 ms, which the standard does not allow (C78).
20. A lower bound of the connection interval is rounded down, so that the controller may choose, and the event
    report, an interval below it: 11.25 ms when at least 12.5 ms was asked for (C79).
21. Advertising reports with an identity address (types 2 and 3, sent since 4.2 by controllers that resolve
    private addresses) are rejected, and with them the other reports of the same event (C81). The crate has
    commands that take such addresses, but none that turns address resolution on.
22. LE Read Remote Used Features Complete is rejected if the peer has a feature that the crate is not compiled
    for; the standard reserves such bits for later versions, and peers of later versions set them (C82).
23. A connection with a supervision timeout of 100 ms is made by the controller, and the event that announces it
    is rejected: the application holds a connection whose handle it does not know (C88, from disagreement of
    C61).
24. With `version-5-0` the log of a reply to Read Local Supported Commands does not show the commands of octet 39
    (C90, from disagreement 18); it is the only thing that the log of a result of `read` does not show.
25. Some connection parameters that the standard allows cannot be asked for: 6 units of 1.25 ms are written for
    8 ms and more only, and 8 ms needs a longer supervision timeout than 7.5 ms. With a latency of 499, timeouts
    from 7.51 s to 7.99 s cannot be combined with an interval of 7.5 ms (C92).
26. From 4.2 on the standard allows transmitter tests of up to 255 bytes; the crate rejects more than 37 (C92).
27. Asking for the connection parameters just reported shortens the interval by 1.25 ms each time until it is a
    multiple of 5 ms; from an interval below 10 ms the crate comes to ask for parameters that it rejects when
    they are reported (C93).
28. The example in the documentation of `Controller::peek` does not read an event packet: it takes the first
    parameter for the length and counts a header of two bytes (C95). `uart::Hci::read` does it right.
29. `host::Error::BadConnectionLengthRange` is documented for `le_create_connection`, but no method returns it;
    inverted ranges are rejected earlier, by `ExpectedConnectionLength::new` with an error of its own (C96).
30. The packets on a UART carry no mark by which a host could find their beginning, and `read` offers none. If a
    controller reports again and again that five packets of connection 4 are completed (`04 13 05 01 04 00 05 00`), a host
    that has lost the first four bytes reads `04 00 05 00 04 13 05 01` for ever and reports the unknown event 0x00 each
    time. The standard asks for a reset of the controller then (Vol 4 Part A 4), which the crate leaves to the application.
31. Disconnection Complete is rejected if its reason is not a status that the crate knows; the reason may be chosen by the
    device at the other end, and later versions define further ones. The application is told that there was an event with a bad
    reason, but not which connection has ended, so that it may take a later connection with the same handle for an encrypted
    one (C106_stale, C116_unknown_reason), may believe in the encryption for ever (C123_uart_unknown_reason), and never gets back the buffer credits of the connection (C119_lost_for_good).

## 6. Wrong-program tests

In a scratch copy a definition of the model is edited as a realistic bug would, and everything is rebuilt;
proofs that fail are replaced and the build repeated, so that every theorem is checked against the edit.
`seeded/LOG.jsonl` has one line per edit. The fields of a line:

* `failed`: the declarations whose proof no longer compiles. These are often helper lemmas.
* `property_theorems_left_unproved`: the property theorems that rest on a failed declaration. That a proof
  fails does not yet show that the statement is false.
* `refuted`, where present: property theorems whose *statement* is false after the edit, with an input at
  which it is. They were found by running the edited model on a fixed set of inputs and comparing with the
  unedited model, for functions that the named theorem characterises exactly (so that another value at any
  input contradicts it), or by evaluating an instance of the statement.

Lines with `first_failure_only` are from a systematic round: 645 small edits (a number changed by one, a
comparison or an operator exchanged, two branches swapped, a line deleted), spread over all definitions of the
model. 60 did not compile, 566 were stopped by a theorem, 19 were not. Those 19 break no claim: they change the
bounds of checked arithmetic that no argument reaches, the size of a scratch buffer that is cut to the length of
the header, which of two equal durations is the larger, or the wording of a label in printed text. For these lines
`failed` has the first theorem that failed and `property_theorems_left_unproved` those that rest on it.

A second round used edits of another kind: a field exchanged for another of the same structure, a variable for
another in scope, an opcode for another, two neighbouring lines swapped, a condition negated. Of 373 edits 194 did not
compile (most because of types), 159 were stopped and 20 were not. These 20 do not change what is computed: 19 swap two
steps, one of which cannot fail once the length has been checked, and one hands another value to the redacted
`plaintextBlockDebug`, which ignores it.

The specifications were put to the same test, 290 small edits of the files in `Spec/`: a definition of the
specification that may be changed without any proof failing says nothing. 54 did not compile, 223 were stopped, 13
were not. Four of the 13 changed the account of C88 on both sides; they led to the theorems that tell the account from
the history (`C88_open`, `C88_closed`, `C88_unknown`, `C88_allowed`), by which they are stopped now. One was in a
definition that was no longer used and has been removed. The other
eight break no claim: `Slow.tick` and `slowCall` are demonstration controllers; `RawReport.Conforms` without address
type 3 and `InUnits` with 626 µs only make a provable claim weaker; the default of `byteAt` is never used; bit 0 of
`defaultEventMask` is an event that the crate does not know; `floorAdv` may choose any representative; and `HasPhys`
is only used to say that it does not hold.

A second round of the same kind on the specifications written later: 162 edits, of which 33 did not compile, 128 were stopped
and one was not. It puts `i < j` for `i ≤ j` in `FlowControlled`, where more has been received at `j` than at `i`, so that
the two are the same.

A third round on the specifications written after that: 204 edits, of which 27 did not compile, 175 were stopped and two were
not. One put a number in `Makes` (C113) that no own address type has; it is stopped now by examples of connections with
every kind of own address. The other weakened `Offered` (C112), so that any data could be heard; it is stopped now by
`C112_determined`.
