{
 "C02": "Values for which the C code is defined; INT32_MIN is shown to be undefined behaviour in C02_int32_min_is_undefined.",
 "C03": "The round trip is false for negative values encoded in one or two bytes (C03_roundtrip_violated); proved for all other values (C03_roundtrip_partial).",
 "C07": "False when the transfer crosses the end of the storage (undefined behaviour, C07_multi_*_violated); proved for all transfers that do not. C07_multi_*_exact: undefined behaviour exactly when the transfer crosses the end, after the number of elements given there.",
 "C65": "The storage size in bytes is truncated to 8 bit: division by zero or lost events for some configurations (C65_*_violated); proved for storage of at most 255 bytes. C65_room_exact / C65_loopback_exact give the room for every configuration.",
 "C15": "The configured value is shifted by the byte index instead of 8 times the index (C15_*_violated); proved for byte 0 and for the value 0.",
 "C36": "Holds for every history without startNodeSegmentInit after init; C36_lost shows a history with it in which a later reset is never requested (the flag which remembers the request stays set).",
 "C37": "A final frame 3 which does not match itself completes the drop if a matching frame 3 was received before in the same window (example in Props/GuidDrop.lean).",
 "C20": "False for the paged decision matrix: a write of an out-of-range index is confirmed with a value the register does not hold (C20_violated_paged). Proved for all other registers and configurations. C20_paged_*_exact say for every index what the paged matrix confirms and what it holds.",
 "C22": "False for register 0xFF of a page, which a page read never reaches (C22_violated). Proved for all requests that end before it. C22_page_read_exact gives the answer to every request, including those which reach 0xFF.",
 "C23": "False for register 0xFF (C23_violated_end) and for page writes that run over the page select registers (C23_violated_select). Proved for all others. C23_page_write_exact gives the effect and the answer for every request.",
 "C33": "False in four ways (C33_violated): assigned 0xFF or 0, factory restore while active, stored 0. Proved for all histories without these. By every active node which is told 0xFF (C33_told_violated) and by every active node whose application restores the factory settings (C33_restored_violated).",
 "C39": "enableHeartbeat toggles instead of setting (C39_violated). Everything else about period, contents and gating is proved.",
 "C41": "Increment/decrement events for the alarm register clear it unreported (C41_violated), and a lost response loses the alarm (C41_lost). Proved for all other histories. C41_step_violated: increment and decrement do nothing but clear it, in every state.",
 "C42": "A node that got its nickname from the segment master never reacts to a changed segment (C42_violated). Proved for all other nodes.",
 "C45": "A page write response behind a factory restore in the same page write carries the old nickname (C45_violated). Proved for all other frames of all histories.",
 "C46": "Power loss in the window behind the write of the control flags leaves a partial restore (C46_violated). Proved for all crash points in front of it.",
 "C47": "The rule buffer of the next generation decision matrix is used uninitialised (C47_violated_uninitialised_rule). Proved for all histories under the configuration limits of GoodCfg.",
 "C48": "Zones are taken from the array behind the payload for too short events (C48_violated). Proved for all rows and all events that carry the bytes the row asks for. C48_row_exact / C48_cycle_partial say for every event, also short ones, which rows fire.",
 "C50": "The restore clears only the first ROWS + 7 bytes (C50_violated, C50_action_violated). Proved which rows are cleared, and for a matrix of one row.",
 "C51": "False for offsets, more than one page and extension rows (C51_*_violated). Proved for a single page and for the paged feature.",
 "C52": "Mixed AND/OR chains are evaluated right-associatively (C52_violated) and zones are taken from behind the payload (C52_zone_violated). The exact meaning is proved for all rule sets (C52_right_partial), the claimed one for unmixed chains and complete events (C52_rules_partial).",
 "C53": "A first rule of size 0 executes uninitialised memory (C53_violated). Proved for all other byte contents. C53_zero_exact / C53_any_violated say what such a rule set does: the content of the buffer is executed as often as rules are announced.",
 "C54": "Index truncated to 8 bit: bytes from 256 on have no register, and one page too much is claimed (C54_*_violated). Proved for rule sets below 256 bytes. C54_*_exact give the pages claimed and the byte reached by every register, for every size.",
 "C57": "False: the last received control event is applied again in every later cycle without a received event, so it overrides a later call of the application (C57_violated). Proved as long as the application does not change the logger settings after the event. C57_again_exact says what every such cycle does to the logger; C57_again_violated: a stop or level event always wins.",
 "C61": "False: with a period which does not divide 1000 the clock loses time at every second (C61_lost_violated); the difference is wrong for most pairs (C61_diff_violated). Proved: the fields stay in range, exact time for periods which divide 1000, and exactly for which pairs the difference is right.",
 "C66": "False: frames with 11 bit identifier become class 0 events (C66_standard_violated), remote frames are not told apart (C66_remote_violated). Proved: every extended frame is delivered as the event of its identifier.",
 "C67": "False for length codes 9 - 15 (C67_violated), provided the controller stores the received code. Proved for all others.",
 "C69": "False for every event with data: undefined shifts (C69_write_violated, C69_read_violated). Proved for events without data.",
 "C70": "False: a call looks at one buffer only (C70_next_violated). Proved: only receive buffers are read, and one of 15 calls reads a pending frame.",
 "C62": "False for three of the 889 functions (C62_page_violated: out-of-bounds write; C62_service_violated, C62_interest_violated: more than 8 bytes), for the smallest 32 bit value in functions with a normalized integer (C62_smallest_violated: signed overflow) and on platforms with a 4 byte double_t (C62_double_violated: out-of-bounds read). C62_frame_partial proves it for all other functions and all arguments on platforms with 4 byte float_t and 8 byte double_t; exponent -128 excluded.",
 "C63": "False for seven of the 889 functions (C63_level_violated, C63_preset_violated, C63_datetime_violated, C63_drop_violated; the three of C62) and for float_t on big-endian platforms (C63_float_violated). Proved for all others and all arguments: layout and recovery of every scalar parameter (C63_layout_partial, C63_recover_partial), normalized integers (C63_measurement, C63_zoned).",
 "C64": "False: two nodes which probe the same nickname at the same time both take it (C64_violated). Proved: a node does not take the nickname of a node which had it when the probe was sent, if all frames have been seen when it decides (C64_distinct_partial).",
 "C71": "Over networks of any number of complete node models; frames on the way to a node and in its loopback queue count as not seen. No assumption on timing.",
 "C72": "Proved without restriction on the interrupt schedule (the reader and the interrupt use different indices).",
 "C73": "A loss between the load and the reset of the flag is not reported (C73_violated); proved if the interrupt does not report a loss there.",
 "C74": "The result for a byte written to the data register is 0 although it is sent (C74_result_violated). If the interrupt comes between the check of TXCIE and the storage of the byte, the byte is stuck and overtaken (C74_order_violated). Proved: each byte taken is on the line at most once, nothing is overwritten; order and progress without this interrupt.",
 "C75": "The first byte is always sent twice if the transmitter is idle (C75_violated); proved: nothing is missing.",
 "C76": "A wait of 0 ticks lasts 256 ticks if a tick comes behind the calculation of the end (C76_zero_violated). Proved: rate, lower bound under every schedule, upper bound for n > 0 with three read accesses per tick.",
 "C77": "AVR: a press is lost if the tick comes between the two read accesses of the main loop (C77_lost_violated). ARM: the state of the button is inverted, an initialisation is started without any press (C77_arm_violated). Proved for AVR: only after 101 ticks, once per press, under every schedule; exactly once without this interrupt. C77_firmware: what the main loop of the AVR example makes of the debounced button.",
 "C78": "A timer may expire up to 250 ms too early, because the phase of the period is not considered (C78_violated). Proved: at most 250 ms early under every schedule, at most 249 ms late if the main loop runs in every millisecond.",
 "C80": "AVR: proved for all histories inside of the 4096 bytes. ARM: proved if every write cycle of the EEPROM has ended before the next transfer; violated otherwise (only the first of several bytes arrives), and above address 0xFF.",
 "C81": "Proved: sent exactly once, unchanged, refused only if 14 frames wait. Violated: the order (a later frame takes a lower free message object), and remote frames with 29 bit identifier are sent as data frames.",
 "C82": "Order, loss only if the frame in front has not been read, and transfer from node to node, for data frames and remote frames with 11 bit identifier.",
 "C83": "Proved up to the first frame which is stored. Violated: reading a frame clears filter and mask; setting a filter changes the identifier of a waiting frame.",
 "C84": "Proved for every sequence of calls other than init and process in each callback, with the limits of C45 and C47 (response behind a factory restore; configurations). The application gets control exactly in its callbacks, once in each (C84_once). The theorems C84_reg_* (C84_reg_once: once in each) add calls in the register functions of the application and in the notifications about idle state, error state, reset and boot loader. Violated there: restoring the factory settings while an extended page read calls the register function does not end the read, which goes on from page 0 and from a node without a nickname (C84_reg_restore_violated). Not modelled: calls in the lamp callback and in the two callbacks of the factory restore itself (these would recurse).",
 "C85": "Proved for every cycle which begins while the node looks for a nickname, and the nickname at any time. Violated in the rest of the cycle in which the discovery begins: a heartbeat which is due is sent with origin 0xFF.",
 "C91": "Violated: twelve of the 18 registers are described with page 0 instead of 1, where writes are lost and reads return 0 (C91_registers_violated), and ten rows are described where the firmware has two (C91_rows_violated). Proved for the other six registers, and for all 16 bytes of the matrix if the page is 1. The heartbeat is described with priority 7 and every second, it has priority 3 and a period of 30 s (C91_heartbeat_violated). Version, boot loader algorithm, buffer size and the events are as described (C91_version, C91_events_partial).",
 "C92": "The adapter configures its receive buffers for identifier 0 and leaves the masks of the vendor driver, which compare all bits of the identifier: C92_deaf_violated, C92_ignored_violated. C92_partial: a frame with identifier 0 and without data arrives. Sending (C92_send) and no invented events (C92_no_invented) are proved for all histories in which the behaviour is defined (C92_defined; see C69 for events with data).",
 "C93": "Violated: an empty rule set, or one whose first rule is too large, leaves the last report (C93_empty_violated, C93_large_violated); a rule which is too large is not reported (C93_next_large_violated); a malformed condition behind the point where the result is known is not reported (C93_hidden_violated); the position is counted from the first condition, not from the start of the rule (C93_position_violated). Proved: same actions (C93_same), no error for well-formed rule sets (C93_good), soundness, the number of the rule, and reports of obviously wrong rules for arbitrary bytes (C93_report_partial).",
 "C94": "C94_lowest: at any time; C94_joins: after enough cycles. One node joins at a time: two which look for a nickname at the same time can choose the same one (C64_violated), which they notice afterwards (C71).",
 "C32": "C32_ends_any: whatever else is called between the cycles (other than initialisation and start of the discovery).",
 "C96": "The code violates this: 101 ms behind every power on the node gives up its nickname although nobody touches the button (C96_lost_violated), and, as it hears nothing (C92), it takes the nickname 1, like every other node of this kind (C96_same_violated). Proved: behind that moment the nickname is kept until somebody presses the button.",
 "C97": "The code violates this: the node asks for the reset, the callback does nothing, and the node is silent for ever (C97_arm_violated). Proved: a press of the button gets it out, in every state. (The AVR example restarts, see C90.)",
 "C99": "Application registers are covered if the application derives their values from the persistent memory.",
 "C100": "Larger matrices and matrices with extension rows can not be programmed correctly at all, see C51.",
 "C101": "The logger functions exist only if the logger is configured; the model has the calls always.",
 "C102": "Registers with other behaviour (alarm, page select, device data, decision matrix, application) have their own properties. With callbacks (C102_callbacks) the framework handles the protocol events, i.e. their notification is off: else the application could restore the factory settings or start the discovery between the reception and the write.",
 "C103": "Holds in the AVR example. The ARM example reports one page, although its decision matrix is on page 1.",
 "C104": "Violated: nine data bits are accepted and eight used; 115200 and 230400 baud are off by 2.1 % and 3.6 %; a closed port still sends; a waiting byte is overtaken when the port is closed and opened again; new, smaller buffers keep the old indices. The baud rate is not checked (assumed valid).",
 "C105": "The frames may overtake each other (see the CAN driver properties), so the order on the bus is not claimed. C105_out asks of the events which the application sends that priority and class fit their fields (see the adapter property for the others); those which the framework sends itself are proved to fit. C105_answer, C105_write, C105_who and C105_keeps assume the loopback and the notification of protocol events are off (as in the example); C105_write and C105_who need room for the answer in the controller (14 buffers).",
 "C106": "Does not hold: the interrupt stores the preload into the counter instead of adding it, so that each delay of an interrupt is lost for good (C106_drift_violated: n ticks take 1.005 n ms if each interrupt is served half a microsecond late). C106_tick_partial states the exact relation of clocks, calls and lateness for every history; missing is only that the lateness is zero.",
 "C107": "The states reached are those in which the histories of the driver and firmware properties begin, so that these are about the program as it starts. The flags of the CAN driver are in C105.",
 "C108": "Does not hold for events which are too short: the size of the event which sets the nickname is not checked by the waiting node, so that it takes what happens to be behind the payload (C108_short_violated). C108_fate_partial is the full statement for histories whose events which set nicknames are complete; C108_asks is how the wait begins.",
 "C109": "The factory settings are those the code restores: it does not clear the whole matrix (C50). Decision matrices over several pages or with extension are not covered here (see C51 and C54 for their registers).",
 "C110": "Remote frames are left out (their bytes are not those of the bus).  Frames which come faster than the framework runs are covered by `C110_heard`, which speaks of the events heard.",
 "C111": "A cycle of the framework, a poll of the software timers and a call of the framework from the main loop are one step each: frames arrive and the controller sends also within a cycle (C102), but the tick interrupts between steps only.",
 "C112": "A millisecond is a tick of the timer interrupt (see C106 for its length); as in C111 it passes between steps of the main loop.",
 "C113": "A byte is written as a whole or not at all. As in C109 decision matrix and next generation rules each have a page for themselves, and the configuration is a good one.",
 "C114": "The code stores the CRC before it removes the nickname (`C114_violated`). `C114_memory` says exactly what can be found in the memory; `C114_partial` has every loss but the one between the two bytes. A byte is written as a whole or not at all.",
 "C115": "A byte is written as a whole or not at all. `C115_nickname` and `C115_segment` hold in every state, reachable or not.",
 "C116": "Extends C24, which has histories without protocol events. Registers of the application are reported as the application answers; the alarm register is cleared by the read.",
 "C117": "Proved while the node keeps its nickname (`C117_partial`). `C117_violated`: in every cycle in which it changes while a request is running, the node sends the next response under the new nickname, or under 0xFF after it dropped its nickname.",
 "C120": "For the requests of the table: those about VSCP registers and the matrix; extended page reads (answered over several cycles) are C24, registers of the application and of the matrix are answered as C17, C19 and C21 say. The node has to be active, has to have delivered all frames to the framework, and the answers have to fit into the 14 buffers of the CAN controller; loop-back and notification about protocol events are off.",
 "C121": "The handler of the request sends one frame with the values of the settings (C121_sends); with C110 (settings are what the frames make of them) and the exchange of a request and its answer on the bus this gives C121_bus, and for the whole example with its parts C121_example.",
 "C122": "C122_no_duplicates is C71, and C122_newcomer the partial C64, for nodes with adapter, driver and controller (C105), with callbacks, without order of frames, and with losses of power. C122_in_turn and C122_unassigned derive two of their hypotheses from the order of the moves and from what the others send. Two nodes which probe the same nickname at the same time both take it (C64_violated) and notice it afterwards. Histories in which the adapter does not take an event are not covered.",
 "C123": "C122 for whole AVR examples, with hypotheses only about the surroundings: that the examples themselves do not assign nicknames, that they keep to the pace and that nothing is undefined is proved. Two examples which probe the same nickname at the same time both take it and notice it afterwards (compare C64_violated). Histories in which the adapter does not take an event are not covered.",
 "C124": "C32 in milliseconds for the whole AVR example. The bound of ten minutes covers 254 probed nicknames which are all in use (2 s each) and any value of the main timer at the beginning. The hypothesis that the adapter takes the events is needed: a probe which is not taken is repeated for ever (C32).",
 "C125": "C31 in milliseconds for the whole AVR example. 1.75 s instead of the configured 2 s, because the framework's timers advance in periods of 250 ms, and the first of them may have begun before the probe. An answer which is read in the very cycle in which the example takes the nickname is not looked at (it counts for C123).",
 "C126": "The answer may still be on the way when its sender has given up the nickname, so \"at some time before\" cannot be \"at this time\". That a nickname which another example keeps is not taken is C123.",
 "C127": "The frames of one node are on the bus in the order of the message objects of its controller, which is not the order of the events (C104, C105); the theorem says that they are a permutation of its events. Events of the applications must fit into the frame (priority below 8, class below 512); those of the AVR example do.",
 "C128": "How often an answer is heard is not said here; C127 says that nothing is heard twice. Answers of one node may overtake each other (C81).",
 "C129": "For nodes in general the events must have a place in a frame (priority below 8, class below 512); those of the AVR examples always do.",
 "C130": "The new nickname may be 0xFF, which makes C33 false (C33_told_violated). In the cycle on the CAN bus only the confirmation is claimed, because callbacks of an application may change the state in the same cycle."
}