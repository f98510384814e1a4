#!/usr/bin/env python3
"""Writes /verif/properties.jsonl.  The table below is the single place where the
property list is edited."""
import json, os
P = []
def p(id, title, statement, quantifier, why, anchors):
    P.append(dict(id=id, title=title, statement=statement, quantifier=quantifier,
                  why_tests_cant=why, anchors=anchors))

DC='src/vscp_data_coding.c'; UT='src/vscp_util.c'; TP='src/vscp_transport.c'; PS='src/vscp_ps.c'
PSH='src/vscp_ps.h'; DD='src/vscp_dev_data.c'; CO='src/vscp_core.c'; DM='src/vscp_dm.c'; NG='src/vscp_dm_ng.c'; LG='src/vscp_logger.c'

p('C01','Data coding format byte is lossless',
  'The format byte built from a data representation, a unit and a sensor index carries exactly those three fields: each of them can be read back from bits 7-5, 4-3 and 2-0, and two different in-range triples never give the same byte.',
  'every representation 0..7, unit 0..3 and sensor index 0..7 (and, for the masking part, every byte value of each argument)',
  'the claim is an injectivity statement over the whole argument space; a test only looks at chosen triples',
  [DC+': vscp_data_coding_getFormatByte'])
p('C02','Normalized integer encoding is the exact, minimal two\'s complement value',
  'For every representable 32 bit value the encoder writes one normalizer byte followed by n big-endian two\'s complement bytes whose sign-extended value is exactly the input, where n is the smallest number of bytes with |value| < 2^(8n-1), and the normalizer byte holds the decimal exponent in sign-magnitude form.',
  'every int32 value except INT32_MIN (where the C expression is undefined), every exponent -127..127, every buffer large enough',
  'four size classes with off-by-one boundaries (0x7F/0x80, 0x7FFF/0x8000, ...) over 2^40 inputs',
  [DC+': vscp_data_coding_int32ToNormalizedInteger', DC+': vscp_data_coding_getNormalizerByte'])
p('C03','Normalized integer decode inverts encode',
  'Decoding what the encoder produced returns the original value and exponent.',
  'every int32 value except INT32_MIN and every exponent -127..127',
  'a round-trip law over the full value space; sampled tests miss the classes of values where it breaks',
  [DC+': vscp_data_coding_normalizedIntegerToInt32', DC+': vscp_data_coding_int32ToNormalizedInteger'])
p('C04','Encoder never writes outside the caller\'s buffer',
  'The number of bytes reported (and written) is never larger than the buffer size given; if the value does not fit, 0 is returned and the buffer is untouched.',
  'every value, exponent and buffer size 0..255',
  'a memory safety claim over all sizes and values, including the short-buffer paths nobody exercises',
  [DC+': vscp_data_coding_int32ToNormalizedInteger'])
p('C05','Decoder is total and ignores malformed lengths',
  'Decoding any byte string of any length never reads past the given length and yields value 0 and exponent 0 for lengths 0 and greater than 5; the exponent is always in -127..127.',
  'every byte string and every length 0..255',
  'robustness against every malformed input',
  [DC+': vscp_data_coding_normalizedIntegerToInt32'])
p('C06','Cyclic buffer is a bounded FIFO for single-element transfers',
  'For every interleaving of single-element writes and reads the buffer behaves like a FIFO queue of capacity (slots - 1): nothing is lost, duplicated or reordered, a write is refused exactly when the queue is full, a read exactly when it is empty, and no storage outside the buffer is touched.',
  'every number of slots 1..255 and every finite sequence of operations',
  'the state space (indices x contents x history) is unbounded; wrap-around only shows after long histories',
  [UT+': vscp_util_cyclicBufferInit', UT+': vscp_util_cyclicBufferRead', UT+': vscp_util_cyclicBufferWrite'])
p('C07','Cyclic buffer multi-element transfers',
  'Reading or writing several elements in one call has the same effect as the same number of single-element calls.',
  'every buffer state and every requested number of elements',
  'depends on where the indices stand relative to the physical end of the storage, i.e. on the whole history',
  [UT+': vscp_util_cyclicBufferRead', UT+': vscp_util_cyclicBufferWrite'])
p('C08','Zone index classification',
  'The position of the zone byte reported for an event is 0, 1 or "none"; hence the zone and sub-zone positions derived from it always lie inside the 8 byte event payload; it is "none" for every type 0 event and for every class without zone information.',
  'every 16 bit class and every 8 bit type',
  '2^24 inputs; the claim is used as a memory safety argument by the decision matrix',
  [UT+': vscp_util_getZoneIndex'])
p('C09','Loopback transport neither loses nor reorders received events',
  'With loopback enabled, every event handed over by the transport adapter is returned by exactly one read, in arrival order relative to all other events that entered the loopback queue, no matter how own transmissions are interleaved.',
  'every sequence of transport reads and writes and every adapter behaviour',
  'the argument needs an invariant over the queue fill level along every history (the queue must always have room for the event polled while delivering another one)',
  [TP+': vscp_transport_readMessage', TP+': vscp_transport_writeMessage'])
p('C10','Transmit error counter is exact and saturating',
  'The transmit error count reported is min(255, number of failed transmissions since it was last read) and reading clears it.',
  'every sequence of writes and error count reads and every adapter behaviour',
  'needs counting over arbitrarily long histories including the wrap-around boundary',
  [TP+': vscp_transport_writeMessage', TP+': vscp_transport_getTransmitErrors'])
p('C11','Only well-formed, non-protocol, non-log events are looped back',
  'An own transmission is looped back iff loopback is enabled, its data size is at most 8 and it is neither a protocol nor a log event and there is room; an event with more than 8 data bytes is never handed to the adapter when loopback is enabled and counts as an error.',
  'every message and transport state',
  'all-inputs decision logic with a full-queue corner case',
  [TP+': vscp_transport_writeMessage'])
p('C12','Persistent storage layout has no overlap',
  'In every build configuration the fields kept in persistent memory occupy pairwise disjoint address ranges that are packed without gaps from the base address up to the published next free address.',
  'every combination of configuration switches and sizes',
  '2^13 configurations times sizes; each test binary has exactly one configuration',
  [PSH+': VSCP_PS_ADDR_*', PSH+': VSCP_PS_SIZE_*'])
p('C13','Persistent storage accessors behave like independent variables',
  'Writing any stored field (or any byte of it) and reading it back returns the written value, changes no other field or byte, and an out-of-range index reads 0 and writes nothing.',
  'every configuration, memory content, field, index and value',
  'frame condition over all pairs of fields and all indices',
  [PS+': vscp_ps_read*', PS+': vscp_ps_write*'])
p('C14','Device data after factory reset equals the configured device data',
  'After the factory defaults are restored, GUID, zone, sub-zone, manufacturer ids and MDF URL read back exactly as configured (GUID byte 15 first in the configured array, MDF URL zero padded to 32 bytes), whichever of them are kept in persistent memory.',
  'every configuration and every configured GUID, URL and id value and every prior memory content',
  'quantifies over all device data and storage configurations',
  [DD+': vscp_dev_data_restoreFactoryDefaultSettings', DD+': vscp_dev_data_get*'])
p('C15','Standard device family code and type are readable byte-wise',
  'The four family code (device type) registers return the four bytes of the configured 32 bit value.',
  'every 32 bit family code / device type',
  'value-dependent: a wrong shift only shows for particular codes',
  [DD+': vscp_dev_data_getStdDevFamilyCode', DD+': vscp_dev_data_getStdDevType', DD+': vscp_dev_data_restoreFactoryDefaultSettings'])
p('C16','VSCP register map',
  'Every address 0x80..0xFF of page 0 reads the documented quantity (alarm, version, control flags, user id, ids, nickname, page select, firmware, boot loader, buffer size, pages, family, type, device code, GUID, MDF URL) and undocumented addresses read 0; every other address is served by the decision matrices or by the application.',
  'every configuration, node state, page and address',
  'the claim is about every address in every state',
  [CO+': vscp_core_readRegister'])
p('C17','Reading a register has no side effect except clearing the alarm status',
  'A register read leaves node state, persistent memory and timers unchanged, except that reading the alarm register clears the alarm bits.',
  'every configuration, node state, page and address',
  'frame condition over all state components and all addresses',
  [CO+': vscp_core_readRegister'])
p('C18','Read-only registers cannot be changed',
  'No write, page write, extended page write, increment or decrement aimed at a read-only VSCP register changes anything in the node, and a single write to one is not confirmed.',
  'every read-only address, value and node state',
  'needs a frame condition for every address and state',
  [CO+': vscp_core_writeRegister', CO+': vscp_core_handleProtocolWriteRegister'])
p('C19','Write protection protects decision matrix and application registers',
  'While the write-enable bit of the node control flags is cleared, no received event makes the node write a decision matrix or application register.',
  'every received event and node state with the bit cleared',
  'must hold for all write paths (write, page write, extended page write, increment, decrement) and all addresses',
  [CO+': vscp_core_writeRegister', CO+': vscp_core_getRegAppWriteProtect'])
p('C20','Write confirmations are truthful',
  'A write response is sent iff the write was accepted, and for registers kept by the node the value it reports is the value the register holds afterwards.',
  'every register, value and node state',
  'relates two executions (response and later read) over all inputs',
  [CO+': vscp_core_handleProtocolWriteRegister', CO+': vscp_core_writeRegister'])
p('C21','Factory restore register needs 0x55 then 0xAA in time',
  'Writing the restore register restores the factory settings only when 0xAA is written while the window opened by an earlier 0x55 write is still running; no other write sequence does.',
  'every sequence of register writes and elapsed times',
  'a temporal property over every history of writes and ticks',
  [CO+': vscp_core_writeRegister (VSCP_REG_RESTORE_STD_CFG)'])
p('C22','Page read returns exactly the requested registers',
  'The page read responses, in sequence order, carry exactly the requested consecutive registers (limited to the end of the page), seven per response, with sequence numbers 0, 1, 2, ...',
  'every start address, count and node state',
  'all address/count combinations including the page end boundary',
  [CO+': vscp_core_handleProtocolPageRead'])
p('C23','Page write writes exactly the supplied registers',
  'A page write writes the payload bytes to consecutive registers of the selected page, limited to the page end, each once and in order, and answers with one response.',
  'every payload, address and node state',
  'all address/length combinations including the page end boundary',
  [CO+': vscp_core_handleProtocolPageWrite'])
p('C24','Extended page read streams every requested register once',
  'An extended page read of n registers starting at (page, addr) delivers the registers page*256+addr, +1, ... n of them, each in exactly one successfully transmitted response, in order, never more than four per response, never mixing two pages in a response, whatever transmissions fail in between.',
  'every page, address, count 1..256, register contents and every pattern of transmission failures',
  'a property of unbounded executions under arbitrary failure schedules',
  [CO+': vscp_core_extendedPageReadRegister', CO+': vscp_core_handleProtocolExtendedPageReadRegister'])
p('C25','Extended page write writes exactly the supplied registers',
  'An extended page write stores its one to four payload bytes in consecutive registers of the given page, limited to the end of the page, and echoes page, register and the values.',
  'every payload, page, address and node state',
  'boundary at the page end for all combinations',
  [CO+': vscp_core_handleProtocolExtendedPageWriteRegister'])
p('C26','Increment and decrement change a register by one modulo 256',
  'For a writable byte register the increment (decrement) event leaves it one higher (lower) modulo 256 and confirms the new value.',
  'every register kept by the node, value and node state',
  'includes the wrap-around values and every register',
  [CO+': vscp_core_handleProtocolIncrementRegister', CO+': vscp_core_handleProtocolDecrementRegister'])
p('C27','Who-is-there answers with GUID and MDF URL',
  'A who-is-there request that addresses the node (or all nodes) is answered by exactly seven frames numbered 0..6 whose payload is the 16 GUID bytes (most significant first), the 32 MDF bytes and a zero byte; otherwise nothing is sent.',
  'every GUID, MDF URL, nickname and request',
  'concatenation law over all device data',
  [CO+': vscp_core_handleProtocolWhoIsThere'])
p('C28','Decision matrix info response',
  'A get-matrix-info request for the node is answered by one frame with number of rows, offset and start page of the decision matrix (zero when there is none).',
  'every configuration, nickname and request',
  'quantifies over configurations',
  [CO+': vscp_core_handleProtocolGetDecisionMatrixInfo'])
p('C29','A node is not affected by events for other nodes',
  'An addressed protocol event whose address byte is not the node\'s nickname has no effect at all on an active node: nothing is sent and no node state changes by its handler.',
  'every protocol event type that carries a nickname, every payload, every active node state',
  'a frame condition over all message types and payloads',
  [CO+': vscp_core_handleProtocolClassType'])
p('C30','An active node defends its nickname',
  'An active node that receives a probe for its own nickname transmits a probe acknowledge with that nickname as origin in the same process cycle, and never one for a different nickname.',
  'every active node state and received event',
  'safety of the address assignment relies on it in every state',
  [CO+': vscp_core_handleProtocolNewNodeOnline'])
p('C31','Nickname discovery only takes unclaimed nicknames',
  'A node that assigns itself a nickname by discovery has probed exactly that nickname, waited the full probe timeout and received no acknowledge from that nickname during the wait; nicknames are probed in ascending order.',
  'every sequence of received events, timer ticks and transmission failures',
  'a property of every schedule',
  [CO+': vscp_core_stateInit'])
p('C32','Nickname discovery ends',
  'Discovery makes progress: with working transmission every probe either is acknowledged and the next nickname is tried, or times out and the node becomes active; after nickname 254 the node announces 0xFF once and goes idle. From the beginning of a discovery on the segment master is probed once and each nickname from the configured first one on at most once, in ascending order, so at most 257 minus the first nickname probes are sent, and the discovery ends after a bounded number of cycles.',
  'every acknowledge pattern and schedule',
  'termination over all schedules',
  [CO+': vscp_core_stateInit'])
p('C33','An active node has a valid nickname',
  'A node in active state has a nickname in 1..254.',
  'every reachable state',
  'invariant over all histories; the violating histories are unusual',
  [CO+': vscp_core_statePreActive', CO+': vscp_core_handleProtocolSetNicknameId', CO+': vscp_core_restoreFactoryDefaultSettings'])
p('C34','Nickname in use equals the nickname in persistent memory',
  'At every point the nickname used by the node is the one stored in persistent memory, so that a power cycle at any time brings the node up with the nickname it was using, unless the stored start-up control bits are invalid (then the start restores the factory settings).',
  'every reachable state and crash point between process cycles',
  'crash points and histories are unbounded',
  [CO+': vscp_core_writeNicknameId', CO+': vscp_core_init'])
p('C35','Idle and error nodes are silent',
  'In idle and in error state no received event and no elapsed time makes the node transmit anything, call the application or change state; only an explicit segment initialization leaves these states.',
  'every sequence of events and ticks',
  'absence of behaviour over all inputs',
  [CO+': vscp_core_stateIdle', CO+': vscp_core_stateError'])
p('C36','Reset is requested once, after the requested delay',
  'After a drop-nickname/reset request with wait time t the node stays silent, requests exactly one reset and not before t seconds have elapsed (unless the application overrode an earlier requested reset by starting a segment initialization: then the request is lost, which is shown too).',
  'every wait time 0..255 and every schedule of ticks and received events',
  'timing over every schedule',
  [CO+': vscp_core_changeToStateReset', CO+': vscp_core_stateReset'])
p('C37','GUID based drop needs the complete GUID in time',
  'The GUID drop only takes effect when four frames carrying all 16 matching GUID bytes were received within the multi-message window opened by a frame 0, at the moment a frame 3 arrives; otherwise nickname and memory stay as they are; and four matching frames in time do drop the nickname.',
  'every sequence of frames and elapsed times',
  'temporal property over all frame sequences',
  [CO+': vscp_core_handleProtocolGuidDropNickname'])
p('C38','Drop nickname options',
  'Drop-nickname with one byte clears the nickname and resets; bit 5 keeps the nickname and resets, bit 6 restores factory settings, bit 7 goes idle, with reset taking precedence over idle; the wait time of the third byte is honoured.',
  'every flag byte, wait time and node state',
  'all flag combinations and states',
  [CO+': vscp_core_handleProtocolDropNicknameId'])
p('C39','Node heartbeat can be switched and is periodic',
  'Enabling (disabling) the heartbeat makes the node send (stop sending) heartbeats; while enabled and active, consecutive heartbeats are at least one period apart.',
  'every sequence of enable calls, process cycles and ticks',
  'history dependent',
  [CO+': vscp_core_enableHeartbeat', CO+': vscp_core_stateActive'])
p('C40','Time since epoch',
  'The unix timestamp advances by at most one per elapsed second and is set exactly to the big-endian time of a segment heartbeat with at least five bytes or to the value given by the application.',
  'every schedule of ticks, process calls and heartbeats',
  'history dependent',
  [CO+': vscp_core_process', CO+': vscp_core_handleProtocolHeartbeat', CO+': vscp_core_setTimeSinceEpoch'])
p('C41','Alarm bits are sticky until read',
  'An alarm bit raised by the application stays set until the alarm register is read or factory settings are restored, and the read that clears it reports it.',
  'every sequence of operations',
  'history property: no operation may lose a bit',
  [CO+': vscp_core_setAlarm', CO+': vscp_core_readRegister'])
p('C42','Segment change is detected',
  'A segment heartbeat with a CRC different from the stored one is stored and, unless the node was just initialised by the segment master, starts a new nickname discovery; an equal CRC changes nothing but the time.',
  'every active state and heartbeat',
  'all states and payloads',
  [CO+': vscp_core_handleProtocolHeartbeat'])
p('C43','Process return value',
  'Processing returns TRUE iff an event was received in this cycle or an extended page read was in progress.',
  'every node state and input',
  'all states',
  [CO+': vscp_core_process', CO+': vscp_core_stateActive'])
p('C44','Boot loader entry is authenticated',
  'The node requests the boot loader only for an enter-boot-loader event addressed to it that names its boot loader algorithm, four GUID bytes and the current page select; in every other addressed case it answers NACK and does nothing else.',
  'every event, configuration and node state',
  'security check over all payloads',
  [CO+': vscp_core_handleProtocolEnterBootLoaderMode'])
p('C45','Every transmitted frame is well formed and carries the node\'s address',
  'Every frame the stack itself transmits has at most 8 data bytes, the hard-coded flag of the configuration, one of the 8 priorities and a class of 9 bits, and carries as origin the nickname the node has at that time.',
  'every execution',
  'every transmission of every history',
  [CO+': vscp_core_prepareTxMessage', CO+': vscp_core_*'])
p('C46','Factory restore survives power loss',
  'If power is lost at any point while factory settings are being restored on an uninitialised memory, the next start completes the restore.',
  'every crash point between two byte writes',
  'crash points cannot be enumerated by unit tests',
  [CO+': vscp_core_restoreFactoryDefaultSettings', CO+': vscp_core_checkPersistentMemory'])
p('C47','No out-of-bounds access for any received event',
  'For every received event with a data size of at most 8, whatever its class, type and payload and whatever the persistent memory contains, the stack accesses event payloads, persistent storage and rule buffers only inside their bounds.',
  'every reachable state, memory content and event',
  'memory safety over all inputs and memory contents',
  [CO+': vscp_core_process', DM+': vscp_dm_executeActions', NG+': vscp_dm_ng_executeActions'])
p('C48','Decision matrix row matching',
  'A decision matrix row fires iff it is enabled, has an action other than 0, and origin address, hard-coded flag, zone, sub-zone, class mask/filter and type mask/filter (9 bit class) all match as selected by its flags.',
  'every row content, event, zone configuration',
  '8 row bytes x event: 2^100 inputs',
  [DM+': vscp_dm_executeActions'])
p('C49','Decision matrix executes every matching row once, in order',
  'For a received event exactly the actions of the matching rows are executed, each once, in ascending row order, and nothing else happens.',
  'every matrix content and event',
  'all matrix contents',
  [DM+': vscp_dm_executeActions'])
p('C50','Factory reset disables the whole decision matrix',
  'After factory settings are restored every decision matrix row is disabled, so no event triggers an action.',
  'every prior matrix content and number of rows',
  'all memory contents and sizes',
  [DM+': vscp_dm_restoreFactoryDefaultSettings'])
p('C51','Decision matrix registers address distinct matrix bytes',
  'Each byte of the decision matrix is accessible through its own register: writing one register and reading it back returns the value, and no other matrix register changes.',
  'every configuration (start page, offset, rows) and register pair',
  'injectivity over all pages and offsets',
  [DM+': vscp_dm_calculateMatrixIndex', DM+': vscp_dm_isDecisionMatrixStd'])
p('C52','Next generation rule evaluation',
  'A next generation rule fires iff its condition chain evaluates to true, where conditions compare an event parameter with a constant by the given operator and are combined left to right by AND/OR.',
  'every rule and event',
  'recursive structure of unbounded shape',
  [NG+': vscp_dm_ng_getDecisionResult', NG+': vscp_dm_ng_compare'])
p('C53','Next generation engine tolerates arbitrary rule bytes',
  'Whatever bytes the rule set contains, evaluation terminates, examines at most the announced number of rules, and executes only actions that are present in the rule set.',
  'every rule set content and event',
  'arbitrary byte strings',
  [NG+': vscp_dm_ng_executeActions', NG+': vscp_dm_ng_getFirstRule', NG+': vscp_dm_ng_getNextRule'])
p('C54','Next generation registers address distinct rule set bytes',
  'Each byte of the rule set is accessible through its own register and no register outside the rule set is claimed.',
  'every configuration and register pair',
  'injectivity over all pages and addresses',
  [NG+': vscp_dm_ng_isDecisionMatrix', NG+': vscp_dm_ng_readRegister', NG+': vscp_dm_ng_writeRegister'])
p('C55','Log messages are fragmented losslessly',
  'The frames sent for a log message carry its bytes in order, five per frame, zero padded in the last frame only, with the log id, the level and consecutive indices; sending stops at the first transmission failure.',
  'every message, length, level and failure pattern',
  'all lengths and failures',
  [LG+': vscp_logger_log', LG+': vscp_logger_sendLogEvent'])
p('C56','Logger is gated by enable flag, level mask and log id',
  'A log call transmits iff logging is enabled and the level is selected; logging is started/stopped only by control events carrying the node\'s log id.',
  'every logger state and event',
  'all states and events',
  [LG+': vscp_logger_log', LG+': vscp_logger_handleEvent'])
p('C57','A received log control event is acted on once',
  'A log control event influences the logger only in the process cycle in which it was received.',
  'every history',
  'needs a history in which the application changes the logger after the event',
  [CO+': vscp_core_process', LG+': vscp_logger_handleEvent'])
p('C58','Software timers are independent and expire on time',
  'Timers created from the timer driver have distinct ids; starting, stopping or expiring one does not influence another; a timer started with value v is reported running until v milliseconds have been processed and not longer.',
  'every sequence of driver calls',
  'histories and interleavings',
  ['examples/avr/at90can/vscp_user/vscp_timer.c: vscp_timer_*'])
p('C59','Generic software timer driver',
  'A one-shot software timer signals timeout exactly after its period has elapsed; an auto-restart timer repeats.',
  'every sequence of driver calls',
  'histories',
  ['examples/avr/at90can/common/swTimer.c: swTimer_*'])
p('C60','CAN identifier packing is lossless',
  'Priority, hard-coded flag, class, type and origin address survive packing into and unpacking from the 29 bit CAN identifier.',
  'every message with class < 512 and priority < 8',
  'bijection on 2^29 values',
  ['examples/avr/at90can/vscp_user/vscp_tp_adapter.c: vscp_tp_adapter_readMessage, vscp_tp_adapter_writeMessage'])
p('C61','Time keeping',
  'The clock driver keeps milliseconds, seconds, minutes, hours in range and never loses elapsed time; the difference of two timestamps is their distance in milliseconds.',
  'every timestamp pair and every sequence of ticks',
  'all timestamps',
  ['examples/avr/at90can/common/time.c: time_process, time_calculateDiff'])
p('C62','Event send functions build well-formed frames',
  'Every event send function transmits at most one frame, with the class and type of the event, priority 3, the nickname as origin and at most 8 data bytes, for all arguments; functions with a mandatory byte array transmit nothing if it is missing.',
  'all 889 generated send functions and all argument values',
  'functions x argument space',
  ['src/events/*.c: vscp_evt_*_send*'])
p('C63','Event parameters are placed losslessly',
  'Every scalar parameter of an event send function appears big-endian at its documented offset, without overlap, so a receiver can recover all parameters from the frame.',
  'all send functions and argument values',
  'functions x argument space',
  ['src/events/*.c: vscp_evt_*_send*'])
p('C64','Two nodes do not end up with the same nickname',
  'On a segment where every frame reaches every other node before the probe timeout elapses, a node performing discovery never takes a nickname in use by an active node.',
  'every number of nodes, nickname assignment and schedule with timely delivery',
  'distributed schedules',
  [CO+': vscp_core_stateInit', CO+': vscp_core_handleProtocolNewNodeOnline'])
p('C65','Loopback works for every configured queue length',
  'With loopback enabled and room for at least two events configured, an own event sent while nothing waits is delivered by the next read, and no operation leaves defined behaviour.',
  'every configured number of loopback elements and every event size of the platform',
  'configuration space; the defect shows only for some products of element number and size',
  ['src/vscp_transport.c: vscp_transport_init', 'src/vscp_util.c: vscp_util_cyclicBufferInit'])

p('C66','Frames of other protocols are not taken for events',
  'The CAN adapter delivers the event of every 29 bit data frame; frames with an 11 bit identifier and remote frames are not delivered.',
  'every contents of the registers of the CAN controller',
  'all identifiers and flags',
  ['examples/avr/at90can/vscp_user/vscp_tp_adapter.c: vscp_tp_adapter_readMessage', 'examples/avr/at90can/driver/canDrv.c: can_readFrame'])
p('C67','No received frame leads to an access outside of the message',
  'Whatever the length code of a received frame is, reading it stays inside the storage of the caller and the delivered event has at most 8 bytes.',
  'every contents of the registers of the CAN controller',
  'length codes above 8 are sent by faulty nodes only',
  ['examples/avr/at90can/driver/canDrv.c: can_readFrame', 'examples/avr/at90can/vscp_user/vscp_tp_adapter.c: vscp_tp_adapter_readMessage'])
p('C68','Transmission attempts of the CAN adapter',
  'A message is handed over to the controller at most three times, not again after success, and success is reported if and only if one of the attempts succeeded.',
  'every sequence of results of the controller',
  'fault schedules',
  ['examples/avr/at90can/vscp_user/vscp_tp_adapter.c: vscp_tp_adapter_writeMessage'])
p('C69','The FlexCAN adapter transports events unchanged',
  'An event written by one node and read by another node is the same, including its data.',
  'every event',
  'all events; undefined shifts may work by chance on one compiler',
  ['examples/arm/frdm-k64f/vscp_frdm_k64f/vscp_user/vscp_tp_adapter.c: vscp_tp_adapter_readMessage, vscp_tp_adapter_writeMessage'])
p('C70','The FlexCAN adapter reads a pending frame',
  'If one of the receive buffers holds a frame, the next read delivers an event; only receive buffers are read.',
  'every contents of the receive buffers and every history of reads',
  'histories',
  ['examples/arm/frdm-k64f/vscp_frdm_k64f/vscp_user/vscp_tp_adapter.c: vscp_tp_adapter_readMessage'])
p('C71','Nodes with the same nickname notice it',
  'Whatever the nodes of a segment do and however long frames take to be delivered, there are no two active nodes with the same nickname (other than 0xFF, no nickname) when all frames have been seen by all nodes: an active node announces its nickname, another one which uses it answers, and the answer makes a node look for another nickname. Provided that transmissions succeed, the application leaves protocol events to the framework, and nobody assigns a nickname to an active node.',
  'every number of nodes, every configuration and persistent memory of them, every interleaving of their calls and of the delivery of frames, every event from elsewhere',
  'all schedules of any number of nodes',
  [CO+': vscp_core_changeToStateActive, vscp_core_handleProtocolNewNodeOnline, vscp_core_handleProtocolProbeAck, vscp_core_stateInit', TP+': vscp_transport_readMessage'])

p('C72','Received bytes are delivered in order',
  'Every byte delivered by the serial port was received, bytes are delivered once and in the order in which they were received, and a byte is lost only while the receive buffer is full. Clearing the receive buffer drops exactly the bytes in it.',
  'every size of the buffer, every sequence of calls and received bytes, the receive interrupt coming between any two accesses of the application to the shared variables',
  'interrupt schedules',
  ['examples/avr/at90can/driver/serialDrv.c: serialDrv_read, serialDrv_clearRx, ISR(USART0_RX_vect)'])
p('C73','A loss of received bytes is reported',
  'If a byte is lost because the receive buffer is full, the next query for an overflow after it reports it; an overflow is reported only if a byte was lost since the last report.',
  'every size of the buffer, every sequence of calls and received bytes, every interrupt schedule',
  'the interrupt has to come between two instructions',
  ['examples/avr/at90can/driver/serialDrv.c: serialDrv_isRxOverflow, ISR(USART0_RX_vect)'])
p('C74','Bytes handed over to the serial port go on the line',
  'A byte for which the write function returns 1 goes on the line once and in the order of the calls, a byte for which it returns 0 does not, and no byte is overwritten in the transmitter.',
  'every size of the buffer, every sequence of calls, the transmit interrupt coming between any two accesses of the application to the shared variables',
  'interrupt schedules',
  ['examples/avr/at90can/driver/serialDrv.c: serialDrv_write, ISR(USART0_TX_vect)'])
p('C75','A printed text appears on the line',
  'Printing a text makes exactly its bytes appear on the line.',
  'every text, every size of the buffer, every interrupt schedule',
  'interrupt schedules, all texts',
  ['examples/avr/at90can/main.c: main_print', 'examples/avr/at90can/driver/serialDrv.c: serialDrv_write'])

p('C76','Time base and waiting',
  'The timer callback of the example is called once per threshold of interrupts, for ever, and a wait of n ticks ends not before n ticks and not later than n ticks (if the counter is looked at often enough).',
  'every number of interrupts, every threshold, every tick counter value, every schedule of ticks against the instructions of the wait',
  'wrap-around of the counter at every position, interrupt schedules',
  ['examples/avr/at90can/driver/timerDrv.c: ISR(TIMER0_OVF_vect), timerDrv_sleep'])
p('C77','One press of the button starts one segment initialisation',
  'The example node starts the initialisation of its segment exactly once for each press of the button which lasts longer than the debounce time, and never otherwise. It then gives up its nickname for good and looks for a new one (unless it already does).',
  'every history of the button, every schedule of the timer interrupt against the main loop',
  'interrupt schedules, unbounded histories',
  ['examples/avr/at90can/main.c: main, main_timerCb', 'examples/arm/frdm-k64f/vscp_frdm_k64f/source/vscp_frdm_k64f.c: main, PIT0_IRQHandler, main_getInitButtonState'])
p('C78','Timers of the framework keep their time in the example node',
  'A timer of the framework which is started for v ms expires not before v ms, and soon after them, if it is driven by the main loop of the example.',
  'every duration, every history of starts and stops of timers, every schedule of the main loop against the timer interrupt',
  'all phases of two composed timers',
  ['examples/avr/at90can/main.c: main, main_timerCb', 'examples/avr/at90can/common/swTimer.c: swTimer_getStatus, swTimer_process', 'examples/avr/at90can/vscp_user/vscp_timer.c: vscp_timer_process'])
p('C79','The status lamp shows the state',
  'Off and on are steady; fast blinking changes the lamp at every call, slow blinking at every fourth call, for ever, beginning with the first one.',
  'every history of lamp states and every number of calls (wrap-around of the counter included)',
  'unbounded histories',
  ['examples/avr/at90can/main.c: main_processStatusLamp'])

p('C80','Persistent memory of the examples behaves like an array of bytes',
  'Each read access to the persistent memory, of one byte or of several, returns what was written last to these addresses; write accesses change nothing else.',
  'every history of accesses, every state of the EEPROM, every progress of its write cycles',
  'needs all histories and the timing of the EEPROM; the hardware is not there in unit tests',
  ['examples/avr/at90can/vscp_user/vscp_ps_access.c: vscp_ps_access_read8, vscp_ps_access_write8, vscp_ps_access_readMultiple, vscp_ps_access_writeMultiple','examples/arm/frdm-k64f/vscp_frdm_k64f/vscp_user/vscp_ps_access.c: vscp_ps_access_read8, vscp_ps_access_write8'])
p('C81','A frame handed over to the CAN controller is sent once, unchanged and in order',
  'Every frame which can_SendFrame has taken goes over the bus exactly once and unchanged, in the order of the calls; a frame is refused only if all message objects for transmission wait for the bus.',
  'every history of calls and of the work of the controller, including transmissions which end during the search for a free message object',
  'interleavings of driver and controller',
  ['examples/avr/at90can/driver/canDrv.c: can_SendFrame, getFreeMob, clrMob','examples/avr/at90can/driver/canDrv.c: can_Open'])
p('C82','A received frame is delivered once, unchanged and in order',
  'can_readFrame delivers the frames which the controller has stored once, unchanged and in the order of their arrival; a frame is lost only if the one in front of it has not been read; a frame sent by one node is read by another node unchanged.',
  'every history of calls and of frames on the bus, at the sender and at the receiver',
  'interleavings of driver and controller on two nodes',
  ['examples/avr/at90can/driver/canDrv.c: can_readFrame, can_SendFrame'])
p('C83','The acceptance filter of the CAN driver is in force',
  'Behind can_setFilter and can_setMask exactly the frames which agree with the filter in the bits of the mask are delivered, and setting a filter does not change a frame which waits to be read.',
  'all filters, masks, frames and histories',
  'the domain is the product of all identifiers, filters and masks, and histories are unbounded',
  ['examples/avr/at90can/driver/canDrv.c: can_setFilter, can_setMask, can_readFrame'])

p('C84','The application may call the framework in its callbacks',
  'The guarantees about frames, nickname, write protection and memory accesses also hold if the application calls the framework (sends events, writes log messages, sets alarm or time, begins a discovery, restores the factory settings) from inside of the callbacks for received events, actions, time and heartbeat, from its register functions, or when it is told about idle state, error state, reset or boot loader; a read of a register of the application is answered with the value it has delivered, a write hands it the value once, whatever it calls there; an event sent in the callback for a received event is transmitted at once, before the node does anything else; callbacks which do not change the persistent memory do not change which actions are executed.',
  'all configurations, memory contents, histories of calls and received events, and all calls the application makes in each of its callbacks',
  'the callbacks may make any sequence of calls at any point of any history',
  ['src/vscp_core.c: vscp_core_process, vscp_core_stateActive, vscp_core_handleProtocolHeartbeat','src/vscp_dm.c: vscp_dm_executeActions','src/vscp_dm_ng.c: vscp_dm_ng_executeActions'])

p('C85','A node without a nickname sends nothing but probes',
  'From the beginning of a nickname discovery until it has a nickname, a node has the nickname 0xFF (in use and in its memory), and the only frames it sends on its own are its probes with origin 0xFF; when it gets a nickname it announces it with the new nickname as origin.',
  'all configurations, memory contents and histories of calls, received events and elapsed times',
  'a discovery can begin at any point of a cycle, by any of five causes, in any history',
  ['src/vscp_core.c: vscp_core_stateInit, vscp_core_statePreActive, vscp_core_changeToStateInit, vscp_core_stateActive, vscp_core_startNodeSegmentInit'])

p('C86','The init lamp shows the state of the node',
  'After every call the last lamp state the framework has requested from the application is the one of the state of the node: blinking slowly after initialisation, blinking fast while the node looks for a nickname, on exactly if the node reports itself as active, off if it is idle, waits for a reset or is out of order; a call which does not change the state does not change the lamp.',
  'all configurations, memory contents and histories of calls (also from inside of callbacks), received events and elapsed times',
  'the state is changed at many places, each of which has to set the lamp; a test sees only some of the ways into a state',
  ['src/vscp_core.c: vscp_core_init, vscp_core_changeToStateInit, vscp_core_changeToStatePreActive, vscp_core_changeToStateActive, vscp_core_changeToStateIdle, vscp_core_changeToStateReset, vscp_core_changeToStateError', 'templates/vscp_portable.h: vscp_portable_setLampState'])

p('C87','Zone registers of the AVR example',
  'In the AVR example firmware register 0 of page 0 is the zone and register 1 the sub-zone of the node: whatever passes of the main loop, restarts and power cycles happened, a read of one of them answers with the value of the last write of it (or the value in the memory at first power on); a write is answered with the value and changes this byte of the memory only; all other application registers of page 0 read as 0 and ignore writes; while writes are not enabled, writes change nothing and are not answered.',
  'all memory contents, sequences of main loop passes with arbitrary received events, button states and elapsed times, restarts, power cycles, results of the CAN driver',
  'the value must survive every sequence of other events, restarts and power cycles; a test writes, reads back, and stops',
  ['examples/avr/at90can/vscp_user/vscp_app_reg.c: vscp_app_reg_readRegister, vscp_app_reg_writeRegister', 'examples/avr/at90can/vscp_user/vscp_config_overwrite.h', 'src/vscp_ps.c: vscp_ps_writeNodeZone, vscp_ps_readNodeZone', 'src/vscp_core.c: vscp_core_handleProtocolReadRegister, vscp_core_handleProtocolWriteRegister'])

p('C88','Actions of the AVR example',
  'When the active AVR example node receives an event, exactly the rows of its decision matrix which match are executed, in order, once each: action 1 sends one information event On (class 20, type 3), action 2 one event Off (type 4), with index 0 and all zones and the nickname of the node, directly behind the action; other actions send nothing. Without a received event, or while the node is not active, no action is executed. In every history each On and Off the node sends is the answer to an action.',
  'all memory contents, received events, histories of the main loop, results of the CAN driver',
  'the action runs inside of the framework, calls it again, and happens between two parts of the same pass; the rows and the event are arbitrary bytes',
  ['examples/avr/at90can/vscp_user/vscp_action.c: vscp_action_execute', 'src/vscp_dm.c: vscp_dm_executeActions', 'src/events/vscp_evt_information.c: vscp_evt_information_sendOn, vscp_evt_information_sendOff'])

p('C89','The status LED of the AVR example',
  'The status LED of the AVR example node is switched by the actions of the matching rows (the last one counts) and by nothing else the framework is called for; each time 250 ms elapsed it is set again to what shows the state of the node: lit if active, dark if idle, waiting for a reset or failed.',
  'all memory contents, sequences of main loop passes with arbitrary received events, button states and elapsed times, restarts and power cycles',
  'two parts of the firmware write the same LED; which one wins depends on the order of events and timer ticks',
  ['examples/avr/at90can/vscp_user/vscp_action.c: vscp_action_execute', 'examples/avr/at90can/main.c: main_processStatusLamp, main', 'examples/avr/at90can/vscp_user/vscp_portable.c: vscp_portable_setLampState'])

p('C90','Restart of the AVR example',
  'The AVR example firmware restarts exactly in the passes of its main loop in which the framework requests a reset, in such a pass nothing else happens, and the node is then as after power on with its nickname, zones, flags, user id and decision matrix kept; it never runs on behind a request. A node told to reset in t seconds is silent and unchanged until its 250 ms task ran 4 t times, and restarts in the next pass.',
  'all memory contents, sequences of main loop passes with arbitrary received events and elapsed times, power cycles, and waiting times',
  'the delay spans many passes with arbitrary traffic in between; a test checks one duration and one sequence',
  ['examples/avr/at90can/main.c: main', 'examples/avr/at90can/vscp_user/vscp_portable.c: vscp_portable_resetRequest', 'examples/avr/at90can/common/system.h: REBOOT', 'src/vscp_core.c: vscp_core_stateReset'])

p('C91','The AVR example is as its module description says',
  'Each register listed in the module description of the AVR example can be read and written as described: reading returns the byte it stands for (zone, sub-zone, or byte k of row r of the decision matrix), writing stores it there, answers with it and changes no other described byte; the decision matrix has the number of rows the description tells; version, boot loader algorithm and buffer size are those of the description; the node sends the events of the description and those of the protocol and no others, with the priority and period told.',
  'all registers and events of the description, memory contents, written values, histories of the firmware',
  'a configuration tool takes the description for granted; tests of the firmware do not read it',
  ['examples/avr/at90can/mdf/exp01.xml', 'examples/avr/at90can/vscp_user/vscp_app_reg.c', 'examples/avr/at90can/vscp_user/vscp_config_overwrite.h', 'src/vscp_dm.c: vscp_dm_readRegisterStd, vscp_dm_writeRegisterStd'])

p('C92','The ARM example hears the bus and sends its events',
  'In the ARM example, behind any history of bus frames, read calls and write calls, an event sent by another node is delivered by one of the next read calls, no event is invented or delivered twice, and the frames the node puts on the bus are exactly those of the events it writes, each once, in order.',
  'all contents of the message buffers before the initialisation, all sequences of frames on the bus, read calls and write calls',
  'it depends on the configuration of the controller left by the vendor driver and on every identifier; a test tries a few identifiers on a board',
  ['examples/arm/frdm-k64f/vscp_frdm_k64f/vscp_user/vscp_tp_adapter.c: vscp_tp_adapter_init, vscp_tp_adapter_readMessage, vscp_tp_adapter_writeMessage', 'examples/arm/frdm-k64f/vscp_frdm_k64f/drivers/fsl_flexcan.c: FLEXCAN_Reset, FLEXCAN_SetRxMbConfig, FLEXCAN_SetTxMbConfig, FLEXCAN_ReadRxMb, FLEXCAN_WriteTxMb, FLEXCAN_TransferSendBlocking'])

p('C93','Error report of next generation rules',
  'Behind the evaluation of the next generation rules for an event, the error query reports an error iff a rule of the rule set is malformed, with the number of the first malformed rule and the position of the error in it; the report is about the last evaluation; and it does not change which actions are executed.',
  'all contents of the rule set memory, all events, all earlier reports',
  'the rule set is arbitrary bytes and the event decides which of its parts are looked at',
  ['src/vscp_dm_ng.c: vscp_dm_ng_getError, vscp_dm_ng_executeActions, vscp_dm_ng_getDecisionResult', 'src/vscp_dm_ng.h: vscp_dm_ng_getError, VSCP_DM_NG_DEBUG'])

p('C94','Joining a segment',
  'A node which begins to look for a nickname in a segment without segment master, whose other nodes are active with different nicknames, gets the lowest nickname from the first one of its configuration on which no other node has; it stops without a nickname iff there is none. The other nodes keep their nicknames all the time, and it ends after a bounded number of cycles with time between them. Condition: no frames are lost, and each probe is answered before the time to wait for the answer is over.',
  'all numbers of nodes, nicknames, configurations, persistent memories, histories before, interleavings of cycles, delays, times and calls of the applications (other than initialisation, start of the discovery, factory reset and sending of protocol events), all events the applications send',
  'the result depends on what the nodes answer to each other over hundreds of probes, in any interleaving',
  ['src/vscp_core.c: vscp_core_process, vscp_core_stateInit, vscp_core_stateActive, vscp_core_handleProtocolNewNodeOnline, vscp_core_handleProtocolProbeAck', 'src/vscp_transport.c: vscp_transport_readMessage, vscp_transport_writeMessage'])

p('C95','The persistent memory is written only for a reason',
  'A running node does not wear out its persistent memory: in every history of an active node in which nothing asks it to store something, no byte is written at all, however long the history is. Asking are only: a segment heartbeat with another CRC, the acknowledge of another node with the same nickname, the last part of a GUID drop, and the events addressed to the node which set or drop the nickname, write, increment or decrement registers, or start the boot loader; of the calls only the initialisation, the start of the discovery and the factory restore. An event writes only what it is about, or the factory settings (drop nickname, register writes). A node which is not active writes at most the nickname, once, and only in a cycle in which its state changes.',
  'all configurations, states, events, contents of the persistent memory, histories of calls of any length',
  'that nothing else ever writes needs all events and all states; wear shows only after hundreds of thousands of writes',
  ['src/vscp_core.c: vscp_core_process, vscp_core_handleProtocolClassType, vscp_core_stateInit, vscp_core_statePreActive, vscp_core_stateStartup, vscp_core_startNodeSegmentInit', 'src/vscp_ps.c: vscp_ps_write*', 'templates/vscp_ps_access.h: vscp_ps_access_write8'])

p('C96','The ARM example node gives up its nickname only if its button is pressed',
  'The ARM example firmware begins to look for a new nickname only if somebody presses its button; a node nobody touches keeps the nickname it has, over any time, any number of passes of its main loop and any schedule of the timer interrupt, as long as it receives nothing which asks for another one.',
  'all contents of the persistent memory, schedules of the timer interrupt and the main loop, results of the CAN adapter, histories of any length',
  'what happens depends on the schedule of interrupt and main loop, and on a history of more than a hundred interrupts',
  ['examples/arm/frdm-k64f/vscp_frdm_k64f/source/vscp_frdm_k64f.c: main, PIT0_IRQHandler', 'src/vscp_core.c: vscp_core_startNodeSegmentInit, vscp_core_process'])

p('C97','A node of the ARM example which is told to reset restarts',
  'A node of the ARM example firmware which is told to reset itself or to drop its nickname restarts, or begins to look for a nickname, within the time it was told; it does not remain silent.',
  'all contents of the persistent memory, schedules of the timer interrupt and the main loop, received events, results of the CAN adapter, histories of any length',
  'that a node never answers again can not be tested: a test ends',
  ['examples/arm/frdm-k64f/vscp_frdm_k64f/vscp_user/vscp_portable.c: vscp_portable_resetRequest', 'examples/arm/frdm-k64f/vscp_frdm_k64f/source/vscp_frdm_k64f.c: main, PIT0_IRQHandler', 'src/vscp_core.c: vscp_core_stateReset'])

p('C98','The LED of the ARM example shows the state',
  'The LED of the ARM example changes only in the 250 ms period of the main loop, and then as the state of the node demands. 250 ms and one pass of the main loop behind the moment the node became active it is lit, and as long it remains active; 250 ms and one pass behind the moment it became idle, waits for a reset or is out of order, it is dark.',
  'all contents of the persistent memory, schedules of the timer interrupt and the main loop, received events, results of the CAN adapter, histories of any length',
  'it depends on the schedule of interrupt and main loop relative to the software timer and to the change of the state',
  ['examples/arm/frdm-k64f/vscp_frdm_k64f/source/vscp_frdm_k64f.c: main, main_processStatusLamp, PIT0_IRQHandler', 'examples/arm/frdm-k64f/vscp_frdm_k64f/vscp_user/vscp_portable.c: vscp_portable_setLampState, vscp_portable_getLampState', 'src/vscp_core.c'])

p('C99','A restart keeps the configuration',
  'Power off and on, at any point of any history, keeps the nickname and every byte stored before; every register reads after the restart what it read before, except for alarm status, page select and the window of a paged decision matrix, provided the stored start-up control is valid (otherwise the factory settings are restored). A node which had a nickname is active again with the first call of vscp_core_process, under the nickname it had, and announces itself once, whatever it receives meanwhile.',
  'all configurations, contents of the persistent memory, histories of calls of any length, points of the power loss, pages and register addresses, received events',
  'it quantifies over every history and every point of the power loss',
  ['src/vscp_core.c: vscp_core_init, vscp_core_checkPersistentMemory, vscp_core_readRegister, vscp_core_stateStartup, vscp_core_changeToStateActive', 'src/vscp_ps.c'])

p('C100','A decision matrix programmed over the bus is in force',
  'Whoever writes bytes of the decision matrix by extended page write events to an active, write-enabled node gets each of them confirmed, and from then on the node acts according to the matrix which results: for the next event exactly the rows which fire in the new matrix are executed, in order. Nothing else in the persistent memory changes, whatever happens in between that leaves the memory alone, and the new matrix is still in force after power off and on.',
  'all configurations with a matrix in the registers of one page without extension rows (for others see C51), states of the node, numbers, orders, places and contents of write events, other calls in between, events received afterwards',
  'it quantifies over every program for the matrix, every interleaving with other calls, and every event',
  ['src/vscp_core.c: vscp_core_handleProtocolExtendedPageWriteRegister, vscp_core_writeRegister, vscp_core_stateActive', 'src/vscp_dm.c: vscp_dm_writeRegister, vscp_dm_executeActions', 'src/vscp_ps.c: vscp_ps_writeDM'])

p('C101','What is configured out does not happen',
  'A node executes actions only if a decision matrix is configured, requests the boot loader only if boot loader support is configured, and calls each optional callback (idle state, error state, protocol event, time update, own heartbeat) only if that callback is configured. On its own it sends nothing but the protocol events of a node, and the node heartbeat if that is configured and left to the framework; every other frame is one the application has passed to it or a log frame the application asked for.',
  'all configurations, contents of the memory, results of the user code, and histories of received events and calls',
  'the configuration space alone is exponential in the switches, and a test of one history says nothing about another',
  ['src/vscp_core.c: vscp_core_process, vscp_core_handleProtocolClassType', 'src/vscp_config.h: VSCP_CONFIG_BOOT_LOADER_SUPPORTED, VSCP_CONFIG_ENABLE_DM, VSCP_CONFIG_HEARTBEAT_NODE'])

p('C102','A register holds what was written to it last',
  'Between two accesses a node may do anything: run cycles in any state, handle other events, restart, restore its factory settings. A read of the node control flags or of a byte of the user id answers with the value which the last write register, page write (to page 0), extended page write (to page 0), increment or decrement event for this node and this register left there, or with the factory setting (0xA0, or 0) if the factory settings were restored since, or with the contents of the memory at power-on if neither happened. Writes of other registers or other pages, events for other nodes, events of other types and all calls change nothing, including those an application makes in its callbacks.',
  'all configurations, contents of the memory, results of the user code, registers 0x83 - 0x88, and histories of events of at most 8 bytes, calls, restarts and passing time',
  'a register could be corrupted by any of the other operations, in any state, after any number of them; a test covers one sequence',
  ['src/vscp_core.c: vscp_core_writeRegister, vscp_core_readRegister, vscp_core_handleProtocolPageWrite, vscp_core_handleProtocolExtendedPageWriteRegister, vscp_core_handleProtocolIncrementRegister', 'src/vscp_ps.c: vscp_ps_writeUserId, vscp_ps_writeNodeControlFlags'])

p('C103','The number of pages a node reports is the number of its pages with registers',
  'Register 0x99 (number of pages used) of a node tells a configuration tool which pages to read. In every state of the node there is a register on a page (one which does not always read 0, or which can be written) if and only if the page is below the number in this register.',
  'all states of the node, all pages (0 - 65535), all addresses, all contents of the memory, for the AVR and the ARM example',
  'there are 65536 pages with 256 addresses each, and that none of them shows or stores anything is a statement about all states',
  ['examples/avr/at90can/vscp_user/vscp_app_reg.c: vscp_app_reg_getPagesUsed, vscp_app_reg_readRegister, vscp_app_reg_writeRegister', 'examples/arm/frdm-k64f/vscp_frdm_k64f/vscp_user/vscp_app_reg.c: vscp_app_reg_getPagesUsed', 'src/vscp_core.c: vscp_core_readRegister, vscp_core_writeRegister', 'src/vscp_dm.c: vscp_dm_isDecisionMatrix'])

p('C104','An opened serial port uses the format asked for, a closed one is silent (AVR example)',
  'Opening a serial port succeeds if and only if the handle is valid, the port has been given its buffers and the data bits, parity and stop bits are valid; otherwise nothing changes. An opened port uses exactly the format asked for, at a rate within 2 % of the one asked for, starts with empty buffers, and leaves the other port alone. A closed port raises no interrupt and sends nothing until it is opened again, and after that it is as new.',
  'all states of both ports, all arguments, all histories of calls and transfers',
  'the register contents depend on 360 combinations of arguments and on what was there before; what a closed or reopened port does depends on the history',
  ['examples/avr/at90can/driver/serialDrv.c: serialDrv_init, serialDrv_get, serialDrv_initUsart, serialDrv_open, serialDrv_close, serialDrv_write', 'examples/avr/at90can/driver/serialDrv.h: SERIALDRV_BAUD, SERIALDRV_DATA'])

p('C105','A node on the CAN bus: its events are the frames, nothing is lost, doubled or invented (AVR example)',
  'A node built from the framework, the transport adapter, the CAN driver and the controller has defined behaviour whatever is on the bus. The events the framework gets are the frames the controller took from the bus, in order, each once; if the framework runs at least once between two frames, no frame is lost. The frames it puts on the bus are the events the adapter took, each once and unchanged, with at most 14 still waiting. A request for a VSCP register on the bus is answered by a frame with the content of that register, a who-is-there request by the seven frames with the GUID and the URL of the description. A request to write the node control flags, the user id or the page select is answered with the value written; flags and user id keep this value over any history in which no event which writes the register is heard and the factory settings are not restored. The framework on the bus has exactly the histories of the framework properties.',
  'all configurations, callbacks, memory contents, uninitialised variables, register contents at power on, and all histories of cycles, calls, frames of other nodes and transmissions of the controller, including transmissions which end while the driver works',
  'frames, transmissions and cycles interleave in unboundedly many ways; the message objects are shared by driver and controller',
  ['examples/avr/at90can/vscp_user/vscp_tp_adapter.c: vscp_tp_adapter_readMessage, vscp_tp_adapter_writeMessage', 'examples/avr/at90can/driver/canDrv.c: can_sendMsg, can_readMsg', 'src/vscp_transport.c: vscp_transport_readMessage, vscp_transport_writeMessage', 'src/vscp_core.c: vscp_core_process'])

p('C106','The tick of the AVR example is a millisecond',
  'The timer callback of the AVR example is called once per millisecond, whatever else happens: the time which has passed is one millisecond per call, up to one more.',
  'every history of timer clocks, delays of the interrupt and calls of the driver',
  'delays of the interrupt add up over an unbounded time; no test has all of them',
  ['examples/avr/at90can/driver/timerDrv.c: timerDrv_init, timerDrv_setCallback, timerDrv_getTickCount, ISR(TIMER0_OVF_vect)'])

p('C107','The AVR example starts',
  'Whatever the memory, the registers and the variables contain, a start of the AVR example leads to its main loop, with the watchdog off, the timer running, the serial port open in the format asked for, the framework initialised and its timers created. A reset by the watchdog is not followed by another one.',
  'every content of memory, variables, buffers and registers; every earlier run',
  'all contents of memory and registers',
  ['examples/avr/at90can/main.c: main, main_initRunLevel1, main_initRunLevel2', 'examples/avr/at90can/driver/hw.c: hw_init, hw_disableWatchdog', 'src/vscp_core.c: vscp_core_init', 'examples/avr/at90can/vscp_user/vscp_timer.c: vscp_timer_init, vscp_timer_create', 'examples/avr/at90can/driver/serialDrv.c: serialDrv_open'])

p('C108','A nickname from the segment master',
  'A node without nickname first asks the segment master (nickname 0). Once the segment master has answered, the node takes exactly the nickname the segment master assigns to a node without one: it stores it, accepts it, switches on its lamp and announces itself, in this order and in the same cycle. If the time of the configuration passes before that, counted from its question, the node looks for a nickname by itself. Nothing else ends the wait.',
  'every history of cycles, received events, time and calls of the application which neither initialise the node nor restart its discovery; every moment of answer, assignment and time-out',
  'the answer and the assignment may come at any moment and be mixed with any other events',
  ['src/vscp_core.c: vscp_core_stateInit, vscp_core_changeToStatePreActive, vscp_core_statePreActive, vscp_core_changeToStateActive, vscp_core_writeNicknameId'])

p('C109','The settings of a node are what was written to them',
  'Node control flags, user id, selected page, decision matrix and next generation rules of a node are at any time what the write register, page write, increment, decrement and extended page write events addressed to it left in them, one after the other, respecting the write protection and the ends of pages, or what restoring the factory settings left; all its registers on all pages are read with these values, they outlast a power cycle (except the selected page), and the rows of the matrix and the rules the node executes for an event are those which were written this way.',
  'every history of cycles, received events, time and calls of the application from power-on on, every event after it, every content of the memory; every node whose decision matrix (without extension) and rules fit on one page each',
  'the settings are changed by five kinds of events over any number of registers in any order, and everything else the node does must leave them alone',
  ['src/vscp_core.c: vscp_core_writeRegister, vscp_core_readRegister, vscp_core_handleProtocolClass1, vscp_core_restoreFactoryDefaultSettings', 'src/vscp_dm.c: vscp_dm_executeActions', 'src/vscp_dm_ng.c: vscp_dm_ng_executeActions', 'src/vscp_ps.c'])

p('C110','A node on the CAN bus is configured by the frames on the bus',
  'While a node on the CAN bus is active, keeps its nickname, and its factory settings are not restored, its settings (node control flags, user id, selected page, decision matrix, next generation rules) are what the frames of other nodes make of them, read off the bits of the identifier and the data bytes: exactly the frames which carry the five kinds of writing requests for its nickname change them, in the order of the bus. The AVR example, as long as it hears no frame about nicknames, probes or the boot loader, stays active with its nickname, and the next frame with an event makes it execute the rows written over the bus and send the events which belong to them.',
  'every history of the node (cycles, time, calls, frames of other nodes, progress of the controller) from power-on to any point, and every further history from there with a cycle between two frames; every content of memory and registers',
  'the claim spans controller, driver, adapter, framework and application, for frames of any number and order, interleaved with any other traffic',
  ['examples/avr/at90can/driver/canDrv.c: canDrv_readFrame', 'examples/avr/at90can/vscp_user/vscp_tp_adapter.c: vscp_tp_adapter_readMessage', 'src/vscp_transport.c: vscp_transport_readMessage', 'src/vscp_core.c: vscp_core_process, vscp_core_writeRegister', 'src/vscp_dm.c: vscp_dm_executeActions', 'examples/avr/at90can/vscp_user/vscp_action.c: vscp_action_execute'])

p('C111','The AVR example as a whole is the firmware, the node on the bus and the button together',
  'The AVR example is one machine: main loop, timer interrupt (button, software timers), CAN interrupts and frames, framework, reboot and power loss, interleaved in any order. Every history of it is defined, and goes on as long as the controller has a free mailbox in time. Its firmware behaves as that of C88 to C90; between two starts its framework, driver and controller are the node on the bus of C105 and C110, with the same frames of other nodes, and its button that of C77, with the same states of the button: the framework looks for a nickname exactly when the button says so, and never if the button is not held for more than 100 ms. So the frames on the bus configure the example whatever its main loop does in between, and the LED and the frames it sends for the next event are those of the decision matrix written by them.',
  'every interleaving of the steps of the main loop, timer ticks with any state of the button, valid frames from the bus, progress of the controller, and losses of power; every content of memory and registers',
  'the parts share state and interrupt each other between any two steps; the histories are unbounded',
  ['examples/avr/at90can/main.c: main', 'examples/avr/at90can/main.c: main_timerCb', 'examples/avr/at90can/driver/canDrv.c: canDrv_readFrame, canDrv_writeFrame', 'examples/avr/at90can/vscp_user/vscp_portable.c: vscp_portable_resetRequest', 'src/vscp_core.c: vscp_core_process'])

p('C112','The AVR example tells the time, and restarts when told',
  'The time the framework of the AVR example is told, and the time its clock shows, never run ahead of the timer interrupt by more than 250 ms in any piece of history, and are not ahead at all since the start; they lag less than 250 ms behind if the main loop runs once in each millisecond. A frame on the bus which tells the active example to drop its nickname and to restart after some seconds makes it wait; it restarts not earlier than 250 ms before this time is over, and when it is over at the latest, whatever frames other nodes send, if nobody presses the button; until then it sends nothing and stores nothing, and it starts with the nickname it was told to keep, or without one.',
  'every history of the example from a start to any point, and every further history from there; every wait time',
  'the bound on time depends on how the tick interrupt, the software timers and the main loop interleave, for histories of any length',
  ['examples/avr/at90can/main.c: main', 'examples/avr/at90can/common/swTimer.c: swTimer_process, swTimer_getStatus', 'src/vscp_core.c: vscp_core_stateReset, vscp_core_handleProtocolDropNicknameId', 'examples/avr/at90can/vscp_user/vscp_timer.c: vscp_timer_process', 'examples/avr/at90can/vscp_user/vscp_portable.c: vscp_portable_resetRequest'])

p('C113','A loss of power in the middle of a call leaves settings from before it, or from after it, or of the first part of a page write',
  'Whenever a node loses its power - in the middle of any call, between any two of the bytes it stores -, the node control flags, user id, decision matrix and next generation rules it finds when it is switched on again are those before the call; or what the event received in the call makes of them, where a page write or extended page write may be cut short to its first data bytes; or, if the call restores the factory settings, every byte is that of the factory settings or the one before. A request which writes a single register is either done or not. With these settings the node goes on as after any other restart.',
  'every history of a node, every call in it, and every point of time in the call at which the power is lost; also for an application which calls the framework in its callbacks; and for the AVR example every step of its main loop',
  'the power can be lost after any of the writes to the memory, and which writes there are depends on the whole history',
  ['src/vscp_core.c: vscp_core_writeRegister, vscp_core_handleProtocolPageWrite, vscp_core_handleProtocolExtendedPageWriteRegister, vscp_core_handleProtocolWriteRegister, vscp_core_handleProtocolIncrementRegister, vscp_core_handleProtocolDecrementRegister, vscp_core_restoreFactoryDefaultSettings', 'src/vscp_ps.c: vscp_ps_writeNodeControlFlags, vscp_ps_writeUserId', 'src/vscp_dm.c: vscp_dm_writeRegister', 'src/vscp_dm_ng.c: vscp_dm_ng_writeRegister'])

p('C114','A change of the segment is not forgotten by a loss of power',
  'If a node takes a segment heartbeat with another CRC than the one it has stored and loses its power meanwhile, then after it was switched on either nothing of the change is stored and the node is active with its nickname, and the next segment heartbeat makes it look for a nickname; or it looks for a nickname from the beginning. It does not remain in the new segment with the nickname of the old one.',
  'every state of an active node, every segment heartbeat with another CRC, and every point of time in the call at which the power is lost',
  'the window between two writes to the persistent memory is hit by chance only, and the mistake shows only after a restart, as a nickname which is used twice in the new segment',
  ['src/vscp_core.c: vscp_core_handleProtocolHeartbeat, vscp_core_changeToStateInit, vscp_core_stateStartup, vscp_core_init', 'src/vscp_ps.c: vscp_ps_writeSegmentControllerCRC, vscp_ps_writeNicknameId'])

p('C115','After a loss of power a node has the nickname it had, the one it was given, or none',
  'Whenever a node loses its power - in the middle of any call, between any two of the bytes it stores - and is switched on again, its nickname is the one it had before the call, or the one it has after the call, or it has none; never another one, like a number it only tried. The same holds for the CRC of the segment, where none is that of the factory settings.',
  'every state of a node, every call and every point of time in the call at which the power is lost; for the restart every history of a node; also for an application which calls the framework in its callbacks, but for the start of the node initialisation and the restore of the factory settings there; and for the AVR example every step of its main loop',
  'some calls store the nickname more than once (a drop of the nickname with the factory settings), and the power can be lost after any of the writes',
  ['src/vscp_core.c: vscp_core_writeNicknameId, vscp_core_handleProtocolDropNicknameId, vscp_core_handleProtocolSetNicknameId, vscp_core_handleProtocolGuidDropNickname, vscp_core_handleProtocolHeartbeat, vscp_core_stateInit, vscp_core_restoreFactoryDefaultSettings, vscp_core_init', 'src/vscp_ps.c: vscp_ps_writeNicknameId, vscp_ps_writeSegmentControllerCRC'])

p('C116','An extended page read is answered completely among the other traffic of the bus',
  'As long as a node stays active, is not reset to the factory settings and takes no further extended page read or write, it answers an extended page read with the requested registers one after the other, none twice and none left out, whatever else happens: requests of other kinds to this node (also writes of registers and a new nickname), requests to other nodes, segment heartbeats, events, calls of the application, failed transmissions. A new extended page read replaces one which is still running. Every response reports the contents the registers have in the cycle in which it is sent.',
  'every node, request, register contents, every history of events and calls with the stated exceptions, every pattern of transmission failures',
  'the interleaving of a response which takes many cycles with any other traffic can not be enumerated',
  ['src/vscp_core.c: vscp_core_extendedPageReadRegister, vscp_core_handleProtocolExtendedPageReadRegister, vscp_core_handleProtocolClassType, vscp_core_stateActive'])

p('C117','Responses of an extended page read come from the nickname which was asked',
  'Every response to an extended page read carries the nickname to which the request was sent.',
  'every node, request and history as in C116',
  'shows only if the nickname changes in one of the cycles in which the responses are sent',
  ['src/vscp_core.c: vscp_core_extendedPageReadRegister, vscp_core_handleProtocolDropNicknameId, vscp_core_handleProtocolSetNicknameId, vscp_core_handleProtocolHeartbeat, vscp_core_stateActive'])

p('C118','A node sends nothing without a reason',
  'Every event which a node hands over to its adapter was asked for at that point of its history: by the application (an event it sends, a log message), by a request which the node receives in the same cycle, which is addressed to it and to which the event is the response, by an extended page read not yet complete, by a due heartbeat, or by the discovery of the nickname (a probe, the answer to the segment master, the announcement of the nickname it has just got). An active node without heartbeat to which nobody speaks stays silent for ever. The same holds if the application calls the framework in its callbacks: then an event may also be one the application sends in a callback of this cycle. Every frame of a node on the CAN bus carries such an event; for the AVR example, whose application only confirms the actions which switch its lamp, every frame on the bus has one of the reasons of the framework or confirms an action executed in the same cycle.',
  'all configurations, memory contents, behaviours of the application in its callbacks, and histories of calls, received events and elapsed times',
  'absence of any other frame, over all states and histories',
  ['src/vscp_core.c: vscp_core_process, vscp_core_stateStartup, vscp_core_stateInit, vscp_core_statePreActive, vscp_core_stateActive, vscp_core_handleProtocolClassType', 'src/vscp_logger.c: vscp_logger_sendLogEvent'])

p('C119','The AVR example sends its heartbeat every 30 seconds',
  'An active AVR example whose main loop runs once in each millisecond hands a node heartbeat (class 20, type 9, priority 3) with its nickname, zone and sub-zone to its adapter in any 30001 ms, whatever frames it receives, whatever the application sends for them, and however its timer interrupts fall into the main loop. Without a restart it does not send more of them than one in each 30 s, but for 250 ms in all, in whatever states it is in between and however slow its main loop is. Left alone, an active example stays active and does not restart, so that it sends its heartbeats for ever.',
  'all memory contents, histories of frames on the bus, button states, timer interrupts, losses of power and steps of the main loop',
  'the time between two heartbeats depends on the interleaving of timer interrupts, main loop and received frames over 30 s and more, and on every history before',
  ['examples/avr/at90can/main.c: main', 'src/vscp_core.c: vscp_core_stateActive', 'examples/avr/at90can/vscp_user/vscp_timer.c: vscp_timer_process', 'examples/avr/at90can/common/swTimer.c: swTimer_process, swTimer_getStatus'])

p('C120','Every request of the table on the CAN bus gets its answer on the bus',
  'An active node on the CAN bus answers the requests of other nodes as a table says, frame by frame: read and write of VSCP registers, page read and page write, increment and decrement, who is there, get decision matrix info, extended page write.  A request frame, from whatever node and with whatever priority, is followed by exactly the answer frames of the table on the bus, besides the frames which waited before and what the node sends of its own accord in the same cycle.  The whole AVR example does the same with the next step of its main loop, also for its zone and sub-zone registers.  Who is there carries the same bytes as the registers 0xD0 to 0xFF.',
  'Every history of the node (frames on the bus, cycles, calls of the application, losses of power) up to the request, every persistent memory, every request of the table, every sender and priority, every behaviour of the driver and the bus.',
  'A test asks some requests at a fresh node. That nothing in the history of the node, of its driver queues and of the bus changes or loses the answer can not be tested for all histories.',
  ['src/vscp_core.c: vscp_core_handleProtocolReadRegister', 'src/vscp_core.c: vscp_core_handleProtocolWhoIsThere', 'examples/avr/at90can/vscp_user/vscp_tp_adapter.c: vscp_tp_adapter_writeMessage', 'examples/avr/at90can/main.c: main'])

p('C121','What is written over the bus is read over the bus',
  'Whatever frames configure an active node on the CAN bus (write register, page write, increment, decrement, extended page write, in any order, mixed with any other frames and time), as long as the framework runs between two frames and neither the nickname nor the factory settings are asked for: a later extended page read request for up to four registers (node control flags, user id, page select, bytes of the decision matrix) is answered on the bus by one frame of type 39 and priority 7 with exactly the values the frames have written, the last write of each register counting. The same holds for the whole AVR example, with its main loop, button, timer and decision matrix running in between.',
  'all histories of a node before, all configuring histories, all requests for one to four registers, all memory contents; all configurations with a decision matrix on one page',
  'The values depend on the whole sequence of frames, on the interleaving of the framework with the bus and on everything the decision matrix does meanwhile; tests read back single writes.',
  ['src/vscp_core.c: vscp_core_handleProtocolExtendedPageReadRegister', 'src/vscp_core.c: vscp_core_extendedPageReadRegister', 'src/vscp_core.c: vscp_core_readRegister', 'examples/avr/at90can/main.c: main'])

p('C122','Nodes with the same nickname on a CAN bus notice it',
  'Nodes on a CAN bus, each with the framework, an application which may call the framework in its callbacks, the transport adapter, the CAN driver and the controller with its 14 transmit buffers (which do not keep the order of frames): whatever they and other participants do and whenever, and however often nodes are switched off and on again with any memory contents, two active nodes which have heard and sent everything do not have the same nickname, except 0xFF. A node which looks for a nickname does not take the one of a node which has had it since the first probe for it, if both have heard and sent everything when it decides. Provided that every node runs the framework before the next frame of another node comes, the adapter takes every event, the application leaves protocol events to the framework, and nobody assigns a nickname to an active node.',
  'every number of nodes, every configuration without undefined behaviour, memory contents, application, state of the controllers, every interleaving of cycles, calls, frames on the bus, transmissions and losses of power',
  'all schedules of any number of nodes and controllers',
  ['src/vscp_core.c: vscp_core_changeToStateActive', 'src/vscp_core.c: vscp_core_handleProtocolNewNodeOnline', 'src/vscp_core.c: vscp_core_handleProtocolProbeAck', 'src/vscp_core.c: vscp_core_stateInit', 'examples/avr/at90can/vscp_user/vscp_tp_adapter.c: vscp_tp_adapter_writeMessage, vscp_tp_adapter_readMessage', 'examples/avr/at90can/driver/canDrv.c: canDrv_sendFrame, canDrv_readFrame'])

p('C123','AVR examples with the same nickname on a CAN bus notice it',
  'AVR examples on a CAN bus, each of them as a whole - main loop, timer interrupt, button, software timers, framework, application, transport adapter, CAN driver and controller: whatever happens and whenever (buttons are pressed, examples restart by themselves or by a loss of power, other participants send frames), two active examples which have heard and sent everything do not have the same nickname, except 0xFF. An example which looks for a nickname does not take the one of an example which has had it since the first probe for it, if both have heard and sent everything when it decides. Provided that the main loop of each example runs once between two frames of other examples, and other participants do not assign nicknames.',
  'every number of examples, every contents of their memories, state of the controllers and uninitialised variables, every interleaving of interrupts, steps of the main loops, frames on the bus, transmissions and losses of power',
  'all schedules of any number of examples, their interrupts and their controllers',
  ['examples/avr/at90can/main.c: main, main_timerCb', 'examples/avr/at90can/driver/canDrv.c: canDrv_sendFrame, canDrv_readFrame', 'examples/avr/at90can/vscp_user/vscp_tp_adapter.c: vscp_tp_adapter_writeMessage, vscp_tp_adapter_readMessage', 'src/vscp_core.c: vscp_core_handleProtocolNewNodeOnline', 'src/vscp_core.c: vscp_core_handleProtocolProbeAck'])

p('C124','An AVR example which looks for a nickname gets one or gives up in time',
  'An AVR example as a whole - main loop, timer interrupt, button, software timers, framework, application, transport adapter, CAN driver and controller - which looks for a nickname has one within ten minutes, or has given up, whatever it hears on the CAN bus. If it hears nothing, it has the nickname 1 three seconds after it was switched on (or has begun to look for one for another reason), also in its persistent memory, and keeps it as long as it hears nothing. Provided that its main loop runs once in each millisecond, nobody presses its button, the power stays on, and its adapter takes the events.',
  'every contents of the memory, state of the controller and uninitialised variables, every history before, every interleaving of interrupts, steps of the main loop, frames and transmissions',
  'all schedules over hundreds of thousands of milliseconds, with any frames at any time',
  ['examples/avr/at90can/main.c: main, main_timerCb', 'src/vscp_core.c: vscp_core_stateInit, vscp_core_statePreActive, vscp_core_stateStartup', 'examples/avr/at90can/vscp_user/vscp_timer.c: vscp_timer_process', 'examples/avr/at90can/common/swTimer.c: swTimer_process', 'src/vscp_config.h: VSCP_CONFIG_PROBE_ACK_TIMEOUT'])

p('C125','An AVR example probes a nickname and waits before it takes it',
  'An AVR example as a whole which takes a nickname by itself has probed this nickname in the same life, 1.75 s or more have passed since then, it has heard no answer from this nickname since then, and it stores the nickname in its persistent memory. Since it began to probe with nickname 1, it has heard an answer from each lower nickname, so it takes the lowest one from which it hears no answer. An example which gives up has heard an answer from each nickname from 1 to 254.',
  'every contents of the memory, state of the controller and uninitialised variables, every interleaving of interrupts, steps of the main loop, frames, transmissions, resets and power failures, every behaviour of the adapter',
  'all schedules, and any frames at any time during the discovery',
  ['src/vscp_core.c: vscp_core_stateInit', 'examples/avr/at90can/main.c: main, main_timerCb', 'examples/avr/at90can/vscp_user/vscp_timer.c: vscp_timer_process', 'examples/avr/at90can/common/swTimer.c: swTimer_process', 'src/vscp_config.h: VSCP_CONFIG_PROBE_ACK_TIMEOUT'])

p('C126','An AVR example passes over a nickname only because another one has it',
  'On a CAN bus, an answer to a probe which a node hears comes from another node which has had the nickname of the answer. An AVR example as a whole which takes the nickname q by itself (or gives up) therefore passes over no free nickname: each nickname from 1 to q - 1 (to 254 if it gives up) was used by another example at some time before. Provided that nothing else than the nodes (neither another participant nor an application) answers probes, the adapters take the events, and the main loop of each example runs once between two frames of others.',
  'every number of nodes, memories, states of controllers, every interleaving of all nodes: interrupts, steps, frames, transmissions, button presses, resets and power failures',
  'all schedules and histories of all nodes of a segment',
  ['src/vscp_core.c: vscp_core_stateInit, vscp_core_handleProtocolNewNodeOnline, vscp_core_handleProtocolProbeAck', 'examples/avr/at90can/vscp_user/vscp_tp_adapter.c: vscp_tp_adapter_readMessage, vscp_tp_adapter_writeMessage', 'examples/avr/at90can/main.c: main'])

p('C127','A node on a CAN bus hears everything which the others send, once, and nothing else',
  'From any time on until a node is switched off: the events which the framework of a node on a CAN bus hears are those of the frames which the controllers of the other nodes put on the bus, and of frames of other participants; each frame of a node once, the ones of one node in their order on the bus, none of the node itself and none besides. If a node has sent all its events, these frames are its events. Provided that the framework of the node runs between two frames of others, and that nothing is on the way to it at the beginning and at the end. Without these, and whatever the schedule, it still hears nothing else, and nothing twice. The same for AVR examples as a whole.',
  'every number of nodes, applications, memories, states of controllers, every history before, and every interleaving of all nodes: interrupts, steps, frames, transmissions, button presses',
  'all schedules and histories of all nodes of a segment',
  ['src/vscp_core.c: vscp_core_process', 'examples/avr/at90can/vscp_user/vscp_tp_adapter.c: vscp_tp_adapter_readMessage, vscp_tp_adapter_writeMessage', 'examples/avr/at90can/driver/canDrv.c: can_readFrame, can_SendFrame', 'examples/avr/at90can/main.c: main'])

p('C128','A request of one node to another on a CAN bus is heard, and the answers come back',
  'On a CAN bus, if a node sends an event of the protocol class, by its framework or by its application, every other node hears it, in one of its cycles since then. If the other node is active at this time and the event is one of the requests of the table (read, write, increment, decrement a register, page read and write, extended page write, who is there, decision matrix), the node which has asked hears the answers of the table afterwards: with the content which the registers of the other node have in this cycle, and from its nickname. Provided that the framework of each node runs between two frames of others, the adapters take the events, both nodes are not switched off, and that it is considered when nothing is on the way any more.',
  'every number of nodes, configurations, applications, memories, states of controllers, every history before and after, every interleaving of all nodes and other participants, every request of the table',
  'all schedules and histories of all nodes of a segment',
  ['src/vscp_core.c: vscp_core_process, vscp_core_handleProtocolClassType', 'examples/avr/at90can/vscp_user/vscp_tp_adapter.c: vscp_tp_adapter_readMessage, vscp_tp_adapter_writeMessage', 'examples/avr/at90can/driver/canDrv.c: can_readFrame, can_SendFrame'])

p('C129','An event of one node on a CAN bus makes the others act, and what they send comes back',
  'On a CAN bus, if a node sends an event, every other node hears the same event (priority, class, type, origin, data) in one of its cycles since then, and the first node hears everything which the other one sends in this cycle. For AVR examples: if the other one is active and the event is not one of the protocol, it executes in this cycle the rows of its decision matrix which fire for the event, in the order of the rows, sends CLASS1.INFORMATION On for each action 1 and Off for each action 2, its LED is as the last of these actions says, and the first example hears these events. Provided that the framework of each node runs between two frames of others, the adapters take the events, both nodes do not restart, and that it is considered when nothing is on the way any more.',
  'every number of nodes and of AVR examples, memories, decision matrices, states of controllers, every history before and after, every interleaving of all nodes and other participants, every event',
  'all schedules and histories of all nodes of a segment, and all decision matrices',
  ['src/vscp_core.c: vscp_core_process', 'src/vscp_dm.c: vscp_dm_executeActions', 'examples/avr/at90can/main.c: main', 'examples/avr/at90can/vscp_user/vscp_action.c: vscp_action_execute', 'examples/avr/at90can/vscp_user/vscp_tp_adapter.c: vscp_tp_adapter_readMessage, vscp_tp_adapter_writeMessage', 'examples/avr/at90can/driver/canDrv.c: can_readFrame, can_SendFrame'])

p('C130','A node which is told a new nickname takes it, stores it and confirms it',
  'An active node which receives CLASS1.PROTOCOL Set nickname-ID with exactly two data bytes, its own nickname and a new one other than 0, is active with the new nickname after this cycle, has stored it persistently, has changed nothing else in its persistent memory, and sends Nickname-ID accepted with the new nickname as origin, before any other frame of this cycle. Every other event of this type changes nothing. On a CAN bus the node which has told it hears the confirmation, if neither of both is switched off, the framework of each node runs between two frames of others, and it is considered when nothing is on the way any more. An AVR example does all this in the step of its main loop behind the frame.',
  'every configuration, persistent memory, state of the active node, every event of this type; for the bus: every number of nodes, every history, every interleaving and every application',
  'all states and all events; all schedules of all nodes of a segment',
  ['src/vscp_core.c: vscp_core_handleProtocolSetNicknameId, vscp_core_process, vscp_core_writeNicknameId', 'examples/avr/at90can/main.c: main'])

p('C131','AVR examples on a CAN bus hear the heartbeats of each other',
  'AVR examples on a CAN bus: while an example is active and does not restart, it sends a heartbeat (CLASS1.INFORMATION Node heartbeat, from its nickname, with its zone and sub-zone) in each piece of history in which more than 30 s of its time pass; and each other example which does not restart has heard this heartbeat as soon as nothing is on the way from and to both. Provided that the main loop of the first one runs once in each millisecond, the main loop of each example runs once between two frames of others, and the adapters take the events.',
  'every number of examples, memories, states of controllers, every history before, in and after, every interleaving of all examples and other participants',
  'all schedules and histories of all nodes of a segment, and times of more than 30 s',
  ['src/vscp_core.c: vscp_core_process', 'examples/avr/at90can/main.c: main', 'examples/avr/at90can/vscp_user/vscp_tp_adapter.c: vscp_tp_adapter_readMessage, vscp_tp_adapter_writeMessage', 'examples/avr/at90can/driver/canDrv.c: can_readFrame, can_SendFrame'])

p('C132','An AVR example on a CAN bus which looks for a nickname comes to an end within ten minutes',
  'AVR examples on a CAN bus: when an example looks for a nickname and ten minutes of its time pass, the search comes to an end in this time without a restart. Either the example takes a nickname by itself, and each lower one from 1 on was used by another example before; or it gives up, and each nickname from 1 to 254 was used by another example before; or it takes the nickname which an event of a segment master, heard at this very time, gives to it. Provided that its button is not pressed, it keeps its power, its main loop runs once in each millisecond, nothing else than the examples answers probes, the adapters take the events, and the main loop of each example runs once between two frames of others.',
  'every number of examples, memories, states of controllers, every history before and in the search, every interleaving of all examples and other participants',
  'all schedules and histories of all nodes of a segment, and a time of ten minutes',
  ['src/vscp_core.c: vscp_core_process, vscp_core_stateInit, vscp_core_statePreActive', 'examples/avr/at90can/main.c: main', 'examples/avr/at90can/vscp_user/vscp_tp_adapter.c: vscp_tp_adapter_readMessage, vscp_tp_adapter_writeMessage'])

p('C133','An AVR example on a CAN bus which is not full finds a nickname',
  'Not more than 254 AVR examples on a CAN bus: when one of them looks for a nickname and ten minutes of its time pass, it finds one in this time without a restart, from 1 on and not larger than the number of the examples. Provided that none of the others uses different nicknames in the course of the history, the button of the example is not pressed, it keeps its power, its main loop runs once in each millisecond, nothing else answers probes or gives nicknames, the adapters take the events, and the main loop of each example runs once between two frames of others.',
  'every number of examples up to 254, memories, states of controllers, every history before and in the search, every interleaving of all examples and other participants',
  'all schedules and histories of all nodes of a segment, and a time of ten minutes',
  ['src/vscp_core.c: vscp_core_process, vscp_core_stateInit, vscp_core_statePreActive', 'examples/avr/at90can/main.c: main', 'examples/avr/at90can/vscp_user/vscp_tp_adapter.c: vscp_tp_adapter_readMessage, vscp_tp_adapter_writeMessage'])

p('C134','An AVR example gives up its nickname only for a reason',
  'Whenever an AVR example uses a nickname and later does not use it any more, there is a single step in which it gave it up, and it is one of these: the power failed; the button was held without a break for the last 101 ms, and the example looks for a nickname; or it has heard an event in this step which takes the nickname from it: a probe acknowledge from a node with this nickname, a set nickname addressed to it (and it uses the given one), a drop nickname addressed to it, the last part of a drop by the GUID, or a write of its registers by which the factory settings are restored. Nothing else - no other event, no schedule of the timer interrupt and the main loop, no action of the decision matrix, no lapse of time - takes the nickname.',
  'every memory, state of the controller, every history of milliseconds, states of the button, steps of the main loop, frames on the bus and power losses, of any length',
  'every history and every schedule of interrupts and main loop',
  ['examples/avr/at90can/main.c: main, main_timerCb', 'src/vscp_core.c: vscp_core_process, vscp_core_stateActive, vscp_core_handleProtocolClassType, vscp_core_startNodeSegmentInit'])

p('C135','Why an AVR example on a CAN bus gives up its nickname',
  'AVR examples on a CAN bus: whenever one of them gives up its nickname in a step, one of these is the cause: its power fails; its button was held without a break for the last 101 ms; it hears an answer under its own nickname, and another example has used this nickname at some time before (or something else than the examples has answered a probe under it); or it hears an event which takes the nickname (set nickname, drop nickname, drop by the GUID, or a write of registers which restores the factory settings), and something else than the examples has sent an event of this type on the bus before. So an example whose nickname no other one has used keeps it, whatever events the examples exchange, as long as its power is on, its button is not held for 101 ms, and something else than the examples neither answers probes under this nickname nor sends events which take nicknames. Provided that the adapters take the events, and the main loop of each example runs once between two frames of others.',
  'every number of examples, memories, states of controllers, every history and interleaving of all examples and other participants, of any length',
  'all schedules and histories of all nodes of a segment',
  ['src/vscp_core.c: vscp_core_process, vscp_core_stateActive, vscp_core_handleProtocolClassType, vscp_core_startNodeSegmentInit', 'examples/avr/at90can/main.c: main, main_timerCb', 'examples/avr/at90can/vscp_user/vscp_tp_adapter.c: vscp_tp_adapter_readMessage, vscp_tp_adapter_writeMessage'])

p('C136','AVR examples on a CAN bus with different nicknames stay as they are',
  'Any number of AVR examples on a CAN bus, with valid memories which contain different nicknames: from the first step of its main loop on each of them uses the nickname from its memory, and none of them ever restarts, whatever events they send to each other (answers, heartbeats, events of their decision matrices, announcements) and in whatever order the frames, interrupts and main loops interleave. This holds as long as all have power, no button is held for 101 ms without a break, and something else than the examples neither answers probes under one of these nicknames nor sends events which take nicknames (set nickname, drop nickname, drop by the GUID, writes of registers). Provided that the adapters take the events, and the main loop of each example runs once between two frames of others.',
  'every number of examples, memories, states of controllers, every history and interleaving of all examples and other participants, of any length',
  'all schedules and histories of all nodes of a segment',
  ['src/vscp_core.c: vscp_core_init, vscp_core_process, vscp_core_stateStartup, vscp_core_stateActive', 'examples/avr/at90can/main.c: main, main_timerCb', 'examples/avr/at90can/vscp_user/vscp_tp_adapter.c: vscp_tp_adapter_readMessage, vscp_tp_adapter_writeMessage'])

p('C137',"The examples of a configured segment of AVR examples hear each other's heartbeats",
  'Any number of AVR examples on a CAN bus, with valid memories which contain different nicknames, and which nobody disturbs (all have power, no button is held for 101 ms, something else than the examples neither answers probes under one of the nicknames nor sends events which take nicknames): whenever more than 30 s of the time of an example pass after the begin of its main loop, and its main loop runs once in each millisecond, it sends a heartbeat with the nickname from its memory in this time; and every other example has heard this heartbeat as soon as nothing is on the way from and to both. Provided that the adapters take the events, and the main loop of each example runs once between two frames of others.',
  'every number of examples, memories, states of controllers, every history before, in and after the 30 s, every interleaving of all examples and other participants, of any length',
  'all schedules and histories of all nodes of a segment, and a time of more than 30 s',
  ['src/vscp_core.c: vscp_core_init, vscp_core_process, vscp_core_stateStartup, vscp_core_stateActive', 'examples/avr/at90can/main.c: main, main_timerCb', 'examples/avr/at90can/vscp_user/vscp_tp_adapter.c: vscp_tp_adapter_readMessage, vscp_tp_adapter_writeMessage'])

p('C138','Losses of power do no harm in a configured segment of AVR examples',
  'Any number of AVR examples on a CAN bus, with valid memories which contain different nicknames, each of which can lose its power at any time and any number of times: the memory of each stays as it is, each restarts exactly as often as it loses its power, and it uses the nickname from its memory again from the first step of its main loop after a loss of power on, and not earlier, as long as no button is held for 101 ms, and something else than the examples neither answers probes under one of the nicknames nor sends events which take nicknames. Provided that the adapters take the events, and the main loop of each example runs once between two frames of others.',
  'every number of examples, memories, states of controllers, every moment and number of losses of power, every interleaving of all examples and other participants, of any length',
  'all schedules, histories and crash points of all nodes of a segment',
  ['src/vscp_core.c: vscp_core_init, vscp_core_process, vscp_core_stateStartup, vscp_core_stateActive, vscp_core_handleProtocolClassType', 'examples/avr/at90can/main.c: main, main_timerCb', 'examples/avr/at90can/vscp_user/vscp_ps_access.c: vscp_ps_access_write8'])

p('C139','The heartbeats of a configured segment of AVR examples return after losses of power',
  'Any number of AVR examples on a CAN bus, with valid memories which contain different nicknames, each of which can lose its power at any time and any number of times: whenever an example which has begun its main loop since its last loss of power has power for more than 30 s of its time, and its main loop runs once in each millisecond, it sends a heartbeat with the nickname from its memory in this time; and every other example which has power since then has heard this heartbeat as soon as nothing is on the way from and to both, whatever happens to the power of all others. Provided that no button is held for 101 ms, something else than the examples neither answers probes under one of the nicknames nor sends events which take nicknames, the adapters take the events, and the main loop of each example runs once between two frames of others.',
  'every number of examples, memories, states of controllers, every moment and number of losses of power, every history before, in and after the 30 s, every interleaving of all examples and other participants, of any length',
  'all schedules, histories and crash points of all nodes of a segment, and a time of more than 30 s',
  ['src/vscp_core.c: vscp_core_init, vscp_core_process, vscp_core_stateStartup, vscp_core_stateActive', 'examples/avr/at90can/main.c: main, main_timerCb', 'examples/avr/at90can/vscp_user/vscp_tp_adapter.c: vscp_tp_adapter_readMessage, vscp_tp_adapter_writeMessage'])

p('C140','An AVR example of a configured segment announces itself after each loss of power, and the others hear it',
  'Any number of AVR examples on a CAN bus, with valid memories which contain different nicknames, each of which can lose its power at any time and any number of times: in the first step of its main loop after the first start and after each loss of power an example sends exactly one event, new node on line with the nickname from its memory; and every other example has heard this event as soon as nothing is on the way from and to both, if both have had power since then. Provided that no button is held for 101 ms, something else than the examples neither answers probes under one of the nicknames nor sends events which take nicknames, the adapters take the events, and the main loop of each example runs once between two frames of others.',
  'every number of examples, memories, states of controllers, every moment and number of losses of power, every interleaving of all examples and other participants, of any length',
  'all schedules, histories and crash points of all nodes of a segment',
  ['src/vscp_core.c: vscp_core_init, vscp_core_process, vscp_core_stateStartup, vscp_core_changeToStateActive', 'examples/avr/at90can/main.c: main', 'examples/avr/at90can/vscp_user/vscp_tp_adapter.c: vscp_tp_adapter_readMessage, vscp_tp_adapter_writeMessage'])

out = os.path.join(os.path.dirname(os.path.abspath(__file__)), '..', 'properties.jsonl')
with open(out,'w') as f:
    for x in P: f.write(json.dumps(x)+'\n')
print(len(P))
