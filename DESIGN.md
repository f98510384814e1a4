# Formal model of vscp-framework in Lean 4 — design

## 1. Object of study

BlueAndi/vscp-framework (C).  The VSCP Level 1 node stack: core state machine and
register protocol (`vscp_core.c`), decision matrices (`vscp_dm.c`, `vscp_dm_ng.c`),
transport with loopback (`vscp_transport.c`, `vscp_util.c`), persistent storage
(`vscp_ps.c`), device data (`vscp_dev_data.c`), logger (`vscp_logger.c`), data coding
(`vscp_data_coding.c`), the generated event senders (`events/*.c`) and the reference
drivers of the AVR example (timer, software timer, CAN adapter, clock).

## 2. Modelling decisions

* **Integers.** `uint8_t/uint16_t/uint32_t` are `BitVec 8/16/32`; C integer promotion is
  modelled where it matters (e.g. `(0xFF - num) < addr` is evaluated in `int`).
  Array indices and addresses are `Nat`.
* **Configuration** is a Lean structure `Cfg`; one field per configuration switch/constant.
  Theorems quantify over all configurations (the preprocessor becomes `if`).
* **State.** All static variables of all modules form one record `W` (world).  Persistent memory is a
  function `Nat → Byte`; software timers hold their remaining milliseconds.
* **External calls** (adapter write, application registers, application callouts) are logged
  in an output trace in the order they happen; the results they return are taken from
  an oracle `Env` indexed by the position in the trace.  Quantifying over `Env` quantifies
  over every behaviour of adapter and application, including failures.  Each persistent memory byte
  write is logged too, so crash points are prefixes of the trace.
* **Inputs** are operations `Op`: a process cycle (with the event, if any, the
  adapter delivers), elapsed time, and the API calls.
* **Undefined behaviour** (out-of-bounds access, division by zero, signed overflow) is a
  distinct outcome: an `Option`/`none` result or the sticky flag `ub`, never silently totalised.
* **Loops** are structural or fuelled by a bound that is proved irrelevant or is the C loop counter.

Layering of the sources:

| directory | content |
|---|---|
| `Verif/Model/*` | the model, one file per C file, each definition cites file and lines |
| `Verif/Spec/*`  | small independent specifications used in the statements |
| `Verif/Lemmas/*` | helper lemmas |
| `Verif/Props/*` | the property theorems, with non-vacuity examples beside each of them |

## 3. Properties

(For every property: what is modelled and how it is proved. "negation" = the code
violates the property; a `_violated` theorem gives a concrete witness and a `_partial` theorem proves what holds.)

| id | modelled by | proof |
|---|---|---|
| C01 | `DataCoding.formatByte` | bit-vector extensionality / exhaustive kernel check of the whole finite domain |
| C02 | `DataCoding.encode` | case split on size class; value law against `Spec.beInt` (sign-extended big-endian integer) by arithmetic |
| C03 | `DataCoding.encode/decode` | negation (small negative values) + partial (all other values) |
| C04 | `DataCoding.encodeInto` on a buffer | case split; buffer frame |
| C05 | `DataCoding.decode` | case split on length |
| C06 | `CyclicBuffer` | refinement to a list queue, invariant by induction over operation sequences |
| C07 | `CyclicBuffer` with explicit OOB outcome | negation (wrap-around) + partial (no wrap) |
| C08 | `Util.getZoneIndex` | case analysis |
| C09-C11 | `Transport` | invariant + trace refinement by induction over operation sequences |
| C12-C13 | `Ps` | linear arithmetic over symbolic configuration |
| C14-C15 | `DevData` | storage laws; C15 negation + partial |
| C16-C28 | `Core` register functions and handlers | unfolding, loops by induction |
| C29-C47 | `Core.step` | invariants over reachable states / frame lemmas / trace properties |
| C48-C51 | `Dm` | refinement to a row predicate; C50/C51 negation + partial |
| C52-C54 | `DmNg` | refinement of the evaluator to a chain semantics; C54 negation + partial |
| C55-C57 | `Logger` | induction on message length; C57 negation |
| C58-C61 | example drivers | invariants; C61 negation + partial |
| C66-C70 | CAN adapters of the examples (AT90CAN, FlexCAN) | arithmetic of the identifier; negations + partial for C66, C67, C69, C70 |
| C62-C63 | `Events` (mechanically translated table of all send functions) | one generic theorem about the frame interpreter, instantiated for the table |
| C64, C71 | network: any number of nodes of the complete model, with a queue of frames on the way to each of them | invariant over all interleavings of moves; C64: negation + partial |
| C72, C73 | serial driver, receive part: ring buffer with 8 bit indices, receive interrupt between any two accesses | invariant over all schedules: content of the ring = abstract queue; C73: negation + partial |
| C74, C75 | serial driver, transmit part, with the transmitter and the interrupt enable bit; `main_print` on top of it | invariant over all schedules; negations + partial |
| C76 | `Driver.Tick`, `Driver.Sleep`: interrupt counter, `timerDrv_sleep` as a machine with one read access of the counter per step | induction / invariant over all schedules; negation + partial |
| C77 | `Driver.Button`: interrupt and main loop, interleaved at the read accesses of the shared flag | invariant over all schedules; negations (AVR, ARM) + partial |
| C78 | `Driver.MainLoop`: software timer and framework timers together | invariant over all schedules; negation + partial |
| C79 | `Driver.Lamp` | induction over the calls |
| C80 | `Driver.PsAccess`: loops, internal EEPROM (AVR), EEPROM behind SPI with write cycle (ARM) | simulation of an array over all histories; negations + partial for ARM |
| C81 | `Driver.CanDrv`: registers of the message objects, driver functions, the controller as environment | invariant (permutation of taken and sent frames); negations |
| C82 | as C81 | invariant (stored = read ++ at most one); transfer between two nodes |
| C83 | as C81 | bit level: registers = specification of the filter; negations + partial |
| C84 | `Model/Callout.lean`: the active state with any calls in five callbacks, indexed by the trace; `Model/CalloutReg.lean`: also in the register functions and in the notifications about idle, error, reset, boot loader | footprint of each function with calls in callbacks; simulation between runs with and without calls for the actions; conservative over the other model |
| C85 | core model | invariant (looking implies nickname 0xFF); traces of the functions of the discovery; negation + partial |
| C86 | core model, callbacks | invariant over the steps of histories (state changes are atomic with their lamp call) |
| C87 | AVR firmware around the core model | invariant over the histories of the main loop; case analysis of the handlers |
| C88 | AVR firmware around the core model with callbacks | refinement of a pass to the list of matching rows of C49; invariant over histories |
| C89 | AVR firmware: LED, lamp state machine, passes of the main loop | case analysis of a pass, with C86 and C88 |
| C90 | AVR firmware: restarts and power cycles | case analysis of a pass; induction over passes with the remaining time |
| C91 | AVR firmware registers, description as a table | case analysis; violated for the bytes 2 to 7 of the rows and the number of rows, proved for the rest |
| C92 | FlexCAN controller with the part of the vendor driver which is used, adapter | invariant over histories; violated for all identifiers except 0 |
| C93 | rules with error information | erasure to the model of C52; induction over the rules; negations + partial |
| C94 | segment of nodes (as C64, C71) | invariant over all interleavings: frames on the way, what was probed and answered; ranking function of C32 |
| C95 | all bytes written, in the order of the calls | frame lemmas: which step writes what, handler by handler; induction over histories |
| C96 | `Arm`: the whole firmware, timer interrupt and main loop interleaved at the read accesses of the button | invariants of button, place in the main loop and discovery; refinement to histories of the framework; negations + partial |
| C97 | `Arm`: the whole firmware | invariant: only the reset request is added to the calls; negation + partial |
| C98 | `Arm`: the whole firmware, with software timer and lamp | invariant of the lamp calls (C86), the software timer runs down under every schedule |
| C99 | `Core.init` on the memory of any history; `Core.readRegister` on both sides | invariant: nickname in use = stored nickname; registers as functions of memory and nickname |
| C100 | `Core.process` from the write event to the action | induction over the history: the stored matrix is the specified one; composition of C25, C51, C49 and C99 |
| C101 | all of `Core` | every function makes only enabled calls (syntax-directed over the functions), then induction over the history |
| C102 | all of `Core` | an independent recursion over the history computes the last write; footprint of every operation, induction over loops and over the history |
| C103 | the applications of both examples, `Core` registers, `Dm` | case distinction by page; equivalence for the AVR example, witness for the ARM example |
| C104 | `Serial.Port`: contexts and registers of both USARTs | an independent decoding of the registers by the data sheet; invariants over the history of calls; witnesses |
| C105 | `CanNode`: framework, adapter, driver and controller composed; the results of the adapter are those of the driver | composition of the invariants of both halves over the history of moves |
| C106 | `Driver.TimerDrv`: counter register, overflow flag, interrupt, driver | invariant over all schedules: time = 200 clocks per interrupt + lateness; negation + partial |
| C107 | `Avr.Boot`: run levels 1 and 2 with all drivers, watchdog | evaluation of the start for an arbitrary machine, with C58, C104 |
| C108 | separate automaton `Spec.Master.fate` over what each call is for the node | refinement by induction over all histories; negation + partial |
| C109 | separate abstract machine `Spec.Settings` of five components, written without the model | refinement by an invariant relation over every atomic effect of the core and induction over all histories; composition with C49 and C52 |
| C110 | composition of C105 (frames on the bus are the events of the framework), C109 for applications with callbacks, and C88 for the AVR example; `Spec.CanConfig` reads the identifier directly | induction over histories of the whole node |
| C111 | `Avr.Sys`, a machine with a program counter for the main loop; every history of it is projected to histories of `Avr`, `CanNode` and `Button` | induction over the histories, with a simulation relation for each part |
| C112 | the same machine; the time still to wait is a function of the state which each move decreases by the time it takes | induction over the histories |
| C113 | the memory after the first calls of a call, `lossMem` | every part of the code is shown to write at most one byte of the settings between two states which the specification allows; induction over the page writes and the steps of a cycle; for the AVR example each move is one call of the framework or a start of it, and a cycle which requests a reset stores nothing |
| C114 | the memory after the first calls of a call, `lossMem` | the exact writes of C95, the restart of C99 and the detection of C42 |
| C115 | the memory after the first calls of a call, `lossMem` | every nickname a part of the code stores is 0xFF unless it is the last one; composed along the code of each handler; with callbacks a walk through the cycle behind the handler (`Walk`), and the AVR example as in C113 |
| C116 | histories with `Takes`; the running request as a list of pending registers | every handler sends no response of this type and leaves the running request, along its code; the responses of C24 |
| C117 | histories with `Takes`; the originating address of the responses | composition over the cycles; the response of the cycle in which the nickname changes |
| C118 | `Reason`, `Told` (Spec/Speech.lean): the reasons of a frame of a cycle, with a table of request and response types, and of a call | the active node through the parts of a cycle and the frames of each handler, the other states through their state functions, for every state of the model; then histories by induction; with callbacks (`ReasonC`, Spec/SpeechC.lean) through an invariant of the parts of a cycle; the frames on the CAN bus through C105, the AVR example (`AvrReason`, Spec/SpeechBus.lean) through C111 |
| C119 | the same machine (Model/AvrSys, Spec/AvrBeat); the heartbeat timer, the software timer and the heartbeats handed over balance the time each move takes | induction over the histories |
| C120 | the CAN node of C105 and the machine of C111; a table of requests and answers (Spec/Ask) | each handler is compared with the table; then the exchange lemma of C105 and the simulation of C111 |
| C121 | the handler of the extended page read on the node of C105 and the whole example of C111; the settings of C110 | C121_sends from the loop of the extended page read, then the settings of C110 and the request on the bus of C120 |
| C122 | any number of nodes of C105, and for each of them the frames of other nodes which its controller has not yet seen | invariant over all moves: of two nodes with the same nickname, one has something to hear from the other, in a transmit buffer, on the bus or in the receive buffer; callbacks with the walk of C118 |
| C123 | any number of examples as in C109, and for each of them the frames of other ones which its controller has not yet seen | refinement: each move of an example is no move or one move of a node of C122 |
| C124 | the whole example as in C111 | ranking function: milliseconds which the discovery can still take, from the sub-state, the probed nickname, the main timer, the software timer and the steps until the next cycle; each move lowers it by the milliseconds which pass |
| C125 | the whole example as in C111 | invariants over the history: the probe which is waited for, the main timer, the software timer and the milliseconds since; the beginning of the scan and the answers since |
| C126 | segments as in C122 and C123 | invariant: every answer which waits in a node, is on the way or was heard comes from a node which had the nickname; the one example by C125 |
| C127 | segments as in C122 and C123 | invariant: the frames which are stored and those which are on the way are an interleaving of what the others have put on the bus since then |
| C128 | segments as in C122 | a frame on the way stays there until the cycle in which it is heard (invariant); the answers by C120, for both ways |
| C129 | segments as in C122, C123 | a frame on the way stays there until the cycle in which it is heard; the actions by C88 and C89; both ways |
| C130 | Model/Core.lean, segments as in C122 | the handler computed; the rest of a cycle changes neither nickname nor memory; the way of the confirmation as in C129 |
| C131 | segment as in C123 | each example of a segment makes a history of its own, to which C119 applies; the frame arrives as in C129 |
| C132 | segment as in C123 | the example's own history as in C131, to which C124 applies; the first move which ends the search; what has answered as in C126 |
| C133 | segment as in C123 | C132, and the nicknames below the one found belong to different examples |
| C134 | example as in C111 | invariant of the debouncing, the handlers of all protocol events, and induction over the history |
| C135 | segment as in C123 | C134 in the segment; no frame of an example carries such an event (invariant over inboxes, mailboxes and stored frames), and answers come from users of the nickname as in C126 |
| C136 | segment as in C123 | C135, the first cycle of a node with a nickname, and induction over the length of the history |
| C137 | segment as in C123 | C131, whose conditions (the example stays active and does not restart) follow from C136 |
| C138 | segment as in C123, with losses of power of each example between any two moves | induction over the run with C135 for the nicknames: an active example writes its memory only for events which nobody sends here; C90 for the start after a loss of power |
| C139 | segment as in C138 | C131, whose conditions (the example stays active and does not restart) follow from C138 |
| C140 | segment as in C138 | C138 for the state in front of the first step, the first cycle of the core, C129 for the way to the others |

## 4. Trusted base

* The kernel of Lean 4.33.0.  Axioms: at most `propext`, `Classical.choice`, `Quot.sound`; section 7 lists them for every theorem.  No own axioms, no `sorry`, no `native_decide`, no `bv_decide`.
  `decide`/`decide +kernel` is used on concrete witnesses and to go through a complete finite domain (e.g. all 256 values of a byte), both checked by the kernel.
* The transcription from C to Lean.  It was done by hand, function by function; every definition cites the lines it stands for.  `tools/check_citations.py` checks that each cited range is
  the extent of the cited function.  The table of the event senders is translated mechanically (`tools/gen_events.py`).
* The reading of C: the fixed-width types have the width of their name, `int` has 32 bit unless stated otherwise, expressions without undefined behaviour have the value the C standard gives them, accesses of the size of
  one byte are atomic against interrupts (drivers).
* The assumptions on code outside of the model, listed in section 5.

## 5. What is modelled and what is not

### Assumptions on the outside

* *Persistent memory* (`vscp_ps_access_*`): a byte written is read back, also after power loss; writes of several bytes happen byte by byte in ascending order, and power may fail between any two of them.  A torn write of a single byte is
  not modelled.  C80 proves the behaviour without power loss for the AVR example, and how the ARM example differs.
* *EEPROM and CAN controllers* (C80 to C83, C92): as their data sheets describe the registers and commands which the drivers use; each definition says what is assumed.
* *Transport adapter* (`vscp_tp_adapter_*`): a read delivers any event or none, a write succeeds or fails; any sequence of results is possible.  A delivered event has at most 8 data bytes (C67 is about the adapter of the example which does not
  guarantee this), with the array of the message fully readable.
* *Timers* (`vscp_timer_*`): a started timer runs for its time and stops; the number of milliseconds between two cycles is any number.  Creation of a timer may fail.  C58 and C59 prove this behaviour for the timers of the example.
* *Application registers, decision matrix actions, other callouts*: return anything (C87 to C91: those of the AVR example).  The register callbacks may read the persistent memory, and a write may store zone and sub-zone (as in the AVR example).  Otherwise they do not
  call back into the framework, except in C84: there the callbacks for events, protocol events, actions, time, heartbeat, register access, idle state, error state, reset and boot loader make any calls other than `vscp_core_init` and `vscp_core_process`, depending on the whole state.
* *Single thread*: the API is called from one context.  (The drivers of the examples, which have interrupts, are modelled with them.)
* *Configuration*: every combination of the switches and every value of the constants is covered by the type `Cfg`, the theorems name the limits they need (`GoodCfg` etc.).

### Not modelled

* Hardware set-up code: clock, pins, registers of the peripherals (`hw.c`, the bit timing in `can_Open`, board support, start-up code, vendor drivers and CMSIS; of `fsl_flexcan.c` the functions which the adapter uses are modelled, C92).
* Templates (`templates/`), unit tests and test doubles (`test/`), tools (`tools/`).
* Functions which do nothing or return a constant (see the table below).
* Timing inside of a function: a call takes no time, time passes between calls.
* Stack use, execution time, and the effects of compiler optimisation beyond the C standard.

### Coverage, function by function

Generated by `tools/gen_coverage.py` from the citations in `Verif/Model`.  281 of 293 functions; in addition all 889 send functions of `src/events/*.c`
(`Verif/Model/EventTable.lean`, written by `tools/gen_events.py`).

| file | modelled | not modelled |
|---|---|---|
| `src/vscp_core.c` | 51 of 51 | none |
| `src/vscp_data_coding.c` | 5 of 5 | none |
| `src/vscp_dev_data.c` | 14 of 14 | none |
| `src/vscp_dm.c` | 19 of 19 | none |
| `src/vscp_dm_ng.c` | 14 of 14 | none |
| `src/vscp_logger.c` | 8 of 8 | none |
| `src/vscp_ps.c` | 39 of 39 | none |
| `src/vscp_transport.c` | 4 of 4 | none |
| `src/vscp_util.c` | 5 of 5 | none |
| `examples/avr/at90can/common/swTimer.c` | 5 of 5 | none |
| `examples/avr/at90can/common/time.c` | 7 of 7 | none |
| `examples/avr/at90can/driver/canDrv.c` | 9 of 10 | `can_getStatus` |
| `examples/avr/at90can/driver/hw.c` | 3 of 3 | none |
| `examples/avr/at90can/driver/serialDrv.c` | 15 of 15 | none |
| `examples/avr/at90can/driver/timerDrv.c` | 5 of 5 | none |
| `examples/avr/at90can/main.c` | 6 of 6 | none |
| `examples/avr/at90can/vscp_user/vscp_action.c` | 2 of 2 | none |
| `examples/avr/at90can/vscp_user/vscp_app_reg.c` | 5 of 5 | none |
| `examples/avr/at90can/vscp_user/vscp_portable.c` | 6 of 14 | `vscp_portable_idleStateEntered`, `vscp_portable_errorStateEntered`, `vscp_portable_getBootLoaderAlgorithm`, `vscp_portable_bootLoaderRequest`, `vscp_portable_provideProtocolEvent`, `vscp_portable_updateTimeSinceEpoch`, `vscp_portable_readGUID`, `vscp_portable_sendNodeHeartbeatEvent` |
| `examples/avr/at90can/vscp_user/vscp_ps_access.c` | 5 of 5 | none |
| `examples/avr/at90can/vscp_user/vscp_timer.c` | 6 of 6 | none |
| `examples/avr/at90can/vscp_user/vscp_tp_adapter.c` | 3 of 3 | none |
| `examples/arm/frdm-k64f/vscp_frdm_k64f/common/swTimer.c` (identical to `examples/avr/at90can/common/swTimer.c`) | 5 of 5 | none |
| `examples/arm/frdm-k64f/vscp_frdm_k64f/source/vscp_frdm_k64f.c` | 6 of 8 | `main_initPIT`, `main_enableInterrupts` |
| `examples/arm/frdm-k64f/vscp_frdm_k64f/vscp_user/vscp_action.c` | 2 of 2 | none |
| `examples/arm/frdm-k64f/vscp_frdm_k64f/vscp_user/vscp_app_reg.c` | 5 of 5 | none |
| `examples/arm/frdm-k64f/vscp_frdm_k64f/vscp_user/vscp_portable.c` | 14 of 14 | none |
| `examples/arm/frdm-k64f/vscp_frdm_k64f/vscp_user/vscp_ps_access.c` | 4 of 5 | `vscp_ps_access_init` |
| `examples/arm/frdm-k64f/vscp_frdm_k64f/vscp_user/vscp_timer.c` (identical to `examples/avr/at90can/vscp_user/vscp_timer.c`) | 6 of 6 | none |
| `examples/arm/frdm-k64f/vscp_frdm_k64f/vscp_user/vscp_tp_adapter.c` | 3 of 3 | none |

## 6. Findings

Behaviour of the code which differs from what a user would expect; each one is a theorem (`_violated`, or named in brackets) or a consequence of the model stated in the note of the property.
For C07, C20, C22, C23, C48, C53, C54, C57 and C65 the modules `Props/*Exact.lean` also say exactly what the code does, for all inputs, so that nothing is left open between the `_partial` theorem and the witness of the violation.

| where | finding | theorem |
|---|---|---|
| data coding | decoding a negative value of one or two bytes loses the sign | C03 |
| data coding | encoding the smallest 32 bit value is signed overflow; exponent -128 is lost | C02, C62 |
| cyclic buffer | reads and writes of several elements run over the end of the storage | C07 |
| device data | family code and type are shifted by the byte index instead of eight times of it | C15 |
| registers | a page read or write never reaches register 0xFF | C22, C23 |
| registers | a page write over 0x92/0x93 changes the page in the middle of the write | C23 |
| registers | an out-of-range index of the paged decision matrix is confirmed | C20 |
| core | `vscp_core_enableHeartbeat` toggles instead of setting | C39 |
| core | increment or decrement of the alarm register clears it without a report; a lost response loses it | C41 |
| core | a node which got its nickname from the segment master ignores a changed segment | C42 |
| core | a running extended page read is not ended by a change of the nickname or its loss: the next response is sent from the new nickname, or from 0xFF | C117 |
| core | the new CRC of the segment is stored before the old nickname is removed: a loss of power in between makes the node forget the change and stay with its old nickname in the new segment | C114 |
| core | nickname 0 or 0xFF can be assigned, and is used | C33 |
| core | invalid start-up control bits make the next start restore the factory settings (and can be written by a node at any time) | C34 |
| core | the response to a page write behind a factory restore carries the old nickname | C45 |
| core | power loss during the factory restore leaves a partial restore which is not resumed | C46 |
| core | after `vscp_core_startNodeSegmentInit`, a reset request may be forgotten | C36_lost |
| core | the last GUID frame of a drop is not checked if an earlier one matched | C37 (note) |
| core | a heartbeat which is due is sent with origin 0xFF in the cycle in which a discovery begins | C85 |
| segment | two nodes which probe the same nickname at the same time both take it; C71 shows that they notice it later | C64 |
| decision matrix | zone and sub-zone are taken from behind the payload of short events | C48, C52 |
| decision matrix | the factory restore clears only the first ROWS + 7 bytes | C50 |
| decision matrix | offset, further pages and extension rows are addressed wrongly | C51 |
| decision matrix | is executed for protocol events, too | (model: `Core.processEvent`) |
| next generation decision matrix | mixed chains are evaluated from the right | C52 |
| next generation decision matrix | a first rule of size 0 uses uninitialised memory | C47, C53 |
| next generation decision matrix | error report: stays from an earlier event if the rule set is empty or its first rule too large; rules too large and errors behind a decided result are not reported; the position is counted from the first condition instead of the start of the rule | C93 |
| next generation decision matrix | more than 255 bytes are not reachable, one page too much is claimed | C54 |
| transport | the size of the loopback storage is truncated to 8 bit (division by zero for some configurations) | C65 |
| logger | the last control event is applied again in every cycle without an event | C57 |
| events | seven of 889 send functions send wrong data, three of them write out of bounds or send more than 8 bytes | C62, C63 |
| events | floats are sent in the byte order of the platform; a `double_t` of four bytes is read out of bounds | C62, C63 |
| clock (example) | loses time for periods which do not divide 1000; the difference of two times is wrong | C61 |
| CAN adapter (AVR) | takes 11 bit and remote frames for events; a length code above 8 leads to an access out of bounds | C66, C67 |
| CAN adapter (ARM) | shifts by the width of the type or more, only one receive buffer per call | C69, C70 |
| CAN adapter (ARM) | the receive buffers are configured for identifier 0 and no mask is set, while the vendor driver leaves masks which compare all 29 bits: the node hears no event except the one with identifier 0 | C92 |
| CAN adapter (ARM) | the send buffer is configured at index 14 instead of 15: this disables the last receive buffer, and sending uses a buffer which was never configured (works with this vendor driver) | C92 |
| serial driver (AVR) | an overflow between load and reset of the flag is lost | C73 |
| serial driver (AVR) | the write function returns 0 although the byte is sent; a byte may be stuck and overtaken | C74 |
| main program (AVR) | the first character of a text is printed twice | C75 |
| core | the pre-active node does not check the size of the event which sets its nickname | C108 |
| timer driver (AVR) | `timerDrv_sleep(0)` may wait for 256 ticks | C76 |
| timer driver (AVR) | the interrupt stores the preload into the counter instead of adding it: each delay of an interrupt makes the clock slow for good | C106 |
| main program (AVR) | the flag of the button is read twice, a press may be lost | C77 |
| main program (ARM) | the button is inverted: the segment is initialised 100 ms behind each start without any press; as the node hears nothing, it takes nickname 1, whatever was stored, and so does each other node of this kind | C77, C96 |
| main program (AVR) | timers of the framework may expire up to 250 ms too early | C78 |
| persistent memory (ARM) | a write access does not wait for the end of the write cycle of the EEPROM (no read of its status register): of several bytes written one after the other only the first one arrives, and reads meanwhile return anything | C80 |
| persistent memory (ARM) | addresses above 0xFF are ignored and read as 0, without an error | C80 |
| CAN driver (AVR) | a frame overtakes an earlier one: it is put into the lowest free message object, and the lowest one is sent first | C81 |
| CAN driver (AVR) | remote frames with a 29 bit identifier are sent as data frames: the flag is tested with `CAN_MASK_RTR` instead of `CAN_IDFLAG_RTR` | C81 |
| CAN driver (AVR) | `can_readFrame` clears filter and mask, so that from the second frame on every frame is accepted | C83 |
| CAN driver (AVR) | `can_setFilter` while a frame waits overwrites the identifier of this frame | C83 |
| decision matrix | the size check of the paged feature is inverted and lacks a semicolon (src/vscp_dm.c:93): paged feature and extension together do not compile | (read in the code) |
| module description (AVR) | twelve of the 16 bytes of the decision matrix are listed with page 0 instead of 1, ten rows instead of two; the heartbeat with priority 7 every second instead of priority 3 every 30 s | C91 |
| module description (AVR) | "sends every second a heartbeat" with priority 7 (code: 30 s, priority 3); "if bit 6 of flags is set, oaddr will not be checked" (code, and the description of the bit: it will) | (model: `Avr.cfg`, `Spec.Dm.Fires`) |
| actions (AVR) | the events On and Off carry zone 255 instead of the zone of the node, the LED is overwritten by the lamp within 250 ms | C88, C89 |
| portable layer (ARM) | `vscp_portable_resetRequest` does nothing: a node told to reset is silent until power off, or until its button is pressed | C97 |
| serial driver (AVR) | nine data bits are accepted, eight are used (UCSZ2 is written to the wrong register) | C104 |
| serial driver (AVR) | 115200 and 230400 baud (in the table: 234000) are off by more than 2 % | C104 |
| serial driver (AVR) | a closed port still sends; closed and opened again, it sends a waiting byte behind a later one; new buffers keep the old indices | C104 |
| extended page read | a restore of the factory settings in a register function does not end the read which has called it: it goes on from page 0 under the number of the old page, sent by a node without a nickname | C84 |
| application registers (ARM) | one page used is reported, although the decision matrix is on page 1 | C103 |

## 7. Axioms per theorem

Printed by Lean (`#print axioms`, `tools/gen_axioms.py`) for each of the 517 theorems of MANIFEST.json.
P = `propext`, C = `Classical.choice`, Q = `Quot.sound`; no theorem depends on any other axiom.

| property | status | theorems and their axioms |
|---|---|---|
| C01 | proved | `C01_format_byte_fields` PQ, `C01_format_byte_injective` PQ, `C01_format_byte_masked` PQ |
| C02 | proved | `C02_encode_exact` PCQ, `C02_size_exists` PCQ, `C02_int32_min_is_undefined` PQ |
| C03 | partial | `C03_roundtrip_violated` PQ, `C03_negative_small_values_decode_wrong` PCQ, `C03_roundtrip_partial` PCQ |
| C04 | proved | `C04_encode_within_buffer` PCQ, `C04_encode_refuses_short_buffer` PCQ |
| C05 | proved | `C05_decode_bad_length` PQ, `C05_decode_total` PQ, `C05_decode_value` PQ |
| C06 | proved | `C06_cyclic_buffer_is_fifo` PCQ, `C06_no_slot_is_undefined` PQ, `C06_size_is_truncated` P |
| C07 | partial | `C07_multi_write_violated` P, `C07_multi_read_violated` P, `C07_multi_write_partial` PCQ, `C07_multi_read_partial` PCQ, `C07_multi_write_exact` PCQ, `C07_multi_read_exact` PCQ |
| C08 | proved | `C08_zone_index` PCQ, `C08_zone_inside_payload` PCQ |
| C09 | proved | `C09_loopback_fifo` PCQ, `C09_without_loopback` P |
| C10 | proved | `C10_transmit_errors` PQ |
| C11 | proved | `C11_sent_to_adapter` PQ, `C11_oversized_refused` PQ, `C11_looped_back_iff` PCQ, `C11_no_loopback` P |
| C12 | proved | `C12_packed` PQ, `C12_partition` PCQ |
| C13 | proved | `C13_read_after_write` PCQ, `C13_effect` PQ, `C13_out_of_range` PQ, `C13_block` PCQ |
| C14 | proved | `C14_guid` PCQ, `C14_zone` PCQ, `C14_manufacturer` PCQ, `C14_mdfUrl` PCQ |
| C15 | partial | `C15_family_violated` PCQ, `C15_type_violated` PCQ, `C15_partial` PCQ, `C15_registers_partial` PCQ |
| C16 | proved | `C16_register_map_complete` P, `C16_register_map` PQ, `C16_read_event` PCQ, `C16_other_registers` P |
| C17 | proved | `C17_page_read_event` PCQ, `C17_read` PCQ, `C17_read_event` PCQ |
| C18 | proved | `C18_write_rejected` PQ, `C18_write_event` PQ, `C18_increment_event` PCQ |
| C19 | proved | `C19_write_protection` PCQ, `C19_event` PCQ |
| C20 | partial | `C20_rejected` PQ, `C20_truthful_partial` PQ, `C20_application` PQ, `C20_stored` PCQ, `C20_violated_paged` PCQ, `C20_paged_index_exact` PCQ, `C20_paged_data_exact` PQ |
| C21 | proved | `C21_only_in_window` PCQ, `C21_register` PQ, `C21_opens` PCQ, `C21_restores` PCQ |
| C22 | partial | `C22_page_read_partial` PCQ, `C22_violated` PCQ, `C22_page_read_exact` PCQ |
| C23 | partial | `C23_page_write_partial` PQ, `C23_ignored` PQ, `C23_violated_end` PQ, `C23_violated_select` PCQ, `C23_page_write_exact` PQ |
| C24 | proved | `C24_stream` PCQ, `C24_complete` PCQ, `C24_values` PCQ |
| C25 | proved | `C25_extended_page_write` PQ, `C25_ignored` PQ |
| C26 | proved | `C26_step` PCQ, `C26_application` PQ |
| C27 | proved | `C27_answer` PQ, `C27_ignored` PQ |
| C28 | proved | `C28_answer` PQ, `C28_ignored` PQ, `C28_answer_paged` PQ |
| C29 | proved | `C29_handler` PQ, `C29_cycle` PCQ |
| C30 | proved | `C30_answers` PCQ, `C30_only_own` PCQ |
| C31 | proved | `C31_found_free` PCQ, `C31_give_up` PCQ |
| C32 | proved | `C32_probes` PCQ, `C32_count` PCQ, `C32_ends` PCQ, `C32_ends_any` PCQ |
| C33 | partial | `C33_violated` PCQ, `C33_valid_nickname_partial` PCQ, `C33_told_violated` PCQ, `C33_restored_violated` PCQ |
| C34 | proved | `C34_nickname_stored` PCQ, `C34_power_cycle` PCQ |
| C35 | proved | `C35_silent` PCQ, `C35_leave` PCQ, `C35_restart` PCQ |
| C36 | proved | `C36_once` PCQ, `C36_requested` PCQ, `C36_begins` PCQ, `C36_fresh` PCQ, `C36_lost` PCQ |
| C37 | proved | `C37_only` PCQ, `C37_quiet` PCQ, `C37_drops` PCQ |
| C38 | proved | `C38_plain` PCQ, `C38_options` PCQ |
| C39 | partial | `C39_violated` PCQ, `C39_cycle_partial` PCQ, `C39_frame_partial` PCQ, `C39_switch_partial` PCQ, `C39_spacing_partial` PCQ, `C39_due_partial` PCQ |
| C40 | proved | `C40_cycle` PCQ, `C40_set` PCQ, `C40_get` none, `C40_rate` PCQ, `C40_from_start` PCQ |
| C41 | partial | `C41_set` PCQ, `C41_sticky_partial` PCQ, `C41_read` PQ, `C41_violated` PCQ, `C41_lost` PCQ, `C41_step_violated` PCQ |
| C42 | partial | `C42_violated` PCQ, `C42_equal` PCQ, `C42_changed_partial` PCQ |
| C43 | proved | `C43_result` PCQ |
| C44 | proved | `C44_enters` PCQ, `C44_refuses` PCQ, `C44_only` PCQ |
| C45 | partial | `C45_frames_partial` PCQ, `C45_violated` PCQ |
| C46 | partial | `C46_restored_partial` PCQ, `C46_once_partial` PCQ, `C46_violated` PCQ |
| C47 | partial | `C47_no_out_of_bounds_partial` PCQ, `C47_violated_uninitialised_rule` PCQ |
| C48 | partial | `C48_row_partial` PCQ, `C48_violated` PCQ, `C48_row_exact` PCQ, `C48_cycle_partial` PCQ |
| C49 | proved | `C49_cycle` PCQ, `C49_only` PCQ |
| C50 | partial | `C50_rows_partial` PCQ, `C50_single_partial` PCQ, `C50_violated` PCQ, `C50_action_violated` PCQ |
| C51 | partial | `C51_claimed_partial` PCQ, `C51_write_partial` PCQ, `C51_each_partial` PCQ, `C51_offset_violated` PCQ, `C51_pages_violated` PCQ, `C51_collision_violated` PCQ, `C51_extension_violated` PCQ, `C51_paged` PCQ |
| C52 | partial | `C52_right_partial` PCQ, `C52_rules_partial` PCQ, `C52_violated` PCQ, `C52_zone_violated` PCQ |
| C53 | partial | `C53_partial` PCQ, `C53_violated` PCQ, `C53_zero_exact` PCQ, `C53_any_violated` PCQ |
| C54 | partial | `C54_claimed_exact` PCQ, `C54_register_exact` PQ, `C54_read_partial` PCQ, `C54_write_partial` PCQ, `C54_other_partial` PCQ, `C54_each_partial` PCQ, `C54_index_violated` PQ, `C54_page_violated` PCQ |
| C55 | proved | `C55_frames` PCQ, `C55_lossless` PCQ |
| C56 | proved | `C56_gate` PCQ, `C56_control` PCQ, `C56_level` none, `C56_calls` PCQ |
| C57 | partial | `C57_once_partial` PCQ, `C57_other` PCQ, `C57_violated` PCQ, `C57_again_exact` PCQ, `C57_again_violated` PCQ |
| C58 | proved | `C58_ids` PQ, `C58_distinct` PQ, `C58_expiry` PCQ, `C58_stop` PQ, `C58_independent` PQ, `C58_refines_init` PCQ, `C58_refines` PQ |
| C59 | proved | `C59_manual` PQ, `C59_auto` PQ, `C59_interrupt` PQ |
| C60 | proved | `C60_roundtrip` PCQ, `C60_onto` PCQ, `C60_registers` PCQ, `C60_refused` PQ |
| C61 | partial | `C61_range` PQ, `C61_set_range` none, `C61_advance_partial` PCQ, `C61_keeps_partial` PCQ, `C61_lost_violated` none, `C61_diff_partial` PCQ, `C61_diff_violated` P |
| C62 | partial | `C62_types` PQ, `C62_frame_partial` PCQ, `C62_page_violated` PCQ, `C62_service_violated` PCQ, `C62_interest_violated` PCQ, `C62_smallest_violated` PQ, `C62_double_violated` PCQ |
| C63 | partial | `C63_measurement` PCQ, `C63_zoned` PCQ, `C63_layout_partial` PCQ, `C63_recover_partial` PCQ, `C63_level_violated` PQ, `C63_preset_violated` PQ, `C63_datetime_violated` PCQ, `C63_drop_violated` PQ, `C63_drop_partial` PCQ, `C63_service_partial` PCQ, `C63_float_violated` PCQ |
| C64 | partial | `C64_distinct_partial` PCQ, `C64_violated` PCQ |
| C65 | partial | `C65_loopback_size_violated` PQ, `C65_loopback_lost_violated` PQ, `C65_loopback_size_partial` PCQ, `C65_room_exact` PCQ, `C65_loopback_exact` PCQ |
| C66 | partial | `C66_standard_violated` PCQ, `C66_remote_violated` PQ, `C66_partial` PCQ |
| C67 | partial | `C67_partial` PCQ, `C67_violated` PQ |
| C68 | proved | `C68_attempts` PCQ |
| C69 | partial | `C69_partial` PCQ, `C69_write_violated` PQ, `C69_read_violated` PQ |
| C70 | partial | `C70_range` PQ, `C70_eventually_partial` PCQ, `C70_next_violated` PCQ |
| C71 | proved | `C71_no_duplicates` PCQ |
| C72 | proved | `C72_fifo` PQ, `C72_order` PQ |
| C73 | partial | `C73_reports_partial` PQ, `C73_violated` PQ, `C73_alarm_partial` PQ |
| C74 | partial | `C74_once_partial` PQ, `C74_order_partial` PQ, `C74_result_violated` P, `C74_order_violated` P |
| C75 | partial | `C75_complete_partial` PQ, `C75_violated` PQ |
| C76 | partial | `C76_rate` PQ, `C76_atleast` PQ, `C76_zero_violated` PQ, `C76_atmost_partial` PCQ |
| C77 | partial | `C77_firmware` PCQ, `C77_only` PCQ, `C77_once` PCQ, `C77_exact_partial` PCQ, `C77_lost_violated` P, `C77_arm_violated` PCQ |
| C78 | partial | `C78_early_partial` PCQ, `C78_late_partial` PCQ, `C78_violated` PQ |
| C79 | proved | `C79_slow` PCQ, `C79_fast` PQ, `C79_steady` PQ |
| C80 | partial | `C80_avr` PCQ, `C80_core` PCQ, `C80_arm_partial` PCQ, `C80_busy_violated` PQ, `C80_range_violated` PQ, `C80_layout` P |
| C81 | partial | `C81_once_partial` PCQ, `C81_sent_partial` PCQ, `C81_full` PCQ, `C81_order_violated` PCQ, `C81_remote_violated` PCQ |
| C82 | proved | `C82_order` PCQ, `C82_lost` PCQ, `C82_transfer` PCQ, `C82_closed` PQ |
| C83 | partial | `C83_first_partial` PCQ, `C83_lost_violated` PCQ, `C83_corrupt_violated` PCQ |
| C84 | partial | `C84_none` PCQ, `C84_frames_partial` PCQ, `C84_nickname_stored` PCQ, `C84_write_protection` PCQ, `C84_no_out_of_bounds_partial` PCQ, `C84_reply` PCQ, `C84_actions` PCQ, `C84_once` PCQ, `C84_reg_none` PCQ, `C84_reg_frames_partial` PCQ, `C84_reg_nickname_stored` PCQ, `C84_reg_write_protection` PCQ, `C84_reg_no_out_of_bounds_partial` PCQ, `C84_reg_read` PCQ, `C84_reg_write` PCQ, `C84_reg_restore_violated` PCQ, `C84_reg_once` PCQ |
| C85 | partial | `C85_no_nickname` PCQ, `C85_discovery_partial` PCQ, `C85_violated` PCQ |
| C86 | proved | `C86_lamp` PCQ, `C86_active` PCQ, `C86_only` PCQ |
| C87 | proved | `C87_zones` PCQ, `C87_read` PCQ, `C87_write` PCQ, `C87_protected` PCQ |
| C88 | proved | `C88_actions` PCQ, `C88_only` PCQ, `C88_answered` PCQ, `C88_info` PQ |
| C89 | proved | `C89_actions` PCQ, `C89_only` PCQ, `C89_pass` PCQ, `C89_state` PCQ |
| C90 | proved | `C90_restart` PCQ, `C90_never` PCQ, `C90_kept` PCQ, `C90_time` PCQ |
| C91 | partial | `C91_registers_partial` PCQ, `C91_registers_violated` PCQ, `C91_matrix` PCQ, `C91_rows_violated` PCQ, `C91_version` P, `C91_events_partial` PCQ, `C91_heartbeat_violated` PCQ |
| C92 | partial | `C92_deaf_violated` PCQ, `C92_ignored_violated` PCQ, `C92_violated` PCQ, `C92_partial` PCQ, `C92_send` PCQ, `C92_defined` PCQ, `C92_no_invented` PCQ |
| C93 | partial | `C93_same` PCQ, `C93_report_partial` PCQ, `C93_good` PCQ, `C93_empty_violated` PCQ, `C93_large_violated` PCQ, `C93_next_large_violated` PCQ, `C93_hidden_violated` PCQ, `C93_position_violated` PCQ |
| C94 | proved | `C94_lowest` PCQ, `C94_joins` PCQ |
| C95 | proved | `C95_event` PCQ, `C95_quiet` PCQ, `C95_calls` PCQ, `C95_start` PCQ, `C95_history` PCQ, `C95_inactive` PCQ, `C95_stopped` PCQ, `C95_segment` PCQ |
| C96 | partial | `C96_lost_violated` PCQ, `C96_same_violated` PCQ, `C96_kept_partial` PCQ |
| C97 | partial | `C97_arm_violated` PCQ, `C97_button_partial` PCQ |
| C98 | proved | `C98_update` PCQ, `C98_steady` PCQ |
| C99 | proved | `C99_power_loss` PCQ, `C99_registers` PCQ, `C99_volatile` PCQ, `C99_active` PCQ |
| C100 | proved | `C100_program` PCQ, `C100_confirmed` PCQ, `C100_in_force` PCQ, `C100_restart` PCQ, `C100_row` PQ |
| C101 | proved | `C101_gate` PCQ, `C101_off` PCQ |
| C102 | proved | `C102_history` PCQ, `C102_node` PCQ, `C102_read` PCQ, `C102_callbacks` PCQ |
| C103 | partial | `C103_avr` PQ, `C103_arm_partial` PQ, `C103_arm_violated` PQ |
| C104 | partial | `C104_open_partial` PQ, `C104_nine_violated` PQ, `C104_rate_violated` PQ, `C104_refuses` PCQ, `C104_get` P, `C104_start` PQ, `C104_again_violated` PQ, `C104_close_partial` PQ, `C104_other` PQ, `C104_closed_violated` P, `C104_reopen_violated` P |
| C105 | proved | `C105_defined` PCQ, `C105_in` PCQ, `C105_out` PCQ, `C105_history` PCQ, `C105_paced` PCQ, `C105_answer` PCQ, `C105_write` PCQ, `C105_who` PCQ, `C105_keeps` PCQ, `C105_possible` PCQ |
| C106 | partial | `C106_clock` PQ, `C106_tick_partial` PCQ, `C106_drift_violated` PCQ |
| C107 | proved | `C107_starts` PCQ, `C107_watchdog` none |
| C108 | partial | `C108_fate_partial` PCQ, `C108_asks` PCQ, `C108_short_violated` PCQ |
| C109 | proved | `C109_history` PCQ, `C109_node` PCQ, `C109_callbacks` PCQ, `C109_registers` PCQ, `C109_power` P, `C109_actions` PCQ, `C109_rules` PCQ |
| C110 | proved | `C110_heard` PCQ, `C110_frames` PCQ, `C110_stays` PCQ, `C110_avr` PCQ |
| C111 | proved | `C111_firmware` PCQ, `C111_defined` PCQ, `C111_lives` PCQ, `C111_bus` PCQ, `C111_configured` PCQ, `C111_possible` PCQ |
| C112 | proved | `C112_time` PCQ, `C112_span` PCQ, `C112_told` PCQ, `C112_reset` PCQ |
| C113 | proved | `C113_avr` PCQ, `C113_loss` PCQ, `C113_callbacks` PCQ, `C113_single` PCQ, `C113_restart` PCQ |
| C114 | partial | `C114_memory` PCQ, `C114_partial` PCQ, `C114_violated` PCQ |
| C115 | proved | `C115_avr` PCQ, `C115_nickname` PCQ, `C115_segment` PCQ, `C115_restart` PCQ, `C115_callbacks` PCQ, `C115_callbacks_restart` PCQ |
| C116 | proved | `C116_stream` PCQ, `C116_complete` PCQ, `C116_values` PCQ |
| C117 | partial | `C117_partial` PCQ, `C117_violated` PCQ |
| C118 | proved | `C118_cycle` PCQ, `C118_calls` PCQ, `C118_history` PCQ, `C118_silent` PCQ, `C118_bus` PCQ, `C118_avr` PCQ, `C118_callbacks` PCQ, `C118_callbacks_history` PCQ |
| C119 | proved | `C119_most` PCQ, `C119_least` PCQ, `C119_frame` PCQ, `C119_alone` PCQ |
| C120 | proved | `C120_sends` PCQ, `C120_answers` PCQ, `C120_example` PCQ |
| C121 | proved | `C121_sends` PCQ, `C121_bus` PCQ, `C121_example` PCQ |
| C122 | proved | `C122_in_turn` PCQ, `C122_no_duplicates` PCQ, `C122_unassigned` PCQ, `C122_newcomer` PCQ |
| C123 | proved | `C123_no_duplicates` PCQ, `C123_newcomer` PCQ |
| C124 | proved | `C124_ends` PCQ, `C124_alone` PCQ, `C124_later` PCQ |
| C125 | proved | `C125_range` PCQ, `C125_waited` PCQ, `C125_lowest` PCQ, `C125_gave_up` PCQ |
| C126 | proved | `C126_in_use` PCQ, `C126_answers` PCQ |
| C127 | proved | `C127_examples` PCQ, `C127_heard` PCQ, `C127_no_more` PCQ |
| C128 | proved | `C128_answered` PCQ |
| C129 | proved | `C129_acts` PCQ, `C129_heard` PCQ |
| C130 | proved | `C130_example` PCQ, `C130_confirmed` PCQ, `C130_taken` PCQ, `C130_others` PCQ |
| C131 | proved | `C131_heartbeat` PCQ |
| C132 | proved | `C132_ends` PCQ |
| C133 | proved | `C133_finds` PCQ |
| C134 | proved | `C134_reason` PCQ |
| C135 | proved | `C135_cause` PCQ, `C135_kept` PCQ |
| C136 | proved | `C136_stable` PCQ |
| C137 | proved | `C137_heartbeats` PCQ |
| C138 | proved | `C138_power` PCQ |
| C139 | proved | `C139_return` PCQ |
| C140 | proved | `C140_online` PCQ |
