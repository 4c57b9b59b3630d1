# Formal model of the Cicada communication library

The code is `/repo` (EnAccess/Cicada-FW, C++). The model is Lean 4, under
`lean/Verif`. This file says what is modelled, how each property of
`properties.jsonl` is stated and proved, and what has to be trusted.

## 1. Layout

| directory | content |
|---|---|
| `Verif/Base.lean` | bytes and `b!"..."` literals |
| `Verif/Model/*` | the code, function by function; each definition cites file and lines |
| `Verif/Spec/*` | independent specifications: queues, lines, observers of the serial line, state diagrams, command language, dialogues with a modem, concrete sessions |
| `Verif/Lemmas/*` | helper lemmas and invariants |
| `Verif/Props/*` | the property theorems, each next to an `example` that meets its hypotheses |

## 2. Modelling decisions

* A byte is `UInt8`. `Size` is `uint64_t` (defines.h); sizes are `Nat`, and every place where the
  code can wrap below zero (`_bytesToReceive -= n`, `while (_bytesToWrite--)`) uses explicit
  arithmetic modulo 2^64. `uint32_t` ticks use explicit arithmetic modulo 2^32, `_bufferedLines`
  modulo 2^16, `setDelay` modulo 2^16.
* Undefined behaviour is an explicit outcome: a sticky flag (`oob`, `ub`) in the state that no
  operation ever clears. Index out of range, stack buffer overflow (`strcpy`, `sprintf`), signed
  overflow, use of an empty scheduler list and NULL dereference set it.
* Implementation defined behaviour is a parameter `Platform`: signedness of `char`, width of `long`.
* Uninitialised members are arbitrary parameters of the initial state; theorems hold for all.
* Interrupts. Every `eDisableInterrupts/eEnableInterrupts` section of `BufferedSerial` is one atomic
  step. The serial state carries a schedule: a list of batches of calls of
  `transferToAndFromBuffer`. Before each atomic section the next batch is run. A theorem
  quantified over the schedule therefore covers every interleaving of interrupts between critical
  sections, in the middle of drivers' `run()` as well.
* Ghost fields record what happened (bytes heard, accepted, put on the wire, commands, lines). No
  modelled function reads a ghost field. The trace of a driver is a list of events `Ev`: the
  first string of a command and the further strings written for it (each with the part the serial device
  accepted), payload, completed lines, received data, flushes and API calls.
* Drivers. `run()` is written as the same cascade of stages as in the code. The state of a driver is
  one structure with all members of `IPCommDevice`, `ATCommDevice`, `Task` and the driver.
  Histories are lists of operations (`Op`: interrupt batches, closing of the port, `run`, every public call
  with arbitrary arguments), executed from the constructor state by `exec`. "All histories" means: for all
  buffer contents and sizes, schedules, initial values of uninitialised members and operation lists.
* `_waitForReply` is `Option (List UInt8)`; C compares its content only.
* C strings given by the application are lists of bytes; the terminating zero is implicit. Lists with a
  zero inside do not correspond to a C string; theorems cover them, harmlessly. Pointers kept by the
  drivers (host, APN, SSID, password) stand for the string they point to: the application
  must not change or free it.
* The C library (`strncmp`, `strtol`, `strlen`, `sprintf` of numbers) is modelled in `Model/CString.lean`.

Simplifications: assignments and serial writes of one section that do not depend on each other are
grouped (writes first); `run()` is split at its sections into functions; virtual dispatch is
resolved statically; the task bodies of C20 are straight lines of statements (C83: any structure).

## 3. What is modelled and what is not

Modelled: circularbuffer.h, linecircularbuffer.h, bufferedserial.cpp, task.h (class and macros),
scheduler.cpp, platform/linux/tick_linux.cpp, platform/noplatform/tick_none.cpp, mqttcountdown.cpp, blockingcommdev.cpp, ipcommdevice.cpp, atcommdevice.cpp,
simcommdevice.cpp, sim7x00.cpp, sim800.cpp, espressif.cpp, cc1352p7.cpp, modemdetect.cpp,
platform/stm32f1/stm32uart.cpp, platform/linux/unixserial.cpp (opening, closing, configuration; the
system calls are an oracle of outcomes).

Also platform/mbed (`Model/Mbed.lean`; mbedserial.cpp calls a member that does not exist in `CircularBuffer` and cannot
compile as it is, see there) and eight programs of examples/linux (blockingmqtt.cpp from the connection of the client on, ntp.cpp, scheduler.cpp, ipcommdevice.cpp, autodetectntp.cpp, eventloop.cpp, blocking.cpp, serial_linux.cpp), and the IP tasks of examples/mbed/main.cpp and examples/stm32f1/ipcommdevice_stm32.cpp, and the loop of examples/stm32f1/mqttsequence.cpp, and the task of examples/stm32f1/ntp.cpp.

Not modelled: debug printing, printf support, `HAL_GetTick` of the STM32 (the counter of mbed is modelled), irq.cpp of the
platforms (interrupts on/off are primitive), the STM32 HAL, mbed and the hardware (the assumptions are listed at the head of
`Model/Stm32Uart.lean` and `Model/Mbed.lean`), the system calls on Linux (assumptions at the head of `Model/UnixSerial.lean`), the other examples,
FreeRTOS, memory layout and object lifetime (but for the table of UART instances, C52), threads.
Fields read outside critical sections (`spaceAvailable()`) are modelled as atomic reads.

Liveness statements (C44, C45, C61, C63, C75) need an environment. For C62 and C63 it is the modem in `Spec/Modem.lean`. For the others it is `Spec/Chat.lean`: the modem sends lines
of at most 60 bytes in pieces of any size, before each piece it has taken all bytes from the transmit buffer, `run()` is
called at least once after each piece and no interrupt happens during a call. All other driver theorems
do not restrict the modem at all: it may send any bytes at any time.

## 4. Trusted base

* Lean 4.33.0 kernel.
* The axioms `propext`, `Classical.choice`, `Quot.sound`; section 8 lists them per theorem.
* The faithfulness of the hand-written model to the C++ text and the modelling decisions above.

No `sorry`, no further axiom, no `native_decide`, no `bv_decide`. Witness histories are evaluated by the
kernel (`decide +kernel`).

Expectations that are false are kept: their property says what is expected and that it is false. The theorem
is then the exact behaviour, or a concrete history from the constructor state that ends in the bad
state, together with what remains true.

## 5. The properties

For every property: what is modelled and how the theorems are proved. The statements are in
`properties.jsonl`, theorem names below are relative to `Verif.Props`.

**C01 Circular buffer is a bounded FIFO** (proved). Raw model of the buffer (two heads, counter, cells), abstraction to a list, refinement to `Spec.Fifo` by induction over the calls. All capacities, all element types, all in-contract histories.
  Theorems: `Ring.C01_fifo`.

**C02 Circular buffer counters and bounds** (proved). Invariant of the raw model under every call, no precondition. All histories without any precondition; capacity 0 shown to be out of bounds.
  Theorems: `Ring.C02_counters`, `Ring.C02_zero_capacity`.

**C03 Bulk push and pull transfer exactly min(n, room/data)** (proved). From the refinement, for single calls in every reachable state.
  Theorems: `Ring.C03_bulk_push`, `Ring.C03_bulk_pull`.

**C04 Unchecked single push onto a full buffer** (proved). Exact effect on the abstract list. Exact effect proved; the stronger FIFO expectation is refuted for every capacity >= 2.
  Theorems: `Ring.C04_push_full`, `Ring.C04_order_broken`.

**C05 Unchecked single pull from an empty buffer** (proved). Exact effect; the stream after it is shown to be shifted. Exact effect proved; normal behaviour afterwards refuted for every capacity >= 2.
  Theorems: `Ring.C05_pull_empty`, `Ring.C05_desync`, `Ring.C05_desync_stream`.

**C06 flush() empties the buffer for good** (proved). `flush()` leads to a state that is equivalent to a new buffer; simulation of all later calls.
  Theorems: `Ring.C06_flush`, `Line.C06_flush_line`.

**C07 Line counter equals number of buffered newlines** (proved). Invariant relating the 16 bit counter and the newlines in the abstract queue.
  Theorems: `Line.C07_line_count`, `Line.C07_C09_line_buffer`.

**C08 canReadLine() tells whether a whole line is buffered** (proved). From C07; concrete family of states for the wrap. Both halves: equivalence below 65536 buffered newlines, failure at 65536.
  Theorems: `Serial.C08_canReadLine`, `Serial.C08_wrap`.

**C09 LineCircularBuffer::readLine consumes exactly one line** (proved). Refinement of `readLine` to the specification on lists (`Spec/Line.lean`).
  Theorems: `Line.C09_readLine`, `Line.C07_C09_line_buffer`.

**C10 BufferedSerial::readLine is bounded, terminated and line exact** (proved). Characterisation of the loop by induction over the free space, with the interrupt schedule. The documentation (newline replaced by the zero) is not what the code does; C10_newline_kept shows it.
  Theorems: `Serial.C10_readLine`, `Serial.C10_readLine_zero`, `Serial.C10_newline_kept`.

**C11 Receive stream integrity under interrupts** (proved). Ghost streams (accepted, delivered) and an invariant over calls and schedules.
  Theorems: `Serial.C11_rx_stream`, `Serial.C11_read_results`.

**C12 Transmit stream integrity under interrupts** (proved). As C11 for the transmit direction.
  Theorems: `Serial.C12_tx_stream`.

**C13 Serial write return values are honest** (proved). Characterisation of the calls; `space_seen` ties the free space to the ghost streams.
  Theorems: `Serial.C13_write`, `Serial.C13_writeStr`, `Serial.space_seen`.

**C14 Receive overflow drops only the newest byte** (proved). Step lemma and sublist invariant.
  Theorems: `Serial.C14_overflow_step`, `Serial.C14_accepted_sublist`.

**C15 A transmit byte is removed only after the hardware took it** (proved). Step lemma, from every state.
  Theorems: `Serial.C15_transmit`.

**C16 Critical sections are closed but do not nest** (proved). Explicit interrupt-enable flag; every call ends with the flag set. Closing proved, preservation of the caller state refuted.
  Theorems: `Serial.C16_enabled_after`, `Serial.C16_first_call`, `Serial.C16_not_nested`.

**C17 Scheduler is round robin** (proved). Scheduler over arbitrary task bodies, induction over the number of calls.
  Theorems: `Sched.C17_round_robin`, `Sched.C17_each_once`, `Sched.C17_empty_list`.

**C18 A task never runs before its delay has elapsed** (proved). Same model, arithmetic modulo 2^32. Needs no bound on the true gap: the code can only err on the late side.
  Theorems: `Sched.C18_min_delay`.

**C19 A due task is run within one round** (proved). Same model.
  Theorems: `Sched.C19_run_iff_due`, `Sched.C19_zero_delay_every_round`.

**C20 Reentrant task macros execute a task body once, in order** (proved). Small language of task bodies, expansion of the macros as a switch on the entry point, simulation against `Spec/Coroutine.lean`. Straight-line bodies whose labels fit 8 bits; the two negative theorems show what happens if they do not.
  Theorems: `Reenter.C20_coroutine`, `Reenter.C20_prefix`, `Reenter.C20_end`, `Reenter.C20_labels_too_big`, `Reenter.C20_label_wrap_repeats`.

**C21 Task timeouts** (proved). Timeout arithmetic in `Sched`, waiting statements in `Reenter`.
  Theorems: `Sched.C21_timeout`, `Sched.C21_no_restart`, `Reenter.C21_wait`, `Reenter.C20_coroutine`.

**C22 Delays above 65535 are truncated** (proved). Arithmetic modulo 2^16.
  Theorems: `Sched.C22_delay`, `Sched.C22_runs_early`, `Reenter.C20_coroutine`.

**C23 Two tasks of the same class do not interfere** (proved). Two objects sharing the entry point of the model of C20. The expectation is refuted for every body of the form actions, yield, actions.
  Theorems: `Reenter.C23_shared_entrypoint`.

**C24 MQTT countdown** (proved). Arithmetic modulo 2^32 and signed 32 bit. Positive part within one tick period; both failures across the wrap.
  Theorems: `Countdown.C24_countdown`, `Countdown.C24_seconds`, `Countdown.C24_seconds_overflow`, `Countdown.C24_wrap_expired_at_once`, `Countdown.C24_wrap_never_expires`.

**C25 Blocking read delivers a prefix of the stream** (proved). Loop with fuel over an arbitrary device; invariant of the loop.
  Theorems: `Blocking.C25_read`, `Blocking.logged_read`.

**C26 Blocking calls end** (proved). Termination by a bound on the polls, from a clock that advances. Needs timeout plus polling period below 2^31; timeout -1 never expires.
  Theorems: `Blocking.C26_read_ends`, `Blocking.C26_write_ends`, `Blocking.C26_minus_one_never_expires`.

**C27 Blocking write is all or nothing as reported** (proved). Loop invariant; refutation with a device that accepts less than it reports. The converse is refuted.
  Theorems: `Blocking.C27_write`, `Blocking.C27_zero_but_sent`, `Blocking.C27_too_long`.

**C28 connect() validates its configuration** (proved). Direct, over all states. SSID and password pointers have no initialiser: the WiFi statement needs them set.
  Theorems: `DriverApi.C28_connect`, `DriverApi.C28_connect_sim`, `DriverApi.C28_connect_esp`.

**C29 Data are accepted only while connected** (proved). Direct, over all states.
  Theorems: `DriverApi.C29_not_connected`, `DriverApi.C29_write`, `DriverApi.C29_exclusive`, `DriverApi.C29_disconnect`.

**C30 A driver reports connected only after the modem confirmed the connection** (proved). Observer of the trace (`Spec/Trace.lean`) related to the state by an invariant over all histories. All histories from the constructor.
  Theorems: `Link.C30_sim7x00`, `Link.C30_sim800`, `Link.C30_espressif`, `Link.C30_cc1352p7`.

**C31 No connection without a connect() request** (proved). Invariant over all histories of the driver model. The observer counts requests. All histories; SIM800 and CC1352P7 under the condition that no error line arrives, with witnesses that they connect unasked otherwise.
  Theorems: `Rest.C31_sim7x00`, `Rest.C31_espressif`, `Rest.C31_sim800`, `Rest.C31_cc1352p7`, `Rest.C31_sim800_unasked`, `Rest.C31_cc1352p7_unasked`.

**C32 One command at a time** (proved). Invariant over all histories of the driver model. The observer follows the pending command (`Spec/Waiting.lean`). All histories; the answers are tables in Spec/Waiting.lean. The second part holds in every state.
  Theorems: `OneCmd.C32_sim7x00`, `OneCmd.C32_sim7x00_run`, `OneCmd.C32_sim800`, `OneCmd.C32_sim800_run`, `OneCmd.C32_espressif`, `OneCmd.C32_espressif_run`, `OneCmd.C32_cc1352p7`, `OneCmd.C32_cc1352p7_run`.

**C33 Payload is sent only after the prompt** (proved). Invariant over all histories of the driver model. The observer follows send command and prompt (`Spec/Payload.lean`). All histories. For the cellular drivers the theorem names the two lines that release the payload, and witnesses show payload without any prompt.
  Theorems: `Payload.C33_sim7x00`, `Payload.C33_sim800`, `Payload.C33_espressif`, `Payload.C33_cc1352p7`, `Payload.C33_sim7x00_unprompted`, `Payload.C33_sim800_unprompted`.

**C34 Payload integrity** (proved). Invariant over all histories of the driver model. Payload stream against the stream accepted by `write()`; the condition on interrupts is a predicate on the schedule. All histories. Stream equality under the stated condition on the transmit interrupt; witnesses show what happens without it.
  Theorems: `Payload.C33_sim7x00`, `Payload.C33_sim800`, `Payload.C33_espressif`, `Payload.C33_cc1352p7`, `Payload.C34_sim7x00`, `Payload.C34_sim800`, `Payload.C34_espressif`, `Payload.C34_cc1352p7`, `Payload.C34_digits`, `Payload.C34_digits_wrong`, `Payload.C34_sim7x00_race`, `Payload.C34_sim800_race`, `Payload.C34_espressif_race`, `Payload.C34_cc1352p7_race`.

**C35 A status request does not disturb a transmission** (proved). Concrete history from the constructor state, evaluated in the kernel.  The expectation is refuted for every driver and both kinds of request.
  Theorems: `Payload.C35_sim7x00`, `Payload.C35_sim7x00_id`, `Payload.C35_sim800`, `Payload.C35_sim800_id`, `Payload.C35_espressif`, `Payload.C35_espressif_mac`, `Payload.C35_cc1352p7`, `Payload.C35_cc1352p7_mac`.

**C36 Received payload integrity** (proved). Invariant over all histories of the driver model. The observer follows requests, headers and data (`Spec/Receiving.lean`). All histories from the constructor; the header formats are in Spec/Receiving.lean. Witnesses show the overwriting when the modem delivers too much.
  Theorems: `Receive.C36_sim7x00`, `Receive.C36_sim800`, `Receive.C36_espressif`, `Receive.C36_cc1352p7`, `Receive.C36_sim7x00_overwritten`, `Receive.C36_sim800_overwritten`, `Receive.C36_espressif_overwritten`, `Receive.C36_cc1352p7_overwritten`.

**C37 The driver never requests more than it can store** (proved). Every state, one `run()`. Every state and every run(); witnesses for the race.
  Theorems: `Receive.C37_sim7x00`, `Receive.C37_sim800`, `Receive.C37_espressif`, `Receive.C37_cc1352p7`, `Receive.C37_sim7x00_limit`, `Receive.C37_sim800_limit`, `Receive.C37_sim7x00_race`, `Receive.C37_sim800_race`, `Receive.C37_espressif_race`, `Receive.C37_cc1352p7_race`.

**C38 Line assembly is memory safe and loses nothing** (proved). Invariant over all histories of the driver model. The assembled lines and the dropped bytes make up the received stream. All histories; the stream part of the Espressif driver for TCP connections.
  Theorems: `LineAsm.C38_safe_sim7x00`, `LineAsm.C38_safe_sim800`, `LineAsm.C38_safe_espressif`, `LineAsm.C38_safe_cc1352p7`, `LineAsm.C38_stream_sim7x00`, `LineAsm.C38_stream_sim800`, `LineAsm.C38_stream_espressif`, `LineAsm.C38_stream_cc1352p7`.

**C39 The serial lock silences the driver** (proved). Every state, one `run()`; `_within`: histories from the constructor. Port open; only the cellular drivers have a lock.
  Theorems: `DriverApi.C39_lock`, `DriverApi.C39_locked_sim7x00`, `DriverApi.C39_locked_sim800`, `DriverApi.C39_serial_access`, `Locked.C39_sim7x00_within`, `Locked.C39_sim800_within`.

**C40 Signal strength conversion** (proved). Model of `strtol` and of the conversion, for all reply lines. Exact conversion below 2^32 or with a 32 bit long, range for every line, wrap-around shown.
  Theorems: `Parse.C40_value`, `Parse.C40_range`, `Parse.C40_wrap`, `Parse.C40_cc`, `Parse.C40_cc_negative`.

**C41 A reported ICCID is valid** (proved). Independent definition of the Luhn sum; invariant over histories cut at the last request. C41_check relates the code to an independent definition of the Luhn sum; the theorems about the drivers hold for all histories from the constructor state; C41_sim800_replaced is the refutation for SIM800 with signal strength requests.
  Theorems: `Parse.C41_check`, `Parse.C41_parse`, `Iccid.C41_sim7x00`, `Iccid.C41_sim800`, `Iccid.C41_sim800_replaced`.

**C42 DNS reply parsing** (proved). All host names and addresses. Positive for addresses of at most 15 characters, overflow proved for longer ones.
  Theorems: `Parse.C42_dns`, `Parse.C42_overflow`.

**C43 resetStates() restores the initial state** (proved). Equality of states up to the listed fields.
  Theorems: `DriverApi.C43_sim`, `DriverApi.C43_esp`, `DriverApi.C43_cc`, `DriverApi.C43_mac_survives`, `DriverApi.C43_delay_survives`.

**C44 Connection handshake** (proved). Dialogues (`Spec/Chat.lean`) as inductive predicate, each driver followed state by state, induction over the dialogue. From the constructor state, after any number of complete connections, for every prefix of the dialogue. The environment is Verif.Spec.Chat: interrupts between calls, lines of at most 60 bytes without prompt characters, arriving in pieces; the transmit buffer runs empty before each piece and run() is called after each.
  Theorems: `Handshake.C44_sim7x00`, `Handshake.C44_sim7x00_lasts`, `Handshake.C44_sim800`, `Handshake.C44_sim800_lasts`, `Handshake.C44_espressif`, `Handshake.C44_espressif_lasts`, `Handshake.C44_cc1352p7`, `Handshake.C44_cc1352p7_lasts`.

**C45 Orderly disconnect** (proved). As C44. By induction over the list of connections.
  Theorems: `Handshake.C45_sim7x00`, `Handshake.C45_sim800`, `Handshake.C45_espressif`, `Handshake.C45_cc1352p7`.

**C46 A requested disconnect is not forgotten** (proved). Invariant with four phases (closed, request pending and nothing opened, request pending and past the opening, closing); the sections of `run()` are composed by `Lemmas/Phases.lean`. Premise 'never idle' is over every prefix of the later operations. C46_espressif_stays assumes that no connection request is stored when disconnect() is called (connectPending = false). C46_sim7x00_forgotten is a concrete history violating the expectation for SIM7x00.
  Theorems: `Quit.C46_sim800`, `Quit.C46_espressif`, `Quit.C46_cc1352p7`, `Quit.C46_espressif_stays`, `Quit.C46_sim7x00_forgotten`, `Quit.C46_sim800_again`, `Quit.C46_cc1352p7_again`.

**C47 A transient failure to open the port is survived** (proved). Invariant: once in the error state nothing is sent and nothing changes the state but `resetStates()`. The expectation is refuted for every driver, for every later history.
  Theorems: `Wedge.C47_sim7x00_dead`, `Wedge.C47_sim800_dead`, `Wedge.C47_espressif_dead`, `Wedge.C47_cc1352p7_dead`.

**C48 UDP data never wedge the WiFi driver** (proved). Invariant of the stuck state over all later histories, and a history that leads there. All histories from the constructor; the situation is reachable.
  Theorems: `Wedge.C48_espressif_stuck`, `Wedge.C48_espressif_reachable`.

**C49 Empty data replies never wedge the drivers** (proved). Invariants `Empty` (cellular) and `Hollow` (`Lemmas/Hollow.lean`): line reading is off and no byte is left to be read; no operation except resetStates() and disconnect() ends this. All histories from the constructor; the situation is reachable. WiFi: connections with TCP (others: C82).
  Theorems: `Wedge.C49_sim7x00_deaf`, `Wedge.C49_sim7x00_reachable`, `Wedge.C49_sim800_deaf`, `Wedge.C49_sim800_reachable`, `Hollow.C49_espressif_deaf`, `Hollow.C49_espressif_reachable`, `Hollow.C49_cc1352p7_deaf`, `Hollow.C49_cc1352p7_reachable`.

**C50 Modem detection is sound** (proved). Model of the detection task with the drivers inside; observer of its trace. All histories from the constructor; drivers are those of the driver models.
  Theorems: `ModemDetect.C50_sound`, `ModemDetect.C50_driver`, `ModemDetect.C50_forward`, `ModemDetect.C50_final`, `ModemDetect.C50_forgotten`, `ModemDetect.C50_error_final`, `ModemDetect.C50_queries`, `ModemDetect.C50_ub`, `ModemDetect.C50_lines`.

**C51 UART interrupt bookkeeping** (proved). Small steps of main program and interrupt handler, invariant over all interleavings. Small-step model of main program and interrupts; assumptions about HAL and hardware are listed in Model/Stm32Uart.lean.
  Theorems: `Uart.C51_armed`, `Uart.C51_written`, `Uart.C51_history`, `Uart.C51_drains`, `Uart.C51_off`, `Uart.C51_stream`, `Uart.C51_accepts`, `Uart.C51_before_open`, `Uart.C51_reopened`.

**C52 UART instance lookup** (proved). Model of the static table.
  Theorems: `Uart.C52_lookup`, `Uart.C52_dropped`, `Uart.C52_dangling`.

**C53 Serial configuration** (proved). Tables of rates and formats. Refuted expectation: C53_half_rejected.
  Theorems: `PortConfig.C53_linux`, `PortConfig.C53_stm32`, `PortConfig.C53_rate_rejected`, `PortConfig.C53_half_rejected`.

**C54 MAC request depends on signedness of char** (proved). One `run()` in every ready state (unsigned); invariant (signed). All histories (signed); every state of the stated kind (unsigned).
  Theorems: `MacQuery.C54_espressif_signed`, `MacQuery.C54_espressif_unsigned`, `MacQuery.C54_cc1352p7_signed`, `MacQuery.C54_cc1352p7_unsigned`.

**C55 Commands come in the documented order** (proved). Invariant over all histories of the driver model. Last command in every send and reply state. All histories from the constructor; the diagrams are tables in Spec/Order.lean.
  Theorems: `Order.C55_sim7x00`, `Order.C55_sim800`, `Order.C55_espressif`, `Order.C55_cc1352p7`.

**C56 Commands are sent whole** (proved). Every state, one `run()`; byte count of all writes of the call. Per run() of every state; the cut-off commands are witnesses from the constructor state.
  Theorems: `Whole.C56_sim7x00`, `Whole.C56_short_sim7x00`, `Whole.C56_sim7x00_cut`, `Whole.C56_sim800`, `Whole.C56_short_sim800`, `Whole.C56_sim800_cut`, `Whole.C56_espressif`, `Whole.C56_short_espressif`, `Whole.C56_espressif_cut`, `Whole.C56_cc1352p7`, `Whole.C56_short_cc1352p7`, `Whole.C56_cc1352p7_cut`, `Whole.C56_sim7x00_reset`, `Whole.C56_espressif_reset`.

**C57 Announced data belong to the current connection** (proved). Concrete history from the constructor state, evaluated in the kernel.  The expectations are refuted by histories from the constructor.
  Theorems: `Stale.C57_sim7x00_stale`, `Stale.C57_sim800_stale`, `Stale.C57_espressif_stale`, `Stale.C57_cc1352p7_stale`, `Locked.C57_espressif_wrap`, `Locked.C57_cc1352p7_wrap`.

**C58 disconnect() only ends the current connection** (proved). Concrete history from the constructor state, evaluated in the kernel.  The expectation is refuted for every driver by a history from the constructor.
  Theorems: `Stale.C58_sim7x00_aborted`, `Stale.C58_sim800_aborted`, `Stale.C58_espressif_aborted`, `Stale.C58_cc1352p7_aborted`.

**C59 Commands are complete texts with the settings of the application** (proved). Every state, one `run()`; inductive language of complete commands. Every state; the languages are inductive predicates in Spec/Language.lean. That the serial device accepts the whole text is C56.
  Theorems: `Order.C59_sim7x00`, `Order.C59_sim800`, `Order.C59_espressif`, `Order.C59_cc1352p7`.

**C60 A serial port holds one file descriptor** (proved). Counter of descriptors, invariant over histories with arbitrary outcomes of the system calls. System calls are an oracle of outcomes.
  Theorems: `PortConfig.C60_descriptors`, `PortConfig.C60_configured`, `PortConfig.C60_open_unaffected`, `PortConfig.C60_leak`.

**C61 The end of a connection is noticed** (proved). Dialogues as in C44. The close while data are fetched: case distinction over one call of `run()` in any state, then induction over the calls (`Props/PeerGone.lean`). C61_sim7x00 is the refutation for that driver: it holds for every number of run() calls. C61_sim7x00_noticed is a witness.
  Theorems: `Handshake.C61_sim7x00`, `Handshake.C61_sim800`, `Handshake.C61_espressif`, `Handshake.C61_cc1352p7`, `PeerGone.C61_sim7x00_leaves`, `PeerGone.C61_sim7x00_gone`, `PeerGone.C61_sim7x00_noticed`.

**C62 A connected driver and a modem that buffers data lose nothing between them** (proved). Driver and modem back to back (`Spec/Modem.lean`): the modem is a state machine that hears every byte the driver sends, recognises the commands for data, answers them, and keeps two queues. `Proto` (`Lemmas/Proto.lean`) lists the situations both may be in together (quiet, command sent, prompt awaited, payload under way, answer awaited, block under way, ...) with the contents of all buffers; `Lemmas/Net*.lean` shows for each driver that every act leads from one to another. The start state is the end of any sequence of handshakes and visits of C44/C45. The modem is Spec/Modem.lean. Lines and blocks of data arrive in arbitrary pieces, each after the transmit buffer was emptied and followed by run(); the modem takes data from the server between its own lines. Amounts below 2^31. Espressif with UDP or SSL is excluded (data is pushed there, see C48).
  Theorems: `Traffic.C62_sim7x00`, `Traffic.C62_sim800`, `Traffic.C62_espressif`, `Traffic.C62_cc1352p7`.

**C63 Everything that was written is sent and everything the server sent can be read** (proved). A measure (bytes in the modem, write buffer, read buffer, block, and the situation) does not grow by any act without new data, and decreases in every round in which something is under way. While a line is under way the driver has a part of it in its line buffer (`Mid`); the state of the modem changes when the line is complete. `exists_rounds`: from every state there are as many rounds as one likes. As C62; a round ends when the line under way is complete, and exists_rounds shows that from every state there are as many rounds as needed; Espressif and CC1352P7 modems announce all data that arrives, with the amount that waits; SIM modems may be silent while data waits. disconnect() follows after the rounds; nothing is claimed here about a disconnect() while data is under way.
  Theorems: `Traffic.C63_sim7x00`, `Traffic.C63_sim7x00_close`, `Traffic.C63_sim800`, `Traffic.C63_sim800_close`, `Traffic.C63_espressif`, `Traffic.C63_espressif_close`, `Traffic.C63_cc1352p7`, `Traffic.C63_cc1352p7_close`.

**C64 The bytes on the serial line are those the driver and the application handed over** (proved). Ghost streams of the serial device related to the trace, step by step (`Lemmas/Wire.lean`); a block of payload is never longer than the transmit buffer and is the only thing sent in its `run()` (`Lemmas/PayFits.lean`). _drained: hypothesis that the transmit buffer is empty when a run() begins that sends payload. _overrun: concrete histories in which a prompt and the answer to a status request come before the command has left.
  Theorems: `Wire.C64_sim7x00`, `Wire.C64_sim7x00_drained`, `Wire.C64_sim7x00_overrun`, `Wire.C64_sim800`, `Wire.C64_sim800_drained`, `Wire.C64_sim800_overrun`, `Wire.C64_espressif`, `Wire.C64_espressif_drained`, `Wire.C64_espressif_overrun`, `Wire.C64_cc1352p7`, `Wire.C64_cc1352p7_drained`, `Wire.C64_cc1352p7_overrun`.

**C65 disconnect() lets accepted data go first** (proved). Invariant `Dry`: in the states of reception the write buffer is empty and `write()` accepts nothing (`Lemmas/Dry.lean`); then cases on the state in which the request is taken up. With C34 for the bytes sent. _late: concrete histories for the data accepted too late.
  Theorems: `Closing.C65_sim7x00`, `Closing.C65_sim7x00_sent`, `Closing.C65_sim7x00_late`, `Closing.C65_sim800`, `Closing.C65_sim800_sent`, `Closing.C65_sim800_late`, `Closing.C65_espressif`, `Closing.C65_espressif_sent`, `Closing.C65_espressif_late`, `Closing.C65_cc1352p7`, `Closing.C65_cc1352p7_sent`, `Closing.C65_cc1352p7_late`.

**C66 Data go to the peer they were written for** (proved). Witness histories; the positive part follows from C34 for the events after `resetStates()`. _leak: concrete histories with two hosts.
  Theorems: `Closing.C66_sim7x00_leak`, `Closing.C66_sim7x00`, `Closing.C66_sim800_leak`, `Closing.C66_sim800`, `Closing.C66_espressif_leak`, `Closing.C66_espressif`, `Closing.C66_cc1352p7_leak`, `Closing.C66_cc1352p7`.

**C67 Recovery after refusals** (proved). The plan of a driver (`Spec/Recovery.lean`) lists the steps, the refusals possible at each step, what is said upon a refusal and the step where the driver goes on. Lemmas for a refusal at each step (`Lemmas/Recover*.lean`), then induction on the list of setbacks. After a refusal (SIM800, CC1352P7: also after the answer to the closing) the driver is given two calls of run() before the modem speaks again.
  Theorems: `Recovery.C67_sim7x00`, `Recovery.C67_sim800`, `Recovery.C67_espressif`, `Recovery.C67_cc1352p7`.

**C68 disconnect() while a connection is opened** (proved). The dialogue after `disconnect()` (`Spec/Abort.lean`) is the rest of the opening up to the point where the driver looks at the request, followed by the closing. The stages of the opening carry the request as a parameter (`StageD` in `Lemmas/Chat*.lean`); `Lemmas/Abort.lean` proves the turning points. SIM800 stuck: invariant over any list of lines. After each answer that follows disconnect() the driver is given two calls of run() before the modem speaks again. C68_sim800_stuck is the refuted part.
  Theorems: `Abort.C68_sim7x00`, `Abort.C68_sim800`, `Abort.C68_espressif`, `Abort.C68_cc1352p7`, `Abort.C68_sim800_stuck`.

**C69 Questions to the modem are answered** (proved). Questions (`Spec/Asking.lean`) are dialogues of two answers. The state while waiting (`Holds` in `Lemmas/Asking.lean`) keeps a condition on the signal strength and the text buffers; `ask_sent`, `ask_value`, `ask_ok` in `Lemmas/Asking*.lean` are the three steps, for idle and connected drivers at once. `Lemmas/Tours.lean`: visits with questions before and during them, by induction. The last six are witnesses for the refuted part. Before an identification only lines that start with a plus sign, AT or are empty may come. requestMac(): where char is unsigned (C54).
  Theorems: `Asking.C69_sim7x00`, `Asking.C69_sim7x00_connected`, `Asking.C69_sim800`, `Asking.C69_sim800_connected`, `Asking.C69_espressif`, `Asking.C69_espressif_connected`, `Asking.C69_cc1352p7`, `Asking.C69_cc1352p7_connected`, `Asking.C69_espressif_long`, `Asking.C69_espressif_comma`, `Asking.C69_sim7x00_ring`, `Asking.C69_sim800_ring`, `Asking.C69_sim7x00_iccid`, `Locked.C69_espressif_mark`.

**C70 Answers are waited for** (proved). `Awaited` (`Spec/Answer.lean`) is a property of the trace with a table of questions and of the lines that answer them. `QuestInv` (`Lemmas/Answer.lean`): while the last question of the trace is open, the driver's expected reply is the one for it; kept by every step (`Lemmas/AnswerDev.lean`); for the ICCID together with the invariant of C41 (`Lemmas/AnswerIccid.lean`). The last two are witnesses for the refuted part. Which lines count as the value is in Spec/Answer.lean: for identifications every line that starts neither with AT nor a plus sign nor a carriage return, so OK as well; on SIM800 such a line also ends the wait for the signal strength, on CC1352P7 a MAC address does. C70_sim800_iccid excludes requestRSSI() (C41).
  Theorems: `Answer.C70_sim7x00`, `Answer.C70_sim800`, `Answer.C70_espressif`, `Answer.C70_cc1352p7`, `Answer.C70_sim7x00_iccid`, `Answer.C70_sim800_iccid`, `Answer.C70_sim7x00_second`, `Answer.C70_sim800_second`.

**C71 An attached modem is detected and can be used** (proved). The detector is extended with calls of other driver functions (`DOp.app`). `Waits` (`Lemmas/Detect.lean`): the detector's state, the partial line and what was sent; one lemma for a piece of a line, one for a whole line; the whole detection is `search_*` (`Lemmas/Detected.lean`). The driver it constructs satisfies the same predicate `Down` as one constructed on a fresh port, and `forward_*` turns histories of the detector into histories of the driver, so the lemmas of C61 and C69 apply. The last one is the witness for the refuted part. Lines have at most 60 bytes and neither zero bytes nor a prompt character; the rest of the answer to the query must not contain a line that the driver takes for a modem error.
  Theorems: `Detect.C71_sim7x00`, `Detect.C71_sim800`, `Detect.C71_espressif`, `Detect.C71_cc1352p7`, `Detect.C71_sim7x00_used`, `Detect.C71_sim800_used`, `Detect.C71_espressif_used`, `Detect.C71_cc1352p7_used`, `Detect.C71_cc1352p7_early`.

**C72 Blocking calls on a driver** (proved). `BDev` of the model of `BlockingCommDevice` is instantiated with driver and modem of C61 (`World.blocking`); the clock is any function of the number of polls, what happens in a yield any function of the situation (`Spec/Block.lean`). Soundness: the invariant `Joined` of C61 goes through the loops, `Kept` (`Lemmas/Proto.lean`) says which buffers an operation leaves alone. Ending: each pause is a round of C61 without a read, so the measure `effort` falls unless the read buffer is full (`Lemmas/Block.lean`, generic in `Serves`; `Lemmas/Blocks.lean`, the drivers). The last two of each driver are witnesses for the refuted parts. Same modem as in C61; Espressif: TCP.
  Theorems: `Block.C72_sim7x00_read`, `Block.C72_sim7x00_read_ends`, `Block.C72_sim7x00_write`, `Block.C72_sim7x00_write_ends`, `Block.C72_sim7x00_stuck`, `Block.C72_sim7x00_zero_but_sent`, `Block.C72_sim800_read`, `Block.C72_sim800_read_ends`, `Block.C72_sim800_write`, `Block.C72_sim800_write_ends`, `Block.C72_sim800_stuck`, `Block.C72_sim800_zero_but_sent`, `Block.C72_espressif_read`, `Block.C72_espressif_read_ends`, `Block.C72_espressif_write`, `Block.C72_espressif_write_ends`, `Block.C72_espressif_stuck`, `Block.C72_espressif_zero_but_sent`, `Block.C72_cc1352p7_read`, `Block.C72_cc1352p7_read_ends`, `Block.C72_cc1352p7_write`, `Block.C72_cc1352p7_write_ends`, `Block.C72_cc1352p7_stuck`, `Block.C72_cc1352p7_zero_but_sent`.

**C73 Bytes that arrive early wait for their turn** (proved). `Ser.more`/`Dev.more` store bytes at the end of the receive buffer; every operation of a driver is shown to commute with it (`Lemmas/Early.lean`, `EarlySim.lean`, `EarlyWifi.lean`) unless it reads the number of bytes available. `Lemmas/EarlyInv.lean`: a newline in the buffer completes the line (`fillLoop_done`), a step never has more bytes waiting than before (`Eff.low`), and both hold in all histories. Equality of the whole states, including everything sent and delivered. `_ask` is the witness that the exception is needed. Interrupts happen between calls; C01-C05 treat interrupts inside calls.
  Theorems: `Early.C73_sim7x00_line`, `Early.C73_sim7x00_block`, `Early.C73_sim7x00_ask`, `Early.C73_sim800_line`, `Early.C73_sim800_block`, `Early.C73_sim800_ask`, `Early.C73_espressif_line`, `Early.C73_espressif_block`, `Early.C73_espressif_ask`, `Early.C73_cc1352p7_line`, `Early.C73_cc1352p7_block`, `Early.C73_cc1352p7_ask`.

**C74 The answer to a request for data fits into the receive buffer** (proved). The amount asked for comes from C37 (`n + 30` places are free after the call); the length of the answer is computed with `decimals_length`; that bytes that fit are stored is `Ser.Still.arrive` (`Lemmas/Early.lean`). SIM drivers: a history evaluated in the kernel. The last two are witnesses for the refuted part. The header is the one described in the comment of the code (the modem may answer with fewer bytes than asked for).
  Theorems: `Fits.C74_espressif`, `Fits.C74_cc1352p7`, `Fits.C74_sim7x00`, `Fits.C74_sim800`.

**C75 Nothing is lost when modem and driver do not wait for each other** (proved). `Spec/Cable.lean` puts a queue of bytes between the modem of C62 and the driver. The proof keeps the modem as the driver knows it, the modem as it is, and a derivation (`Path`, `Lemmas/Path.lean`) that the bytes in between are what the former says to become the latter; a step of `run()` moves the former along (`Holds.run`, `Lemmas/Cable.lean`), with C73-like lemmas per driver (`Lemmas/Cable7x00.lean` etc.) for bytes that arrive early, including the case that they reduce the amount asked for. Progress: the measure of C63 plus what the server has sent meanwhile. The cable has flow control (bytes arrive only while the receive buffer has room; without it, C74 shows the loss) and the transmit buffer has been emptied when run() is called. A round ends when everything said has arrived and was read; _reads shows that this is reached, _rounds that rounds always exist.
  Theorems: `Cable.C75_sim7x00`, `Cable.C75_sim7x00_reads`, `Cable.C75_sim7x00_settles`, `Cable.C75_sim7x00_close`, `Cable.C75_sim7x00_rounds`, `Cable.C75_sim800`, `Cable.C75_sim800_reads`, `Cable.C75_sim800_settles`, `Cable.C75_sim800_close`, `Cable.C75_sim800_rounds`, `Cable.C75_espressif`, `Cable.C75_espressif_reads`, `Cable.C75_espressif_settles`, `Cable.C75_espressif_close`, `Cable.C75_espressif_rounds`, `Cable.C75_cc1352p7`, `Cable.C75_cc1352p7_reads`, `Cable.C75_cc1352p7_settles`, `Cable.C75_cc1352p7_close`, `Cable.C75_cc1352p7_rounds`.

**C76 Data blocks that are bigger than the serial receive buffer** (proved). Invariant `Large` (`Lemmas/Large.lean`): the state machine waits for a block of more bytes than the ring has places; it is kept by every call but `disconnect()` and `resetStates()`. `_room`: `Roomy` (`Lemmas/Roomy.lean`) ties the payload due to the number in the open request, using C36's bookkeeping and that two looks at the fill level agree when no bytes arrive. `_reachable`: a whole history, evaluated in the kernel, followed by `_never`. The reachable cases use a receive buffer of 80 places and one burst of 78 bytes at a chosen access to the serial buffers. For datagrams the driver may still send one command that was due.
  Theorems: `Large.C76_sim7x00_never`, `Large.C76_sim7x00_room`, `Large.C76_sim7x00_reachable`, `Large.C76_sim7x00_rescue`, `Large.C76_sim800_never`, `Large.C76_sim800_room`, `Large.C76_sim800_reachable`, `Large.C76_sim800_rescue`, `Large.C76_espressif_never`, `Large.C76_espressif_room`, `Large.C76_espressif_reachable`, `Large.C76_espressif_rescue`, `Large.C76_cc1352p7_never`, `Large.C76_cc1352p7_room`, `Large.C76_cc1352p7_reachable`, `Large.C76_cc1352p7_rescue`, `Large.C76_espressif_datagram`, `Large.C76_espressif_lost`.

**C77 How often run() has to be called so that no received byte is lost** (proved). `Backlog k c` (`Lemmas/Polled.lean`): the bytes in the receive buffer and in the line buffer together are bounded by `k` and the `c` bytes that came since the last call, or by the payload that is due and `k` more. One call of `run()` brings `c` back to 0: it takes a line, which is at least as long as what came, or the whole block (`Lemmas/Polled<Driver>.lean`). `Primed`: while payload is due nothing keeps the state machine from fetching it. C76's room for payload gives the bound while a block is due. `_flood`: a whole history, evaluated in the kernel. Espressif with TCP only. The bound on k comes from the places a data request leaves free in the receive buffer.
  Theorems: `Served.C77_sim7x00`, `Served.C77_sim7x00_flood`, `Served.C77_sim800`, `Served.C77_sim800_flood`, `Served.C77_espressif`, `Served.C77_espressif_flood`, `Served.C77_cc1352p7`, `Served.C77_cc1352p7_flood`.

**C78 How long a driver sleeps and how soon it is run again** (proved). `Paced` (`Lemmas/Pace<Driver>.lean`): the invariant of C30 (which state machine states belong to an open connection) together with the delay in each of them. `next_run` (`Lemmas/PaceSched.lean`): the time of the last run is kept until the next one; the first call at which the delay has passed is at most `B` late, and one of the `n` calls from there on examines the task. `system_reach`: in every state of the system the driver has some history, and its task has its delay. `_boot`: a whole history, evaluated in the kernel. Interrupts and calls from outside the tasks count as part of the next task that is run.
  Theorems: `Pace.C78_period`, `Pace.C78_sim7x00_delay`, `Pace.C78_sim7x00_reaction`, `Pace.C78_sim800_delay`, `Pace.C78_sim800_reaction`, `Pace.C78_espressif_delay`, `Pace.C78_espressif_reaction`, `Pace.C78_cc1352p7_delay`, `Pace.C78_cc1352p7_reaction`, `Pace.C78_sim7x00_boot`.

**C79 No more connections are opened than were asked for** (proved). `Budget` (`Lemmas/Budget<Driver>.lean`): the driver owes at most as many openings (one if it is between the first command of a connection and the opening, one for a pending request, one for a pending restart) as requests and failures exceed the openings so far. The observer `tally` computes that difference; a step of `run()` may move what is owed from one place to another. SIM7x00: `+NETOPEN: 1` leads back to an earlier command, hence the reply state counts too; a line `+CIPOPEN: 0,0` is no failure because it is what the driver waits for. `_twice`, `_revoked`: whole histories, evaluated in the kernel. A failure is a line that begins with one of the given texts, whether or not the driver reacts to it.
  Theorems: `Budget.C79_sim7x00_openings`, `Budget.C79_sim7x00_twice`, `Budget.C79_sim7x00_revoked`, `Budget.C79_sim800_openings`, `Budget.C79_sim800_twice`, `Budget.C79_sim800_revoked`, `Budget.C79_espressif_openings`, `Budget.C79_espressif_twice`, `Budget.C79_espressif_revoked`, `Budget.C79_cc1352p7_openings`, `Budget.C79_cc1352p7_twice`, `Budget.C79_cc1352p7_revoked`.

**C80 Idle only after the modem reported the end of the connection** (proved). `Ended` (`Lemmas/Ended<Driver>.lean`): the observer `Signs.phase` is either `shut` or the send state fits the phase: while the link is `opened` the connect state is not `notConnected`, while it is `closing` or `restart` the driver waits for the confirmation. Proved section by section of `run()`. SIM800: `exec_core` leaves out the section for a serial device that cannot be opened, `C80_sim800_forgotten` shows that it has to. `_since` unfolds the observer: nothing but the listed lines and `resetStates()` leads back to `shut`. Lines are counted that begin with one of these texts, see Spec/Ended.lean.
  Theorems: `Ended.C80_sim7x00_idle`, `Ended.C80_sim7x00_since`, `Ended.C80_sim800_idle`, `Ended.C80_sim800_since`, `Ended.C80_espressif_idle`, `Ended.C80_espressif_since`, `Ended.C80_cc1352p7_idle`, `Ended.C80_cc1352p7_since`, `Ended.C80_sim7x00_unconfirmed`, `Ended.C80_sim800_forgotten`, `Ended.C80_cc1352p7_again`.

**C81 Ticks follow the time** (proved). The result of a floating point operation is `rnd` of the exact rational result. With `Rounding` (monotone, exact on natural numbers up to 2^53) the milliseconds lie between the rounded down and the rounded up fraction (`tickMs_between`), which gives order and accuracy; `C81_linux_delay` is C18 for the sequence of these milliseconds. `C81_none`: induction, every `lastRun` stays 0. Two roundings are shown to meet `Rounding` in Spec/Clock.lean. Readings whose milliseconds are at most 2^53, which a double represents exactly.
  Theorems: `Clock.C81_linux_accuracy`, `Clock.C81_linux_elapsed`, `Clock.C81_linux_delay`, `Clock.C81_linux_due`, `Clock.C81_linux_early`, `Clock.C81_none`.

**C82 Datagrams are delivered whole and in order** (proved). Joint invariant `Held` of driver and modem (`Lemmas/Datagrams.lean`): the part of a line in the line buffer, the receive buffer and what is on its way are together the rest of what the modem said (`Mode`), and what was read plus the read buffer are whole datagrams (`Base`). Every round takes something off the measure `left`. `_hollow`: invariant `Hollow` (`Lemmas/Hollow.lean`), as C48. The application does not write meanwhile (C48: that can be the end). Other lines have no colon and none of the meanings of the driver.
  Theorems: `Datagrams.C82_espressif_inorder`, `Datagrams.C82_espressif_delivered`, `Datagrams.C82_espressif_hollow`, `Datagrams.C82_espressif_lost`.

**C83 A task with reentrant macros behaves like a thread** (proved). `Model/Duff.lean` expands the macros to statements with `case` labels and executes them as C does, the `switch` jumping into nested statements. `Spec/Thread.lean` executes the text of the user with a stack and no labels. Proof (`Lemmas/Duff.lean`): simulation in both directions; the invariant `Placed` says that for everything on the stack of the thread the `switch` finds the labels in exactly this context. The numbers of the macros differ and are below 256 (else C20). Variables of run() itself are not modelled; they must not be used across macros.
  Theorems: `Thread.C83_thread`, `Thread.C83_determined`, `Thread.C83_end`, `Thread.C83_return`, `Thread.C83_break`, `Thread.C83_unbraced`.

**C84 Under one scheduler with a polled serial device no byte is lost while the driver is awake** (proved). `Spec/Linux.lean`: the system of tasks of C78 with the serial device as one of them; `history` is the list of everything that happens to the driver in the first `k` calls of `runTask()`. Proof (`Lemmas/Linux.lean`): the tasks are visited in a circle; a byte is pending only while the scheduler is on its way from the serial device to the driver, so the history is `Polled 1` and C77 applies. Lines are never empty (C38), delays are those of C78. Conditions as in C77: 20 free places in the transmit buffer when run() is called, a modem that sends no more payload than asked for and no empty block. Espressif: TCP.
  Theorems: `Linux.C84_sim7x00`, `Linux.C84_sim7x00_connected`, `Linux.C84_sim800`, `Linux.C84_espressif`, `Linux.C84_cc1352p7`, `Linux.C84_sim7x00_asleep`.

**C85 The example for IP communication keeps the rules of the interface** (proved). `Model/Client.lean`: the text of `run()` over any interface `Api`, its calls logged with the answers `isConnected()` and `bytesAvailable()` would give at that moment; `driver` is the interface of each driver. By C83 the expanded text behaves like a thread; `Lemmas/Rely.lean` gives rules for threads among other actors (assertions stable under what the others do), `Lemmas/Client.lean` applies them to the task. For `disconnect()` with nothing left: a driver that is fetching data reports to be connected (`Tie` in `Lemmas/Lasting.lean`, invariant of every call), so a single run() either stores no data or leaves the driver connected, and the task then reads before it looks at the connection again. The scheduler runs the tasks in turn (C17, C19), and a task that waits has delay 0, so a driver is run once between two turns of the task unless the application runs it elsewhere. The detector is a flag that may change at any time; getDetectedModem() hands over a driver with any history (the detector itself: C50, C71).
  Theorems: `Client.C85_order`, `Client.C85_sim7x00`, `Client.C85_sim800`, `Client.C85_espressif`, `Client.C85_cc1352p7`, `Client.C85_sessions`, `Client.C85_silent_sim7x00`, `Client.C85_silent_sim800`, `Client.C85_silent_espressif`, `Client.C85_silent_cc1352p7`, `Client.C85_hangs`, `Client.C85_unread`, `Client.C85_zero`.

**C86 The IP communication example as a whole program** (proved). `Model/Program.lean`: `main()` as a state of the scheduler model with three bodies. `Going` in `Lemmas/Program.lean` is the invariant of `runTask()`: between two turns of the task there is at most one run of the detector (`Between`), and the turns so far are calls of the expanded text; with this the rules of C85 (`Side`) apply, the driver being created by the detector on the way (`Sound` in `Lemmas/Detector.lean`). `Lemmas/Returns.lean`: the text has no loop without a return except the one that reads, and that shrinks the buffer. The run() functions are given by Bodied: the task by its expanded text, the detector and the serial device by their models. C86_bodies shows that such functions exist. A driver is run once between two turns of the task because the scheduler goes round and the task has delay 0; this discharges the assumption of C85. System calls of UnixSerial are the environment: a byte or none in each direction per call.
  Theorems: `Program.C86_program`, `Program.C86_returns`, `Program.C86_bodies`, `Program.C86_session`.

**C87 The end-of-line test ends with a verdict** (proved). `Model/Ntp.lean`: text of `run()` with `E_REENTER_COND_TIMEOUT`; `exit()` leaves a `do … while (false)` around the body. `Lemmas/Ntp.lean`: the text is executed symbolically label by label (`Reach`), giving for each of the four waits what a call leads to; invariant `Inv` over calls with the time of the call and the beginning of the wait as natural numbers, the 32 bit ticks being their residues. exit() is the end of the task in the model. The detector and driver are any values of the interface Client.Api; C87_passes uses the driver of the CC1352P7. Byte order of the host is that of a PC. main() with its arguments is not modelled.
  Theorems: `Ntp.C87_returns`, `Ntp.C87_ends`, `Ntp.C87_verdict`, `Ntp.C87_patience`, `Ntp.C87_time`, `Ntp.C87_short`, `Ntp.C87_passes`.

**C88 Nothing gets stuck in the serial port of mbed** (proved). `Model/Mbed.lean`: port with the handlers of its two interrupts. `Lemmas/Mbed.lean`: a history of it is a history of an STM32 UART that is always open (`up_exec`), so the invariants of C51 apply; the receiving side and the clock by induction. mbedserial.cpp:99 calls a function that does not exist; it is read as bytesAvailable(). mbed itself is an assumption (Model/Mbed.lean). C88_stream and C88_drains are about the sized writes: write(uint8_t) does not check for space (C51).
  Theorems: `Mbed.C88_armed`, `Mbed.C88_stream`, `Mbed.C88_accepts`, `Mbed.C88_drains`, `Mbed.C88_off`, `Mbed.C88_hears`, `Mbed.C88_always_open`, `Mbed.C88_config`, `Mbed.C88_clock`, `Mbed.C88_delay`, `Mbed.C88_due`, `Mbed.C88_early`.

**C89 The event loop example keeps the rules, but may end too early** (proved). `Model/EventLoop.lean`: the loop over the detector and driver of C86. `Lemmas/EventLoop.lean`: invariant over turns with three phases (no driver yet; connecting, nothing to read; talking), event by event; the facts about detector and drivers are those of C86. `program` puts the loop on the scheduler of C09 with the two tasks of the Linux program; `program_loop` shows that each call of runTask() is one of the passes. runTask() is any sequence of interrupts and at most one run of the detector. C89_cut has all bytes of the answer in the serial buffer when the driver is run, as may happen on the STM32; on Linux, where a byte is moved in every second turn, the driver seldom finds more than one byte and such a loss is not shown.
  Theorems: `EventLoop.C89_rules`, `EventLoop.C89_left`, `EventLoop.C89_complete`, `EventLoop.C89_cut`, `EventLoop.C89_scheduler`, `EventLoop.C89_linux`.

**C90 The blocking example reads until two seconds of silence** (proved). `Model/BlockingProgram.lean`: `main()` over `Model/Blocking.lean`, the SIM7x00 driver and the scheduler. `Spec/BlockingProgram.lean`: what a blocking read or write may do, from the readings of the clock and the calls of the driver. `Lemmas/BlockingProgram.lean`: induction over the turns of each loop. `Lemmas/BlockingDriver.lean`: the driver's own record of what was read is that of the program (then C36); a driver that hears nothing sees no line (then C30). Partial correctness: each loop of the program has a number of turns as parameter, and C90_order and C90_integrity speak of executions that have ended. C90_pause is a session byte by byte, evaluated in the kernel.
  Theorems: `BlockingProgram.C90_order`, `BlockingProgram.C90_silence`, `BlockingProgram.C90_integrity`, `BlockingProgram.C90_pace`, `BlockingProgram.C90_mute`, `BlockingProgram.C90_pause`.

**C91 The serial example alternates command and answer** (proved). `Model/SerialTask.lean`: the text of `run()` with the macros, the buffered serial device, the scheduler. `Lemmas/SerialTask.lean`: a proof in the logic for threads (`Lemmas/Rely.lean`, justified by C83), the queue model of the serial device (C08); every call is followed to its end for the pause; the scheduler's calls are calls of the thread. exit(1) does not return: the rest of run() is in the other branch in the model. What setSerialConfig() and open() answer is a parameter.
  Theorems: `SerialTask.C91_task`, `SerialTask.C91_program`, `SerialTask.C91_pace`, `SerialTask.C91_returns`, `SerialTask.C91_bodies`, `SerialTask.C91_split`, `SerialTask.C91_mute`.

**C92 The clients with a counted loop** (proved). `Model/Counted.lean`: the text of `run()` with the macros, for any driver. `Lemmas/Counted.lean`: the order of the calls in the logic for threads (justified by C83); every call is followed to its end (by induction on the rounds left) for the bound on the number of calls. One model with a parameter for the differences of the two examples. The port the STM32 prints to is not modelled. The FreeRTOS example has the same loop but is no task of the library; it is not modelled.
  Theorems: `Counted.C92_drivers`, `Counted.C92_order`, `Counted.C92_limit`, `Counted.C92_bounded`, `Counted.C92_pace`, `Counted.C92_kinds`, `Counted.C92_prints`, `Counted.C92_returns`, `Counted.C92_impatient`, `Counted.C92_long`, `Counted.C92_mute`.

**C93 The scheduler example prints its messages in time** (proved). `Model/TwoTasks.lean`: the texts of both `run()` functions with the macros, and the scheduler. `Lemmas/TwoTasks.lean`: each call is computed from each point at which a task may rest; an invariant of the program relates the messages and their times to these points, the delays and the last runs. The text of the messages is replaced by names.
  Theorems: `TwoTasks.C93_order`, `TwoTasks.C93_spaced`, `TwoTasks.C93_prompt_one`, `TwoTasks.C93_prompt_two`, `TwoTasks.C93_bodies`.

**C94 The sequence example publishes numbered packets every four seconds, except when the clock wraps around** (proved). `Model/Sequence.lean`: the endless loop with the durations of the calls of the MQTT client as parameters; the tick is the time modulo 2^32. `Lemmas/Sequence.lean`: induction on the turns of both loops; the low byte of the generator depends on low bytes only. The MQTT client is not in the repository: the durations of its calls are parameters, and its effects are not modelled. Time passes in its calls only. The packet number is stored through a cast pointer; alignment and aliasing are not modelled.
  Theorems: `Sequence.C94_packets`, `Sequence.C94_spaced`, `Sequence.C94_prompt`, `Sequence.C94_stall`, `Sequence.C94_never`, `Sequence.C94_repeat`.

**C95 The NTP examples print the time of the server if its answer comes in one piece** (proved). `Model/NtpClient.lean`: the text of `run()` with the macros, with the statements of `Model/Ntp.lean`. `Lemmas/NtpClient.lean`: the logic for threads (justified by C83); byteSwap() bit by bit. The order of the bytes in memory is that of a PC and of the STM32. The position of memset among the calls is that of the Linux example.
  Theorems: `NtpClient.C95_order`, `NtpClient.C95_drivers`, `NtpClient.C95_time`, `NtpClient.C95_short`, `NtpClient.C95_mute`, `NtpClient.C95_returns`, `NtpClient.C95_swap`.

**C96 Bytes go through a Linux serial port in order, also over closing and opening** (proved). `Model/UnixSerial.lean`: the port of C60, the buffers of C11-C16 without interrupts, and the input queue of the operating system. The invariant is that of the buffers (`Ser.Rep`), kept by every call; for `closed` and `moves` also `Tidy` of C60. The rest is induction over the history. The operating system is an input queue and an answer to each ::write; see the head of Model/UnixSerial.lean.
  Theorems: `UnixSerial.C96_out`, `UnixSerial.C96_in`, `UnixSerial.C96_in_all`, `UnixSerial.C96_closed`, `UnixSerial.C96_moves`, `UnixSerial.C96_kept`, `UnixSerial.C96_half`, `UnixSerial.C96_stale`.

**C97 What printf sends in the examples for the STM32** (proved). `Model/Printf.lean`. `Late r d q` (`Lemmas/Printf.lean`): with the counter raised by `d` the buffer represents the queue `q`; kept by push and pull. After `e` pushes onto a full buffer of `n` bytes and `n` pulls, `Late` holds with `d = e`; reading the cells round the buffer gives what was sent. The bytes printf makes of its arguments are not modelled: a text is what it hands to _putchar().
  Theorems: `Printf.C97_fits`, `Printf.C97_over`.

**C98 The MQTT examples wait for each of their messages** (proved). `Model/MqttHello.lean`: the part of `main()` with the client; what a call of the client does may depend on all calls before it. `Lemmas/MqttHello.lean`: induction over the turns of the loop. The MQTT client is not part of the repository; it is a parameter.
  Theorems: `MqttHello.C98_text`, `MqttHello.C98_each`, `MqttHello.C98_lost`, `MqttHello.C98_foreign`, `MqttHello.C98_failed`.

**C99 writeBufferProcessed() waits for the confirmation of the modem** (proved). `Spec/Confirmed.lean`: an observer of the trace that knows whether payload is unconfirmed. `Lemmas/Confirmed*.lean`: while it is, the driver is in state transmitting and waits for the confirmation; invariant over all sections of `run()` and all API calls. C99_sim7x00_failed is the witness for the refuted expectation.
  Theorems: `Confirmed.C99_sim7x00`, `Confirmed.C99_sim800`, `Confirmed.C99_espressif`, `Confirmed.C99_cc1352p7`, `Confirmed.C99_sim7x00_failed`.

## 6. Findings

Behaviour of the code that a user would not expect. In brackets the theorem that proves it; without brackets: seen
while modelling, not stated as a theorem.

Buffers, serial port, scheduler

1. A single push onto a full ring replaces the oldest element without moving the read position; a pull from an empty ring shifts the stream for good [`Ring.C04_order_broken`, `Ring.C05_desync`].
2. The line counter is a 16 bit number and wraps [`Serial.C08_wrap`].
3. `readLine` keeps the newline, contrary to its documentation [`Serial.C10_newline_kept`].
4. Critical sections do not nest: interrupts are enabled unconditionally [`Serial.C16_not_nested`].
5. On overflow the newest received byte is lost [`Serial.C14_overflow_step`].
6. The scheduler fails on an empty list [`Sched.C17_empty_list`]. The resume point of reentrant tasks is static, shared by all objects of a class [`Reenter.C23_shared_entrypoint`]. Labels above 255 are truncated [`Reenter.C20_label_wrap_repeats`]. A `return` of the user's own, a `break` outside of loops and a macro as the body of an `if` without braces repeat parts of a task [`Thread.C83_return`, `Thread.C83_break`, `Thread.C83_unbraced`].
7. The MQTT countdown fails across a wrap of the tick; seconds times 1000 overflows [`Countdown.C24_wrap_expired_at_once`, `C24_wrap_never_expires`, `C24_seconds_overflow`].
8. A blocking write may return 0 although data were sent [`Blocking.C27_zero_but_sent`]; timeout -1 never expires [`Blocking.C26_minus_one_never_expires`].

Drivers: sending

9. The announced size is printed into five digits; from 100000 bytes on it is wrong [`Payload.C34_digits_wrong`]. Commands are begun with 20 bytes of space although they may be longer; they are then cut [`Whole.C56_*_cut`, `C56_*_reset`].
10. SIM7x00 and SIM800: a message that the peer closed the connection, instead of the prompt, releases the payload, which the modem then takes for commands [`Payload.C33_*_unprompted`].
11. A pending request for signal strength, identification or MAC address is sent between prompt and payload [`Payload.C35_*`].
12. The amount to send is computed from the free space seen before; transmit interrupts in between make the stream differ [`Payload.C34_*_race`].
13. `sendData()` does not check for space in the transmit buffer. If the prompt comes before the command has left, and other commands were sent meanwhile, payload overwrites them [`Wire.C64_*_overrun`].
14. Data accepted by `write()` in the moment when the driver starts to disconnect, or left over after an error, are sent to the peer of the next connection [`Closing.C65_*_late`, `Closing.C66_*_leak`].

Drivers: receiving

15. The modem decides how much it delivers; data beyond the free space overwrite older data [`Receive.C36_*_overwritten`]. The amount asked for may be too big if the application buffer is filled meanwhile [`Receive.C37_*_race`].
16. A reply with 0 bytes switches line reading off for ever [`Wedge.C49_*`, `Hollow.C49_*`]. An announcement of UDP data while the Espressif driver waits for a reply blocks it [`Wedge.C48_*`].
17. Counts of announced data survive a disconnect [`Stale.C57_*`].
18. If an announcement replaces a larger count while a request is outstanding, the subtraction wraps to about 2^64 (Espressif, CC1352P7) [`Locked.C57_*_wrap`].
19. Data blocks bigger than the serial receive buffer are never complete [`Large.C76_*_never`]; drivers ask for such blocks if bytes arrive between two looks at the fill level [`Large.C76_*_reachable`], and a big datagram does the same to the WiFi driver [`Large.C76_espressif_lost`].

Drivers: connection

20. An error line makes idle SIM800 and CC1352P7 drivers connect [`Rest.C31_*_unasked`]. An error while they close makes them connect again [`Quit.C46_sim800_again`, `Quit.C46_cc1352p7_again`].
21. An error makes the SIM7x00 driver forget a requested disconnect [`Quit.C46_sim7x00_forgotten`].
22. A second `disconnect()` while closing aborts the next connection [`Stale.C58_*`].
23. SIM7x00 does not notice that the peer closed the connection while it is idle [`Handshake.C61_sim7x00`]. If it notices, because it was fetching data, it becomes neither connected nor idle until the application asks for something [`PeerGone.C61_sim7x00_gone`].
24. A single failed `open()` of the port makes the drivers unusable [`Wedge.C47_*`].
25. `connect()` while connected leads to another connection after the next disconnect; `connect()`, `disconnect()` before the first `run()` ignores the latter (`C79_<driver>_twice`, `C79_<driver>_revoked`).
26. SIM800: `disconnect()` during CIPSTART followed by CONNECT FAIL leaves the driver waiting [`Abort.C68_sim800_stuck`].
27. SIM7x00: +IPCLOSE during NETCLOSE makes the driver idle before the confirmation [`Ended.C80_sim7x00_unconfirmed`]. SIM800: a serial device that cannot be opened makes the driver forget an open connection [`Ended.C80_sim800_forgotten`].
28. CC1352P7: ERROR as answer to CIPCLOSE is repeated for ever [`Ended.C80_cc1352p7_again` for three times].

Drivers: parsing and requests

29. `+CDNSGIP` with an address longer than 15 characters overflows a buffer [`Parse.C42_overflow`]. A failed query leaves the driver waiting [`Answer.C70_*`].
30. SIM800 parses the reply to the signal strength request as an identification, too [`Iccid.C41_sim800_replaced`].
31. `requestMac()` has no effect where `char` is signed [`MacQuery.C54_*_signed`]; `resetStates()` keeps a MAC address and the delay [`DriverApi.C43_mac_survives`, `C43_delay_survives`].
32. RSSI values wrap modulo 2^32 for long numbers [`Parse.C40_wrap`]; CC1352P7 differs for negative numbers [`Parse.C40_cc_negative`]. An Espressif reply of 32767 makes the driver ask again and again [`Locked.C69_espressif_mark`].
33. A second requestIDString() before the first is answered is lost; the first answer is reported for it [`Answer.C70_*_second`].
34. An invalid ICCID keeps the driver waiting until a valid one arrives [`Asking.C69_sim7x00_iccid`]. A message like RING is taken for the identification [`Asking.C69_*_ring`].
35. Espressif: with a long name of the network the signal strength is asked for again and again [`Asking.C69_espressif_long`]; with a comma in the name the channel is reported instead [`Asking.C69_espressif_comma`].
36. `serialLock()` succeeds in the middle of a data block [`Locked.C39_*_within`]; the WiFi drivers ignore the lock.

Platforms and detection

37. `setSerialConfig` returns false but has changed the rate [`PortConfig.C53_half_rejected`]; 4800 baud is missing in the table for Linux.
38. `UnixSerial::open` loses a descriptor if the configuration fails [`PortConfig.C60_leak`].
39. More than four UART objects: the further ones get no interrupts [`Uart.C52_dropped`]; the table keeps destroyed objects [`Uart.C52_dangling`]. Data written before `open()` or left at `close()` are stuck until the next write [`Uart.C51_before_open`, `Uart.C51_reopened`].
40. ModemDetect: the buffer size is truncated to 16 bits [`ModemDetect.C50_ub`], a failed open is final [`C50_error_final`], the query is never repeated [`C50_queries`].
41. ModemDetect does not wait for the OK of its query. Used at once, the CC1352P7 driver reports a connection that is not confirmed [`Detect.C71_cc1352p7_early`].
42. A blocking write while the read buffer is full and the modem has more data never sends anything: the driver waits for space in the read buffer before it looks at the write buffer, and nobody reads meanwhile [`Block.C72_sim7x00_stuck` and the other drivers].
43. simcommdevice.cpp, `sendCiprxget2()`: the reserve of 8 bytes does not cover the header `+CIPRXGET: 2,0,n,m` of the answer (19 bytes or more). If the answer arrives between two calls of `run()` and the receive buffer is not larger than what is asked for, its end is lost, and later lines of the modem are delivered to the application as data [`Fits.C74_sim7x00`, `Fits.C74_sim800`].
44. Without a platform the clock stands still: tasks with a delay are never run [`Clock.C81_none`]. On Linux a task may be run up to a millisecond before its delay has passed [`Clock.C81_linux_early`].
45. Espressif, UDP and SSL: a datagram without content ("+IPD,0:") ends all reading, until `disconnect()` or `resetStates()` [`Datagrams.C82_espressif_hollow`].
46. platform/mbed/mbedserial.cpp calls `_writeBuffer.availableData()`, which does not exist.
47. Linux: `UnixSerial` reads from the operating system although its buffer is full and drops the byte; a driver that sleeps (SIM7x00: 4 s after a restart) loses what the modem says [`Linux.C84_sim7x00_asleep`].
48. examples/linux/ipcommdevice.cpp waits for the first byte of the answer without looking at the connection (line 58): if the server closes without an answer, the task never goes on [`Client.C85_hangs`, `C85_silent_*`].
49. The same example leaves its loop as soon as the connection is down, also if there are bytes to be read; this loses data if the driver is run several times between two turns of the task [`Client.C85_unread`]. What follows a zero byte is not printed [`Client.C85_zero`]. The result of `write()` is ignored: with a write buffer of less than 70 bytes the request would be cut short.
50. examples/linux/autodetectntp.cpp (and ntp.cpp) ignores how many bytes `read()` returned. The packet still holds the request, so a short answer gives the time 2085978496 (2036-02-07), and the end-of-line test reports success [`Ntp.C87_short`, `C87_passes`].
51. platform/mbed/mbedserial.cpp: `close()` is empty and `isOpen()` always true; the port receives before `open()` and after `close()`; `setSerialConfig()` reports success for everything [`Mbed.C88_always_open`, `C88_hears`, `C88_config`].
52. examples/linux/eventloop.cpp and examples/stm32f1/eventloop.cpp leave the loop when the driver is idle, though there may be more than 40 bytes to be read: the end of the answer is lost [`EventLoop.C89_left`, `C89_cut`].
53. examples/linux/blocking.cpp waits for the connection without a time limit, and ends reading after two seconds without a byte, even if the modem has announced data by then; it ignores the result of `write()` [`BlockingProgram.C90_mute`, `C90_pause`].
54. examples/linux/serial_linux.cpp (and the serial examples for the STM32) read what is there when the first byte has come, so the rest of an answer is taken for the answer to the next command; without an answer they wait for ever [`SerialTask.C91_split`, `C91_mute`].
55. examples/mbed/main.cpp and examples/stm32f1/ipcommdevice_stm32.cpp count rounds instead of looking at the connection: the answer is cut after 400 rounds, that is after 16000 bytes or 4 s (8 s) of waiting, although the connection is up; without any answer they wait for ever [`Counted.C92_limit`, `C92_impatient`, `C92_long`, `C92_mute`].
56. examples/stm32f1/mqttsequence.cpp compares ticks with `<`: when the counter wraps around, it publishes without a pause, or publishes nothing for at least 49 days; and its pseudo-random data depend on the low byte of the packet number only [`Sequence.C94_spaced`, `C94_stall`, `C94_never`, `C94_repeat`].
57. examples/linux/ntp.cpp and examples/stm32f1/ntp.cpp read the answer as soon as a byte is there; if fewer than 41 bytes are, they print a moment in 2036. A lost datagram makes them wait for ever [`NtpClient.C95_short`, `C95_mute`].
58. `UnixSerial`: if the terminal cannot be configured, `run()` transfers bytes although `isOpen()` is false; after `open()` on an open port whose device is gone, `isOpen()` is true although nothing is transferred; bytes buffered before `close()` are sent and read after the next `open()` [`UnixSerial.C96_half`, `C96_stale`, `C96_kept`].
59. STM32 examples: once more is printed than fits the buffer of the port for messages, its output is scrambled and lags for ever, since `write(uint8_t)` moves the write head of a full buffer and nothing resets the write buffer [`Printf.C97_over`].
60. The MQTT examples wait for ever if the first message is lost; they take messages of others for their own; if the first message cannot be published they wait for none [`MqttHello.C98_lost`, `C98_foreign`, `C98_failed`].
61. `writeBufferProcessed()` becomes true when the modem answers a transmission with an error [`Confirmed.C99_sim7x00_failed`].

## 7. Wrong programs

`seeded/LOG.jsonl` has one line per seeded bug: an edit of one definition of the model in a scratch copy, the claim
that becomes false, and the theorems that no longer prove. Bugs that were not noticed at first led to further
or tighter theorems, named in the log.

## 8. Axioms

`#print axioms` for every theorem of `MANIFEST.json`. No theorem depends on anything else than `propext`,
`Classical.choice` and `Quot.sound`, the axioms of Lean's standard library.

* none: `Blocking.logged_read`, `Blocking.C27_zero_but_sent`, `DriverApi.C29_exclusive`, `Mbed.C88_config`, `Counted.C92_kinds`
* propext: `Serial.C10_readLine_zero`, `Serial.C10_newline_kept`, `Serial.C16_first_call`, `Serial.C16_not_nested`, `Sched.C17_empty_list`, `Sched.C21_no_restart`, `DriverApi.C29_not_connected`, `DriverApi.C29_disconnect`, `Rest.C31_sim800_unasked`, `Rest.C31_cc1352p7_unasked`, `Payload.C34_sim7x00_race`, `Payload.C34_sim800_race`, `Payload.C34_espressif_race`, `Payload.C34_cc1352p7_race`, `Receive.C37_sim7x00_limit`, `Receive.C37_sim800_limit`, `Receive.C37_sim7x00_race`, `Receive.C37_sim800_race`, `Receive.C37_espressif_race`, `Receive.C37_cc1352p7_race`, `DriverApi.C39_lock`, `DriverApi.C39_locked_sim7x00`, `DriverApi.C39_locked_sim800`, `DriverApi.C39_serial_access`, `Locked.C39_sim7x00_within`, `Locked.C39_sim800_within`, `Parse.C40_wrap`, `Iccid.C41_sim800_replaced`, `DriverApi.C43_sim`, `DriverApi.C43_esp`, `DriverApi.C43_cc`, `DriverApi.C43_mac_survives`, `DriverApi.C43_delay_survives`, `Quit.C46_sim800_again`, `Quit.C46_cc1352p7_again`, `ModemDetect.C50_driver`, `ModemDetect.C50_forward`, `ModemDetect.C50_final`, `ModemDetect.C50_forgotten`, `ModemDetect.C50_error_final`, `Uart.C51_armed`, `Uart.C51_written`, `Uart.C51_off`, `Uart.C51_accepts`, `Uart.C51_before_open`, `Uart.C51_reopened`, `Uart.C52_dangling`, `Whole.C56_sim7x00_cut`, `Whole.C56_sim800_cut`, `Whole.C56_espressif_cut`, `Whole.C56_cc1352p7_cut`, `Whole.C56_sim7x00_reset`, `Whole.C56_espressif_reset`, `Stale.C57_sim7x00_stale`, `Stale.C57_sim800_stale`, `Stale.C57_espressif_stale`, `Stale.C57_cc1352p7_stale`, `Locked.C57_espressif_wrap`, `Locked.C57_cc1352p7_wrap`, `Stale.C58_sim7x00_aborted`, `Stale.C58_sim800_aborted`, `Stale.C58_espressif_aborted`, `Stale.C58_cc1352p7_aborted`, `PortConfig.C60_open_unaffected`, `PeerGone.C61_sim7x00_leaves`, `PeerGone.C61_sim7x00_noticed`, `Closing.C65_sim7x00_late`, `Closing.C65_sim800_late`, `Closing.C65_espressif_late`, `Closing.C65_cc1352p7_late`, `Closing.C66_sim7x00_leak`, `Closing.C66_sim800_leak`, `Closing.C66_espressif_leak`, `Closing.C66_cc1352p7_leak`, `Asking.C69_espressif_long`, `Asking.C69_espressif_comma`, `Asking.C69_sim7x00_ring`, `Asking.C69_sim800_ring`, `Asking.C69_sim7x00_iccid`, `Locked.C69_espressif_mark`, `Answer.C70_sim7x00_second`, `Answer.C70_sim800_second`, `Detect.C71_cc1352p7_early`, `Early.C73_sim7x00_ask`, `Early.C73_sim800_ask`, `Early.C73_espressif_ask`, `Early.C73_cc1352p7_ask`, `Fits.C74_sim7x00`, `Fits.C74_sim800`, `Pace.C78_sim7x00_boot`, `Budget.C79_sim7x00_twice`, `Budget.C79_sim7x00_revoked`, `Budget.C79_sim800_twice`, `Budget.C79_sim800_revoked`, `Budget.C79_espressif_twice`, `Budget.C79_espressif_revoked`, `Budget.C79_cc1352p7_twice`, `Budget.C79_cc1352p7_revoked`, `Ended.C80_sim7x00_unconfirmed`, `Ended.C80_sim800_forgotten`, `Ended.C80_cc1352p7_again`, `Thread.C83_return`, `Thread.C83_break`, `Thread.C83_unbraced`, `Linux.C84_sim7x00_asleep`, `Mbed.C88_always_open`, `Mbed.C88_early`, `EventLoop.C89_cut`, `SerialTask.C91_returns`, `NtpClient.C95_returns`, `MqttHello.C98_text`, `MqttHello.C98_lost`, `Confirmed.C99_sim7x00_failed`
* propext, Quot.sound: `Ring.C02_zero_capacity`, `Serial.C14_accepted_sublist`, `Serial.C16_enabled_after`, `Sched.C17_round_robin`, `Sched.C17_each_once`, `Sched.C18_min_delay`, `Sched.C19_run_iff_due`, `Sched.C19_zero_delay_every_round`, `Reenter.C20_labels_too_big`, `Reenter.C20_label_wrap_repeats`, `Sched.C22_delay`, `Sched.C22_runs_early`, `Countdown.C24_seconds`, `Countdown.C24_seconds_overflow`, `Countdown.C24_wrap_expired_at_once`, `Countdown.C24_wrap_never_expires`, `Blocking.C25_read`, `Blocking.C26_minus_one_never_expires`, `Blocking.C27_write`, `Blocking.C27_too_long`, `DriverApi.C28_connect`, `DriverApi.C28_connect_sim`, `DriverApi.C28_connect_esp`, `DriverApi.C29_write`, `OneCmd.C32_sim7x00_run`, `OneCmd.C32_sim800_run`, `OneCmd.C32_espressif_run`, `OneCmd.C32_cc1352p7_run`, `Payload.C33_sim7x00_unprompted`, `Payload.C33_sim800_unprompted`, `Payload.C35_sim7x00`, `Payload.C35_sim7x00_id`, `Payload.C35_sim800`, `Payload.C35_sim800_id`, `Payload.C35_espressif`, `Payload.C35_espressif_mac`, `Payload.C35_cc1352p7`, `Payload.C35_cc1352p7_mac`, `Parse.C40_cc`, `Parse.C40_cc_negative`, `Parse.C41_check`, `Quit.C46_sim7x00_forgotten`, `Wedge.C48_espressif_reachable`, `Wedge.C49_sim7x00_reachable`, `Wedge.C49_sim800_reachable`, `Hollow.C49_espressif_reachable`, `Hollow.C49_cc1352p7_reachable`, `ModemDetect.C50_sound`, `ModemDetect.C50_queries`, `ModemDetect.C50_ub`, `PortConfig.C53_linux`, `PortConfig.C53_half_rejected`, `Whole.C56_sim7x00`, `Whole.C56_short_sim7x00`, `Whole.C56_sim800`, `Whole.C56_short_sim800`, `Whole.C56_espressif`, `Whole.C56_short_espressif`, `Whole.C56_cc1352p7`, `Whole.C56_short_cc1352p7`, `PortConfig.C60_descriptors`, `PortConfig.C60_configured`, `PortConfig.C60_leak`, `PeerGone.C61_sim7x00_gone`, `Wire.C64_sim7x00_overrun`, `Wire.C64_sim800_overrun`, `Wire.C64_espressif_overrun`, `Wire.C64_cc1352p7_overrun`, `Block.C72_sim7x00_stuck`, `Block.C72_sim7x00_zero_but_sent`, `Block.C72_sim800_stuck`, `Block.C72_sim800_zero_but_sent`, `Block.C72_espressif_stuck`, `Block.C72_espressif_zero_but_sent`, `Block.C72_cc1352p7_stuck`, `Block.C72_cc1352p7_zero_but_sent`, `Served.C77_sim7x00_flood`, `Served.C77_sim800_flood`, `Served.C77_espressif_flood`, `Served.C77_cc1352p7_flood`, `Clock.C81_none`, `Thread.C83_thread`, `Thread.C83_determined`, `Thread.C83_end`, `Client.C85_order`, `Client.C85_sessions`, `Client.C85_hangs`, `Client.C85_unread`, `Client.C85_zero`, `Program.C86_returns`, `Program.C86_session`, `Ntp.C87_time`, `Ntp.C87_short`, `Ntp.C87_passes`, `Mbed.C88_armed`, `Mbed.C88_accepts`, `Mbed.C88_off`, `Mbed.C88_hears`, `Mbed.C88_clock`, `Mbed.C88_delay`, `Mbed.C88_due`, `BlockingProgram.C90_order`, `BlockingProgram.C90_silence`, `BlockingProgram.C90_pause`, `SerialTask.C91_split`, `Counted.C92_drivers`, `Counted.C92_order`, `Counted.C92_limit`, `Counted.C92_pace`, `Counted.C92_prints`, `Counted.C92_returns`, `Counted.C92_impatient`, `Counted.C92_mute`, `TwoTasks.C93_bodies`, `Sequence.C94_prompt`, `Sequence.C94_never`, `Sequence.C94_repeat`, `NtpClient.C95_order`, `NtpClient.C95_drivers`, `NtpClient.C95_time`, `NtpClient.C95_short`, `NtpClient.C95_mute`, `NtpClient.C95_swap`, `MqttHello.C98_each`, `MqttHello.C98_foreign`, `MqttHello.C98_failed`
* propext, Classical.choice: `SerialTask.C91_bodies`
* propext, Classical.choice, Quot.sound: `Ring.C01_fifo`, `Ring.C02_counters`, `Ring.C03_bulk_push`, `Ring.C03_bulk_pull`, `Ring.C04_push_full`, `Ring.C04_order_broken`, `Ring.C05_pull_empty`, `Ring.C05_desync`, `Ring.C05_desync_stream`, `Ring.C06_flush`, `Line.C06_flush_line`, `Line.C07_line_count`, `Line.C07_C09_line_buffer`, `Serial.C08_canReadLine`, `Serial.C08_wrap`, `Line.C09_readLine`, `Serial.C10_readLine`, `Serial.C11_rx_stream`, `Serial.C11_read_results`, `Serial.C12_tx_stream`, `Serial.C13_write`, `Serial.C13_writeStr`, `Serial.space_seen`, `Serial.C14_overflow_step`, `Serial.C15_transmit`, `Reenter.C20_coroutine`, `Reenter.C20_prefix`, `Reenter.C20_end`, `Sched.C21_timeout`, `Reenter.C21_wait`, `Reenter.C23_shared_entrypoint`, `Countdown.C24_countdown`, `Blocking.C26_read_ends`, `Blocking.C26_write_ends`, `Link.C30_sim7x00`, `Link.C30_sim800`, `Link.C30_espressif`, `Link.C30_cc1352p7`, `Rest.C31_sim7x00`, `Rest.C31_espressif`, `Rest.C31_sim800`, `Rest.C31_cc1352p7`, `OneCmd.C32_sim7x00`, `OneCmd.C32_sim800`, `OneCmd.C32_espressif`, `OneCmd.C32_cc1352p7`, `Payload.C33_sim7x00`, `Payload.C33_sim800`, `Payload.C33_espressif`, `Payload.C33_cc1352p7`, `Payload.C34_sim7x00`, `Payload.C34_sim800`, `Payload.C34_espressif`, `Payload.C34_cc1352p7`, `Payload.C34_digits`, `Payload.C34_digits_wrong`, `Receive.C36_sim7x00`, `Receive.C36_sim800`, `Receive.C36_espressif`, `Receive.C36_cc1352p7`, `Receive.C36_sim7x00_overwritten`, `Receive.C36_sim800_overwritten`, `Receive.C36_espressif_overwritten`, `Receive.C36_cc1352p7_overwritten`, `Receive.C37_sim7x00`, `Receive.C37_sim800`, `Receive.C37_espressif`, `Receive.C37_cc1352p7`, `LineAsm.C38_safe_sim7x00`, `LineAsm.C38_safe_sim800`, `LineAsm.C38_safe_espressif`, `LineAsm.C38_safe_cc1352p7`, `LineAsm.C38_stream_sim7x00`, `LineAsm.C38_stream_sim800`, `LineAsm.C38_stream_espressif`, `LineAsm.C38_stream_cc1352p7`, `Parse.C40_value`, `Parse.C40_range`, `Parse.C41_parse`, `Iccid.C41_sim7x00`, `Iccid.C41_sim800`, `Parse.C42_dns`, `Parse.C42_overflow`, `Handshake.C44_sim7x00`, `Handshake.C44_sim7x00_lasts`, `Handshake.C44_sim800`, `Handshake.C44_sim800_lasts`, `Handshake.C44_espressif`, `Handshake.C44_espressif_lasts`, `Handshake.C44_cc1352p7`, `Handshake.C44_cc1352p7_lasts`, `Handshake.C45_sim7x00`, `Handshake.C45_sim800`, `Handshake.C45_espressif`, `Handshake.C45_cc1352p7`, `Quit.C46_sim800`, `Quit.C46_espressif`, `Quit.C46_cc1352p7`, `Quit.C46_espressif_stays`, `Wedge.C47_sim7x00_dead`, `Wedge.C47_sim800_dead`, `Wedge.C47_espressif_dead`, `Wedge.C47_cc1352p7_dead`, `Wedge.C48_espressif_stuck`, `Wedge.C49_sim7x00_deaf`, `Wedge.C49_sim800_deaf`, `Hollow.C49_espressif_deaf`, `Hollow.C49_cc1352p7_deaf`, `ModemDetect.C50_lines`, `Uart.C51_history`, `Uart.C51_drains`, `Uart.C51_stream`, `Uart.C52_lookup`, `Uart.C52_dropped`, `PortConfig.C53_stm32`, `PortConfig.C53_rate_rejected`, `MacQuery.C54_espressif_signed`, `MacQuery.C54_espressif_unsigned`, `MacQuery.C54_cc1352p7_signed`, `MacQuery.C54_cc1352p7_unsigned`, `Order.C55_sim7x00`, `Order.C55_sim800`, `Order.C55_espressif`, `Order.C55_cc1352p7`, `Order.C59_sim7x00`, `Order.C59_sim800`, `Order.C59_espressif`, `Order.C59_cc1352p7`, `Handshake.C61_sim7x00`, `Handshake.C61_sim800`, `Handshake.C61_espressif`, `Handshake.C61_cc1352p7`, `Traffic.C62_sim7x00`, `Traffic.C62_sim800`, `Traffic.C62_espressif`, `Traffic.C62_cc1352p7`, `Traffic.C63_sim7x00`, `Traffic.C63_sim7x00_close`, `Traffic.C63_sim800`, `Traffic.C63_sim800_close`, `Traffic.C63_espressif`, `Traffic.C63_espressif_close`, `Traffic.C63_cc1352p7`, `Traffic.C63_cc1352p7_close`, `Wire.C64_sim7x00`, `Wire.C64_sim7x00_drained`, `Wire.C64_sim800`, `Wire.C64_sim800_drained`, `Wire.C64_espressif`, `Wire.C64_espressif_drained`, `Wire.C64_cc1352p7`, `Wire.C64_cc1352p7_drained`, `Closing.C65_sim7x00`, `Closing.C65_sim7x00_sent`, `Closing.C65_sim800`, `Closing.C65_sim800_sent`, `Closing.C65_espressif`, `Closing.C65_espressif_sent`, `Closing.C65_cc1352p7`, `Closing.C65_cc1352p7_sent`, `Closing.C66_sim7x00`, `Closing.C66_sim800`, `Closing.C66_espressif`, `Closing.C66_cc1352p7`, `Recovery.C67_sim7x00`, `Recovery.C67_sim800`, `Recovery.C67_espressif`, `Recovery.C67_cc1352p7`, `Abort.C68_sim7x00`, `Abort.C68_sim800`, `Abort.C68_espressif`, `Abort.C68_cc1352p7`, `Abort.C68_sim800_stuck`, `Asking.C69_sim7x00`, `Asking.C69_sim7x00_connected`, `Asking.C69_sim800`, `Asking.C69_sim800_connected`, `Asking.C69_espressif`, `Asking.C69_espressif_connected`, `Asking.C69_cc1352p7`, `Asking.C69_cc1352p7_connected`, `Answer.C70_sim7x00`, `Answer.C70_sim800`, `Answer.C70_espressif`, `Answer.C70_cc1352p7`, `Answer.C70_sim7x00_iccid`, `Answer.C70_sim800_iccid`, `Detect.C71_sim7x00`, `Detect.C71_sim800`, `Detect.C71_espressif`, `Detect.C71_cc1352p7`, `Detect.C71_sim7x00_used`, `Detect.C71_sim800_used`, `Detect.C71_espressif_used`, `Detect.C71_cc1352p7_used`, `Block.C72_sim7x00_read`, `Block.C72_sim7x00_read_ends`, `Block.C72_sim7x00_write`, `Block.C72_sim7x00_write_ends`, `Block.C72_sim800_read`, `Block.C72_sim800_read_ends`, `Block.C72_sim800_write`, `Block.C72_sim800_write_ends`, `Block.C72_espressif_read`, `Block.C72_espressif_read_ends`, `Block.C72_espressif_write`, `Block.C72_espressif_write_ends`, `Block.C72_cc1352p7_read`, `Block.C72_cc1352p7_read_ends`, `Block.C72_cc1352p7_write`, `Block.C72_cc1352p7_write_ends`, `Early.C73_sim7x00_line`, `Early.C73_sim7x00_block`, `Early.C73_sim800_line`, `Early.C73_sim800_block`, `Early.C73_espressif_line`, `Early.C73_espressif_block`, `Early.C73_cc1352p7_line`, `Early.C73_cc1352p7_block`, `Fits.C74_espressif`, `Fits.C74_cc1352p7`, `Cable.C75_sim7x00`, `Cable.C75_sim7x00_reads`, `Cable.C75_sim7x00_settles`, `Cable.C75_sim7x00_close`, `Cable.C75_sim7x00_rounds`, `Cable.C75_sim800`, `Cable.C75_sim800_reads`, `Cable.C75_sim800_settles`, `Cable.C75_sim800_close`, `Cable.C75_sim800_rounds`, `Cable.C75_espressif`, `Cable.C75_espressif_reads`, `Cable.C75_espressif_settles`, `Cable.C75_espressif_close`, `Cable.C75_espressif_rounds`, `Cable.C75_cc1352p7`, `Cable.C75_cc1352p7_reads`, `Cable.C75_cc1352p7_settles`, `Cable.C75_cc1352p7_close`, `Cable.C75_cc1352p7_rounds`, `Large.C76_sim7x00_never`, `Large.C76_sim7x00_room`, `Large.C76_sim7x00_reachable`, `Large.C76_sim7x00_rescue`, `Large.C76_sim800_never`, `Large.C76_sim800_room`, `Large.C76_sim800_reachable`, `Large.C76_sim800_rescue`, `Large.C76_espressif_never`, `Large.C76_espressif_room`, `Large.C76_espressif_reachable`, `Large.C76_espressif_rescue`, `Large.C76_cc1352p7_never`, `Large.C76_cc1352p7_room`, `Large.C76_cc1352p7_reachable`, `Large.C76_cc1352p7_rescue`, `Large.C76_espressif_datagram`, `Large.C76_espressif_lost`, `Served.C77_sim7x00`, `Served.C77_sim800`, `Served.C77_espressif`, `Served.C77_cc1352p7`, `Pace.C78_period`, `Pace.C78_sim7x00_delay`, `Pace.C78_sim7x00_reaction`, `Pace.C78_sim800_delay`, `Pace.C78_sim800_reaction`, `Pace.C78_espressif_delay`, `Pace.C78_espressif_reaction`, `Pace.C78_cc1352p7_delay`, `Pace.C78_cc1352p7_reaction`, `Budget.C79_sim7x00_openings`, `Budget.C79_sim800_openings`, `Budget.C79_espressif_openings`, `Budget.C79_cc1352p7_openings`, `Ended.C80_sim7x00_idle`, `Ended.C80_sim7x00_since`, `Ended.C80_sim800_idle`, `Ended.C80_sim800_since`, `Ended.C80_espressif_idle`, `Ended.C80_espressif_since`, `Ended.C80_cc1352p7_idle`, `Ended.C80_cc1352p7_since`, `Clock.C81_linux_accuracy`, `Clock.C81_linux_elapsed`, `Clock.C81_linux_delay`, `Clock.C81_linux_due`, `Clock.C81_linux_early`, `Datagrams.C82_espressif_inorder`, `Datagrams.C82_espressif_delivered`, `Datagrams.C82_espressif_hollow`, `Datagrams.C82_espressif_lost`, `Linux.C84_sim7x00`, `Linux.C84_sim7x00_connected`, `Linux.C84_sim800`, `Linux.C84_espressif`, `Linux.C84_cc1352p7`, `Client.C85_sim7x00`, `Client.C85_sim800`, `Client.C85_espressif`, `Client.C85_cc1352p7`, `Client.C85_silent_sim7x00`, `Client.C85_silent_sim800`, `Client.C85_silent_espressif`, `Client.C85_silent_cc1352p7`, `Program.C86_program`, `Program.C86_bodies`, `Ntp.C87_returns`, `Ntp.C87_ends`, `Ntp.C87_verdict`, `Ntp.C87_patience`, `Mbed.C88_stream`, `Mbed.C88_drains`, `EventLoop.C89_rules`, `EventLoop.C89_left`, `EventLoop.C89_complete`, `EventLoop.C89_scheduler`, `EventLoop.C89_linux`, `BlockingProgram.C90_integrity`, `BlockingProgram.C90_pace`, `BlockingProgram.C90_mute`, `SerialTask.C91_task`, `SerialTask.C91_program`, `SerialTask.C91_pace`, `SerialTask.C91_mute`, `Counted.C92_bounded`, `Counted.C92_long`, `TwoTasks.C93_order`, `TwoTasks.C93_spaced`, `TwoTasks.C93_prompt_one`, `TwoTasks.C93_prompt_two`, `Sequence.C94_packets`, `Sequence.C94_spaced`, `Sequence.C94_stall`, `UnixSerial.C96_out`, `UnixSerial.C96_in`, `UnixSerial.C96_in_all`, `UnixSerial.C96_closed`, `UnixSerial.C96_moves`, `UnixSerial.C96_kept`, `UnixSerial.C96_half`, `UnixSerial.C96_stale`, `Printf.C97_fits`, `Printf.C97_over`, `Confirmed.C99_sim7x00`, `Confirmed.C99_sim800`, `Confirmed.C99_espressif`, `Confirmed.C99_cc1352p7`
