{"id": "C01", "title": "Circular buffer is a bounded FIFO", "statement": "Any sequence of bulk push, bulk pull, single push while not full, single pull while not empty, peek, flush and the query methods returns exactly what a bounded FIFO queue of the same capacity returns: data come out in the order they went in, nothing is lost, duplicated or invented.", "quantifier": "every capacity, every element type, every initial content of the raw buffer, every operation sequence that respects the documented preconditions of the single-element calls", "why_tests_cant": "the heads wrap around at arbitrary points; tests visit a handful of sizes and never long mixed histories", "anchors": ["cicada/circularbuffer.h:CircularBuffer::push", "cicada/circularbuffer.h:CircularBuffer::pull", "cicada/circularbuffer.h:CircularBuffer::incrementOrResetHead"]}
{"id": "C02", "title": "Circular buffer counters and bounds", "statement": "After any sequence of any calls (including unchecked single push/pull on a full/empty buffer) bytesAvailable()+spaceAvailable()==size(), isEmpty() iff bytesAvailable()==0, isFull() iff spaceAvailable()==0, and, for a non-zero capacity, no call ever touches memory outside the user supplied buffer.", "quantifier": "every capacity > 0, every sequence of calls with no precondition at all", "why_tests_cant": "an out-of-bounds index or counter drift needs one particular history among infinitely many", "anchors": ["cicada/circularbuffer.h:CircularBuffer"]}
{"id": "C03", "title": "Bulk push and pull transfer exactly min(n, room/data)", "statement": "push(data,n) returns min(n, spaceAvailable()) and appends exactly that prefix of data; pull(data,n) returns min(n, bytesAvailable()), delivers exactly the oldest elements, in order, and leaves the rest untouched.", "quantifier": "every reachable state, every n, every data", "why_tests_cant": "truncation boundaries times wrap positions cannot be enumerated", "anchors": ["cicada/circularbuffer.h:CircularBuffer::push", "cicada/circularbuffer.h:CircularBuffer::pull"]}
{"id": "C04", "title": "Unchecked single push onto a full buffer", "statement": "A single-element push onto a full buffer replaces exactly one existing element and changes no counter. The stronger expectation that the survivors still come out oldest first with the new element last is false: the new element comes out first.", "quantifier": "every capacity > 0, every full buffer, every element", "why_tests_cant": "needs the exact head positions at the moment of overflow", "anchors": ["cicada/circularbuffer.h:CircularBuffer::push(T)"]}
{"id": "C05", "title": "Unchecked single pull from an empty buffer", "statement": "A single-element pull from an empty buffer returns some old cell and reports the buffer as still empty. The expectation that the buffer behaves normally afterwards is false: on every capacity >= 2 the next element pushed is not the next element pulled, the stream stays shifted until flush().", "quantifier": "every capacity >= 2, every empty reachable buffer", "why_tests_cant": "only visible in the operations after the call", "anchors": ["cicada/circularbuffer.h:CircularBuffer::pull()"]}
{"id": "C06", "title": "flush() empties the buffer for good", "statement": "After flush() the buffer is empty, its whole capacity is available, and every later history behaves like that of a freshly constructed buffer; flush() also repairs the state left by unchecked calls.", "quantifier": "every state reachable by any calls, every later history", "why_tests_cant": "the stale cells stay in memory; tests see one history only", "anchors": ["cicada/circularbuffer.h:CircularBuffer::flush", "cicada/linecircularbuffer.h:LineCircularBuffer::flush"]}
{"id": "C07", "title": "Line counter equals number of buffered newlines", "statement": "numBufferedLines() equals the number of newline bytes currently in the line buffer, modulo 65536 (it is a 16 bit counter).", "quantifier": "every capacity, every sequence of in-contract pushes, pulls, readLines and flushes", "why_tests_cant": "drift appears only after particular mixes of partial pulls and pushes", "anchors": ["cicada/linecircularbuffer.h:LineCircularBuffer"]}
{"id": "C08", "title": "canReadLine() tells whether a whole line is buffered", "statement": "canReadLine() is true exactly if the receive buffer contains a newline, as long as fewer than 65536 newlines are buffered; with 65536 newlines in a larger buffer it wrongly returns false.", "quantifier": "every receive history, every interrupt schedule", "why_tests_cant": "the wrap needs more than 65535 lines in a buffer", "anchors": ["cicada/bufferedserial.cpp:BufferedSerial::canReadLine", "cicada/linecircularbuffer.h:numBufferedLines"]}
{"id": "C09", "title": "LineCircularBuffer::readLine consumes exactly one line", "statement": "readLine removes everything up to and including the first newline (or everything if there is none), stores its first min(size, length) bytes and returns that number; the rest of the buffer is untouched.", "quantifier": "every buffer content, every size", "why_tests_cant": "line length, buffer size and wrap position combine freely", "anchors": ["cicada/linecircularbuffer.h:LineCircularBuffer::readLine"]}
{"id": "C10", "title": "BufferedSerial::readLine is bounded, terminated and line exact", "statement": "readLine(data,size) never stores more than size bytes, always stores a terminating zero inside the buffer when size>0, returns the number of bytes stored before the zero, and removes exactly one line from the receive stream. (The documentation says the newline is replaced by the zero; in fact a newline that fits is kept.)", "quantifier": "every receive buffer content, every size, every interrupt schedule", "why_tests_cant": "interrupts can add bytes while the line is being read", "anchors": ["cicada/bufferedserial.cpp:BufferedSerial::readLine"]}
{"id": "C11", "title": "Receive stream integrity under interrupts", "statement": "Whatever the interrupt handler does between any two critical sections, the bytes handed to the application by read calls, followed by the bytes still buffered, are exactly the bytes accepted from the wire, in order (until a flush).", "quantifier": "every interrupt schedule, every mix of read, readLine, write and query calls, every buffer size", "why_tests_cant": "interleavings of an interrupt handler cannot be enumerated by a unit test, and the existing tests have no interrupts", "anchors": ["cicada/bufferedserial.cpp:BufferedSerial::read", "cicada/bufferedserial.cpp:BufferedSerial::transferToAndFromBuffer"]}
{"id": "C12", "title": "Transmit stream integrity under interrupts", "statement": "Whatever the interrupt schedule, the bytes put on the wire followed by the bytes still in the transmit buffer are exactly the bytes the write calls reported as accepted, in order.", "quantifier": "every interrupt schedule, every mix of bulk and string writes, every buffer size", "why_tests_cant": "interleavings", "anchors": ["cicada/bufferedserial.cpp:BufferedSerial::write", "cicada/bufferedserial.cpp:BufferedSerial::transferToAndFromBuffer"]}
{"id": "C13", "title": "Serial write return values are honest", "statement": "write(data,n) accepts and returns min(n, free space seen at the call) bytes, write(string) accepts the bytes before the terminating zero up to the free space seen at the call, neither ever overwrites unsent data.", "quantifier": "every string, every n, every buffer state, every interrupt schedule during the call", "why_tests_cant": "space grows while the call runs", "anchors": ["cicada/bufferedserial.cpp:BufferedSerial::write"]}
{"id": "C14", "title": "Receive overflow drops only the newest byte", "statement": "A byte that arrives while the receive buffer is full is dropped, and nothing else changes; a byte that arrives while there is room is appended. Hence the accepted stream is a subsequence of the arrived stream and bytes are lost only while full.", "quantifier": "every receive history", "why_tests_cant": "overflow timing", "anchors": ["cicada/bufferedserial.cpp:BufferedSerial::transferToAndFromBuffer"]}
{"id": "C15", "title": "A transmit byte is removed only after the hardware took it", "statement": "transferToAndFromBuffer hands the oldest unsent byte to the hardware and removes it iff the hardware accepted it; a busy transmitter never loses or duplicates a byte.", "quantifier": "every sequence of busy/ready hardware answers", "why_tests_cant": "hardware timing", "anchors": ["cicada/bufferedserial.cpp:BufferedSerial::transferToAndFromBuffer"]}
{"id": "C16", "title": "Critical sections are closed but do not nest", "statement": "Every BufferedSerial call that disables interrupts enables them again before it returns; calling one inside a caller's own critical section therefore ends that critical section (the expectation that the caller's interrupt state is preserved is false).", "quantifier": "every call, every prior interrupt state", "why_tests_cant": "needs an interrupt to fire in the unprotected window", "anchors": ["cicada/bufferedserial.cpp", "cicada/irq.h"]}
{"id": "C17", "title": "Scheduler is round robin", "statement": "With n tasks, the k-th call of runTask() examines task k mod n, and no other task; in n consecutive calls every task is examined exactly once.", "quantifier": "every non-empty task list, every number of calls, every task behaviour and clock", "why_tests_cant": "unbounded histories", "anchors": ["cicada/scheduler.cpp:Scheduler::runTask"]}
{"id": "C18", "title": "A task never runs before its delay has elapsed", "statement": "If the scheduler runs a task with delay d > 0, then at least d ticks passed since its previous run, also when the 32 bit tick counter wrapped in between (provided the true gap is below 2^32).", "quantifier": "every clock sequence including wrap-around, every delay set by the tasks", "why_tests_cant": "a 32 bit millisecond wrap takes 49 days", "anchors": ["cicada/scheduler.cpp:Scheduler::runTask", "cicada/task.h:Task"]}
{"id": "C19", "title": "A due task is run within one round", "statement": "If a task stays due, it is run within n calls of runTask(); a task with delay 0 runs in every round; the time recorded as its last run is the tick seen by that call.", "quantifier": "every task list, clock and history", "why_tests_cant": "fairness is about all schedules", "anchors": ["cicada/scheduler.cpp:Scheduler::runTask"]}
{"id": "C20", "title": "Reentrant task macros execute a task body once, in order", "statement": "For a run() body written with E_BEGIN_TASK, E_REENTER_* and E_END_TASK, the actions performed over any number of run() calls are, in order and without repetition, a prefix of the straight-line sequence of the body; a conditional wait is passed only when its condition held or its timeout expired; after E_END_TASK nothing is executed again.", "quantifier": "every task body, every sequence of run() calls, every condition outcome, every clock", "why_tests_cant": "all interleavings of conditions and delays", "anchors": ["cicada/task.h:E_BEGIN_TASK", "cicada/task.h:E_REENTER_COND_TIMEOUT"]}
{"id": "C21", "title": "Task timeouts", "statement": "A wait with timeout T that starts in a run at tick t is abandoned only in a run at a tick more than T after t and is certainly passed in every such run, also across a wrap of the tick counter (gap below 2^32).", "quantifier": "every T, every clock including wrap-around", "why_tests_cant": "wrap-around", "anchors": ["cicada/task.h:Task::isTimeout", "cicada/task.h:Task::startTimeout"]}
{"id": "C22", "title": "Delays above 65535 are truncated", "statement": "setDelay/E_REENTER_DELAY wait at least the requested time only for delays up to 65535 ms; a larger delay is taken modulo 65536.", "quantifier": "every delay value", "why_tests_cant": "tests use small delays", "anchors": ["cicada/task.h:Task::setDelay"]}
{"id": "C23", "title": "Two tasks of the same class do not interfere", "statement": "Expected: each task object progresses through its body independently. False: the resume point is shared by all objects of the class, so one object can resume in the middle of a body it never started.", "quantifier": "every pair of tasks of one class", "why_tests_cant": "needs two live objects and a schedule", "anchors": ["cicada/task.h:E_BEGIN_TASK_ARG"]}
{"id": "C24", "title": "MQTT countdown", "statement": "After countdown_ms(ms) with 0<=ms, as long as the tick counter does not wrap, expired() is false strictly before ms ticks have passed and true from then on, and left_ms() is exactly the remaining time, never negative. Across a wrap of the counter this is false: the countdown can expire at once or stay unexpired for weeks.", "quantifier": "every start tick, duration and query tick", "why_tests_cant": "49 day wrap", "anchors": ["cicada/mqttcountdown.cpp:MQTTCountdown::left_ms"]}
{"id": "C25", "title": "Blocking read delivers a prefix of the stream", "statement": "BlockingCommDevice::read returns at most len bytes, the bytes stored are exactly those taken from the device, in order, none is lost, also when it gives up by timeout.", "quantifier": "every device behaviour, every clock, every yield function, every len >= 0", "why_tests_cant": "device and clock are arbitrary", "anchors": ["cicada/commdevices/blockingcommdev.cpp:BlockingCommDevice::read"]}
{"id": "C26", "title": "Blocking calls end", "statement": "If the clock advances on every poll the blocking read and write end, and a read that returns fewer than len bytes has waited longer than the timeout (modulo clock wrap).", "quantifier": "every device behaviour, every timeout below 2^31", "why_tests_cant": "termination cannot be tested", "anchors": ["cicada/commdevices/blockingcommdev.cpp"]}
{"id": "C27", "title": "Blocking write is all or nothing as reported", "statement": "BlockingCommDevice::write returns either 0 or, for devices that accept as much as they report free, len; a non-zero result means the device reported the data as processed. The converse (0 means nothing was sent) is false.", "quantifier": "every device behaviour, every clock", "why_tests_cant": "timeouts at every possible moment", "anchors": ["cicada/commdevices/blockingcommdev.cpp:BlockingCommDevice::write"]}
{"id": "C28", "title": "connect() validates its configuration", "statement": "connect() returns true and records a request iff host, a non-zero port (and APN for cellular, SSID and password with a non-empty SSID for WiFi) were set; otherwise it returns false and changes nothing.", "quantifier": "every configuration and device state", "why_tests_cant": "configuration histories", "anchors": ["cicada/commdevices/ipcommdevice.cpp:IPCommDevice::connect", "cicada/commdevices/simcommdevice.cpp:SimCommDevice::connect", "cicada/commdevices/espressif.cpp:EspressifDevice::connect"]}
{"id": "C29", "title": "Data are accepted only while connected", "statement": "write() stores data and spaceAvailable() is non-zero only in the connected state; write() accepts exactly min(n, spaceAvailable()) bytes. isConnected() and isIdle() are never both true; disconnect() while idle changes nothing.", "quantifier": "every device state", "why_tests_cant": "all states", "anchors": ["cicada/commdevices/ipcommdevice.cpp"]}
{"id": "C30", "title": "A driver reports connected only after the modem confirmed the connection", "statement": "In every history, whenever isConnected() is true, the driver has sent its open-connection command completely and has afterwards received a line with the success reply, and since the open command it sent no command that starts a connection procedure, closes the connection or resets the modem, and there was no resetStates().", "quantifier": "every modem behaviour (any bytes at any time), every API call sequence, every schedule, all four drivers", "why_tests_cant": "the modem can send anything at any time", "anchors": ["cicada/commdevices/sim7x00.cpp:run", "cicada/commdevices/sim800.cpp:run", "cicada/commdevices/espressif.cpp:run", "cicada/commdevices/cc1352p7.cpp:run"]}
{"id": "C31", "title": "No connection without a connect() request", "statement": "The driver starts the connection procedure only if connect() was called since it was last idle. True for SIM7x00 and Espressif; false for SIM800 and CC1352P7, where an error line received while idle makes the driver connect on its own; without an error line these two do not either. Precisely: if the previous connect() request has been taken up and no further connect() follows, then once the driver is idle it sends nothing but the status requests of the application (RSSI, identification, MAC, modem reset).", "quantifier": "every modem behaviour, every API call sequence", "why_tests_cant": "needs an unsolicited line in one particular state", "anchors": ["cicada/commdevices/sim7x00.cpp:run", "cicada/commdevices/sim800.cpp:run", "cicada/commdevices/espressif.cpp:run", "cicada/commdevices/cc1352p7.cpp:run"]}
{"id": "C32", "title": "One command at a time", "statement": "After a command or a block of payload the driver transmits nothing more until the modem sends a line that answers it (or, for some drivers, a line that reports the end of the connection), or the receive buffers are flushed for a modem reset, or the application calls resetStates(). Each run() transmits at most one command or one block of payload.", "quantifier": "every driver state, every modem input", "why_tests_cant": "state space", "anchors": ["cicada/commdevices/sim7x00.cpp:run", "cicada/commdevices/sim800.cpp:run", "cicada/commdevices/espressif.cpp:run", "cicada/commdevices/cc1352p7.cpp:run"]}
{"id": "C33", "title": "Payload is sent only after the prompt", "statement": "User payload is written to the modem only after the modem answered the send command with the > prompt. True for Espressif and CC1352P7. False for SIM7x00 and SIM800: a connection-closed message that arrives instead of the prompt makes the driver write the payload to the modem in command mode (these are the only two lines that do so).", "quantifier": "every modem behaviour", "why_tests_cant": "needs a close notification in a window of milliseconds", "anchors": ["cicada/commdevices/sim7x00.cpp:run", "cicada/commdevices/simcommdevice.cpp:checkConnectionState", "cicada/commdevices/atcommdevice.cpp:sendData"]}
{"id": "C34", "title": "Payload integrity", "statement": "Each send command announces exactly the number of payload bytes that follow, and, as long as at most one byte leaves the serial transmit buffer between two accesses of the driver to it, these bytes are the oldest unsent bytes of the application, in order, each sent once. Without that condition more bytes may be announced and sent than were written: the free space is asked for twice. The announced number is right only up to 99999 bytes (5 digits).", "quantifier": "every amount of buffered data, every serial buffer state", "why_tests_cant": "sizes and wrap positions", "anchors": ["cicada/commdevices/atcommdevice.cpp:prepareSending", "cicada/commdevices/atcommdevice.cpp:sendData"]}
{"id": "C35", "title": "A status request does not disturb a transmission", "statement": "Expected: requestRSSI/requestIDString/requestMac never corrupt payload. False: a request that is pending when the prompt arrives is sent between the prompt and the payload, so the modem takes the AT command as payload.", "quantifier": "every moment at which the request is made", "why_tests_cant": "timing", "anchors": ["cicada/commdevices/sim7x00.cpp:run", "cicada/commdevices/sim800.cpp:run", "cicada/commdevices/espressif.cpp:run", "cicada/commdevices/cc1352p7.cpp:run"]}
{"id": "C36", "title": "Received payload integrity", "statement": "Header, status lines and payload are never mixed: a block handed to the application has exactly the length its header announced, and lines are only read when no payload is due. If the modem never answers with more bytes than requested, the bytes the application has read and can read are exactly the payload bytes on the serial line, in order. Without that condition earlier data are overwritten. (WiFi driver: TCP connections.)", "quantifier": "every history, chunking and interleaving of the serial stream, every amount and buffer size", "why_tests_cant": "chunking of serial data is arbitrary", "anchors": ["cicada/commdevices/atcommdevice.cpp:receive", "cicada/commdevices/simcommdevice.cpp:parseCiprxget2", "cicada/commdevices/espressif.cpp:parseCiprecvdata"]}
{"id": "C37", "title": "The driver never requests more than it can store", "statement": "Every data request asks for at most min(free application buffer, amount counted as announced, modem limit) bytes. If no byte arrives while run() computes the amount, it asks for at least 1 byte and leaves the reserve (8 or 30 bytes) of the serial receive buffer free; bytes that arrive meanwhile can lead to a request for more than the serial buffer can take.", "quantifier": "every state", "why_tests_cant": "combination of four limits, and a race", "anchors": ["cicada/commdevices/simcommdevice.cpp:sendCiprxget2", "cicada/commdevices/espressif.cpp:sendCiprcvdata", "cicada/commdevices/cc1352p7.cpp:sendCiprcvdata"]}
{"id": "C38", "title": "Line assembly is memory safe and loses nothing", "statement": "For every input byte sequence and every chunking into run() calls, the line buffer index stays inside the 61 byte buffer, each completed line is the next maximal piece of the input ending at newline or > (WiFi driver: or the separator of a data header), or 60 bytes long. Between any two moments without resetStates(), modem reset or serialRead(), the concatenation of lines and payload blocks plus the partial line is exactly the input consumed (WiFi driver: for TCP connections).", "quantifier": "every byte stream and chunking", "why_tests_cant": "all byte streams", "anchors": ["cicada/commdevices/simcommdevice.cpp:fillLineBuffer", "cicada/commdevices/espressif.cpp:fillLineBuffer", "cicada/commdevices/cc1352p7.cpp:fillLineBuffer"]}
{"id": "C39", "title": "The serial lock silences the driver", "statement": "After serialLock() returned true, run() neither reads from nor writes to the serial device nor changes the driver state until serialUnlock() (or a reset by the application); serialWrite/serialRead move data only while locked and are no-ops otherwise. The lock does not wait for the end of a data block: taken within one, the application gets payload, and the text after the block is delivered as payload.", "quantifier": "every state and number of run() calls", "why_tests_cant": "all states", "anchors": ["cicada/commdevices/simcommdevice.cpp:serialLock", "cicada/commdevices/atcommdevice.cpp:serialWrite", "cicada/commdevices/sim7x00.cpp:run", "cicada/commdevices/sim800.cpp:run"]}
{"id": "C40", "title": "Signal strength conversion", "statement": "For every cellular reply +CSQ: n with n below 2^32 (for every n where long has 32 bits) the reported RSSI is -113+2n for 0<=n<=31, -116+(n-100) for 100<=n<=199 and 0 otherwise; for every reply whatsoever it lies in [-116,0], so the pending marker is always cleared. With a 64 bit long larger numbers are taken modulo 2^32. The WiSUN driver reports the 16 bit number of the reply as it is.", "quantifier": "every reply line", "why_tests_cant": "all numbers, including malformed and overflowing ones", "anchors": ["cicada/commdevices/simcommdevice.cpp:parseCsq", "cicada/commdevices/cc1352p7.cpp:parseCsq"]}
{"id": "C41", "title": "A reported ICCID is valid", "statement": "The SIM7x00 driver: if getIDString() returns a string after a request for the ICCID (the last identification request), then a line arrived after the request that starts, possibly after +ICCID: , with 18 to 22 digits beginning with 89 whose Luhn sum is a multiple of 10, and the string is that line up to the carriage return, at most 23 characters, zero terminated inside its buffer. The SIM800 driver: the same as long as the application never asks for the signal strength. With such a request the expectation is false for SIM800: any line that arrives while the signal strength is awaited replaces an ICCID that was already reported.", "quantifier": "every history of interrupts, modem output and API calls before and after the request", "why_tests_cant": "all digit strings, all interleavings", "anchors": ["cicada/commdevices/simcommdevice.cpp:parseIDReply", "cicada/commdevices/sim7x00.cpp:run", "cicada/commdevices/sim800.cpp:run"]}
{"id": "C42", "title": "DNS reply parsing", "statement": "From a well formed reply +CDNSGIP: 1,\"host\",\"ip\" the driver stores exactly ip. The copy is in bounds iff ip has at most 15 characters; a reply with a longer field overflows the 16 byte buffer.", "quantifier": "every reply line of up to 60 characters", "why_tests_cant": "malicious or unexpected replies", "anchors": ["cicada/commdevices/simcommdevice.cpp:parseDnsReply"]}
{"id": "C43", "title": "resetStates() restores the initial state", "statement": "After resetStates() the driver state (pending requests, counters, buffers, connection state) equals the state after construction, whatever happened before; for the WiFi and WiSUN drivers a pending MAC request survives.", "quantifier": "every prior history", "why_tests_cant": "all histories", "anchors": ["cicada/commdevices/simcommdevice.cpp:resetStates", "cicada/commdevices/espressif.cpp:resetStates", "cicada/commdevices/cc1352p7.cpp:resetStates"]}
{"id": "C44", "title": "Connection handshake", "statement": "With a modem that gives the awaited answers (any other lines may come between them, every line may arrive in pieces of any size, run() may be called any number of times between the pieces), connect() leads through exactly the documented command sequence, with host, address, port, APN/SSID/password and protocol inserted and every command accepted whole; after each prefix of the answers exactly the corresponding prefix of the commands was sent; the driver reports the connection after the last answer and not before, and the connection lasts until a line about it arrives. The same holds for every further connection on the same driver.", "quantifier": "every host, port, APN, SSID, password that fit the transmit buffer, all protocols, every dialogue of that kind, every number of earlier connections", "why_tests_cant": "all strings, all interleavings of other lines", "anchors": ["cicada/commdevices/sim7x00.cpp:run", "cicada/commdevices/sim800.cpp:run", "cicada/commdevices/espressif.cpp:run", "cicada/commdevices/cc1352p7.cpp:run"]}
{"id": "C45", "title": "Orderly disconnect", "statement": "From the connected state with nothing left to send or receive, disconnect() leads, with a modem that confirms, through the documented close commands to the idle state; any number of connections can be made one after the other in this way, and the commands sent are exactly those of the single connections.", "quantifier": "every sequence of connections of that kind, lines arriving in pieces of any size", "why_tests_cant": "liveness over unbounded histories", "anchors": ["cicada/commdevices/sim7x00.cpp:run", "cicada/commdevices/sim800.cpp:run", "cicada/commdevices/espressif.cpp:run", "cicada/commdevices/cc1352p7.cpp:run"]}
{"id": "C46", "title": "A requested disconnect is not forgotten", "statement": "From an accepted disconnect() until the driver is idle, the SIM800, Espressif and CC1352P7 drivers do not send a second command to open a connection before they sent a command to close one, whatever lines, errors and API calls (other than resetStates()) follow. An Espressif driver that is not asked to connect again opens at most the one connection it was already opening, ever. Refuted expectations: an ERROR reply makes the SIM7x00 driver forget the request: it opens a new connection and reports connected, without having been idle or having closed anything; an ERROR while closing makes the SIM800 and CC1352P7 drivers connect again although connect() was not called.", "quantifier": "every history, every cut at a disconnect(), every sequence of bytes from the modem", "why_tests_cant": "needs errors between the request and its handling, in arbitrary interleavings", "anchors": ["cicada/commdevices/sim7x00.cpp:run", "cicada/commdevices/sim800.cpp:run", "cicada/commdevices/espressif.cpp:run", "cicada/commdevices/cc1352p7.cpp:run", "cicada/commdevices/atcommdevice.cpp:handleDisconnect"]}
{"id": "C47", "title": "A transient failure to open the port is survived", "statement": "Expected: after a failed open() the driver works once the port opens. False for all drivers: if the first open() fails, the driver sends nothing but requests for signal strength, identification or MAC address and never becomes connected, although connect() is accepted, until resetStates() is called or the modem happens to send an error message.", "quantifier": "every history after a failed open", "why_tests_cant": "liveness: unbounded later behaviour", "anchors": ["cicada/commdevices/sim7x00.cpp:run", "cicada/commdevices/sim800.cpp:run", "cicada/commdevices/espressif.cpp:run", "cicada/commdevices/cc1352p7.cpp:run", "cicada/commdevices/modemdetect.cpp:run"]}
{"id": "C48", "title": "UDP data never wedge the WiFi driver", "statement": "Expected: the Espressif driver always makes progress on incoming UDP data. False: a datagram announced while the driver waits for a reply stops it for ever: no later input or API call except resetStates() makes it take a byte from the serial line or send anything.", "quantifier": "every history before, every later history", "why_tests_cant": "infinite behaviour", "anchors": ["cicada/commdevices/espressif.cpp:run"]}
{"id": "C49", "title": "Empty data replies never wedge the drivers", "statement": "Expected: a data reply with length 0 is harmless. False: it switches line reading off with nothing to read; from then on the driver takes nothing from the serial line, sends no payload and at most one command, until resetStates() (cellular drivers: or a disconnect() before the next run(); WiFi and WiSUN: or a disconnect()).", "quantifier": "every history before, every later history", "why_tests_cant": "infinite behaviour", "anchors": ["cicada/commdevices/simcommdevice.cpp:parseCiprxget2", "cicada/commdevices/sim7x00.cpp:run", "cicada/commdevices/sim800.cpp:run", "cicada/commdevices/espressif.cpp:run", "cicada/commdevices/espressif.cpp:parseCiprecvdata", "cicada/commdevices/cc1352p7.cpp:run"]}
{"id": "C50", "title": "Modem detection is sound", "statement": "modemDetected() becomes true only after startDetection() was called, the receive buffer was flushed, the identification query was sent and then a line starting with the identification of that modem was read (for Espressif: query, ERROR, second query, supported version, OK). The lines examined are the complete lines received since the flush, none skipped, cut or invented. The driver created is the one for that identification, constructed with the given buffers; from then on run() is its run(). Each query is sent at most once. A detected modem stays detected, except that, before a driver was created, one failed open() makes the detector fail for ever. The only undefined behaviour in run() is the 16 bit computation of the line buffer size.", "quantifier": "all histories (any modem input, interrupts, failing open, API calls)", "why_tests_cant": "needs every order of lines, failures and calls; a test plays a few dialogues", "anchors": ["cicada/commdevices/modemdetect.cpp:run", "cicada/commdevices/modemdetect.cpp:getDetectedModem"]}
{"id": "C51", "title": "UART interrupt bookkeeping", "statement": "On STM32, between the calls of the application, while the port is open, unsent data are buffered only if the transmit interrupt is enabled, whatever interrupts happen during the calls (the read-modify-write of the control register included); then all buffered bytes get onto the wire in order, after as many ready events as bytes, and the interrupt is disabled when nothing is left. The receive interrupt stays enabled. The expectation that data written before open(), or left over at close(), are sent once the port is open is false: they stay until something is written or received.", "quantifier": "all interleavings of main program and interrupts", "why_tests_cant": "tests cannot enumerate interrupt timings", "anchors": ["cicada/platform/stm32f1/stm32uart.cpp:handleInterrupt", "cicada/platform/stm32f1/stm32uart.cpp:startTransmit", "cicada/platform/stm32f1/stm32uart.cpp:open"]}
{"id": "C52", "title": "UART instance lookup", "statement": "getInstance(u) returns the first constructed driver object for u if it was among the first E_MULTITON_MAX_INSTANCES constructed, and NULL otherwise; later objects are silently not registered. The expectation that the object returned still exists is false: destructors do not remove objects from the table, and a destroyed object hides a new one for the same UART.", "quantifier": "all sequences of constructions and destructions, any table size", "why_tests_cant": "depends on unbounded construction histories", "anchors": ["cicada/platform/stm32f1/stm32uart.cpp:init", "cicada/platform/stm32f1/stm32uart.cpp:getInstance"]}
{"id": "C53", "title": "Serial configuration", "statement": "setSerialConfig returns true iff baud rate and data bits are supported, and then exactly these are configured. The expectation that a rejected call changes nothing is false: a supported baud rate is kept although the data bits were rejected.", "quantifier": "every baud rate and data bits", "why_tests_cant": "2^40 inputs", "anchors": ["cicada/platform/linux/unixserial.cpp:setSerialConfig", "cicada/platform/stm32f1/stm32uart.cpp:setSerialConfig"]}
{"id": "C54", "title": "MAC request depends on signedness of char", "statement": "Expected: requestMac() leads to a MAC query. Where char is unsigned, the next run() of a driver that is ready to send a command sends exactly this query (or handles a received line first). Where char is signed (x86 Linux) no history ever sends the query.", "quantifier": "every history; every ready state", "why_tests_cant": "platform dependent", "anchors": ["cicada/commdevices/espressif.cpp:requestMac", "cicada/commdevices/cc1352p7.cpp:requestMac"]}
{"id": "C55", "title": "Commands come in the documented order", "statement": "In every history of a driver, every connection command it sends is a documented successor of the connection command (or block of payload) it sent before: the tables list, per driver, echo off, context or network set-up, DNS query, open, send announcement followed by payload, data requests, close. Requests for signal strength, identification and MAC address may come in between, the modem reset and the start from the beginning at any time where the tables say so. Payload is always directly preceded by the send announcement.", "quantifier": "all histories from the constructor (any modem input, interrupts, API calls)", "why_tests_cant": "the order must hold for every interleaving of modem lines, errors, resets and calls, not only for the dialogues recorded in a test", "anchors": ["cicada/commdevices/sim7x00.cpp:run", "cicada/commdevices/sim800.cpp:run", "cicada/commdevices/espressif.cpp:run", "cicada/commdevices/cc1352p7.cpp:run"]}
{"id": "C56", "title": "Commands are sent whole", "statement": "If the text of a command fits into the free part of the transmit buffer, the serial device accepts all of it; commands of up to 20 bytes are always accepted whole outside a modem reset of SIM7x00 and Espressif, because run() checks for that much space first. Longer commands (with host, APN, SSID, password) are cut off without notice when at least 20 but too few bytes are free, and the reset commands of SIM7x00 and Espressif are sent without any check.", "quantifier": "every driver state, every fill level, every command, every interrupt schedule", "why_tests_cant": "needs every fill level of the transmit buffer", "anchors": ["cicada/commdevices/sim7x00.cpp:run", "cicada/commdevices/sim800.cpp:run", "cicada/commdevices/espressif.cpp:run", "cicada/commdevices/cc1352p7.cpp:run", "cicada/commdevices/atcommdevice.cpp:sendCommand"]}
{"id": "C57", "title": "Announced data belong to the current connection", "statement": "Expected: data requests on a connection are for data announced on that connection. False for all drivers: the count of announced bytes (WiFi, WiSUN: the pending mark) survives the end of a connection, and the next connection asks for data the modem never announced there. Also expected: no more is asked for than was announced. False for WiFi and WiSUN: an announcement replaces the count, and if it is smaller than the amount already asked for, the count wraps to about 2^64.", "quantifier": "every history", "why_tests_cant": "needs an announcement at the moment of the disconnect", "anchors": ["cicada/commdevices/sim7x00.cpp:run", "cicada/commdevices/sim800.cpp:run", "cicada/commdevices/espressif.cpp:run", "cicada/commdevices/cc1352p7.cpp:run", "cicada/commdevices/atcommdevice.cpp:handleDisconnect", "cicada/commdevices/espressif.cpp:parseCiprecvdata"]}
{"id": "C58", "title": "disconnect() only ends the current connection", "statement": "Expected: after the driver became idle and connect() was called again, the new connection is opened and stays open until the application asks otherwise. False for all drivers: a second disconnect() while the driver is closing is remembered and aborts the next connection.", "quantifier": "every history", "why_tests_cant": "needs a call in the closing phase", "anchors": ["cicada/commdevices/sim7x00.cpp:run", "cicada/commdevices/sim800.cpp:run", "cicada/commdevices/espressif.cpp:run", "cicada/commdevices/cc1352p7.cpp:run", "cicada/ipcommdevice.cpp:disconnect"]}
{"id": "C59", "title": "Commands are complete texts with the settings of the application", "statement": "In every state, one run() starts at most one command, and what it writes for it is, taken together, a complete line of the command language of the modem, ended by CR LF, containing exactly the host, port, protocol, access point name, SSID and password set by the application (for the cellular modems the address that the name server gave), with numbers as plain decimal digits.", "quantifier": "all states with a port below 65536, any modem input", "why_tests_cant": "a test compares a few commands with expected strings; it cannot show that no state mixes up settings or leaves a command unfinished", "anchors": ["cicada/commdevices/sim7x00.cpp:run", "cicada/commdevices/sim800.cpp:run", "cicada/commdevices/espressif.cpp:run", "cicada/commdevices/cc1352p7.cpp:run"]}
{"id": "C60", "title": "A serial port holds one file descriptor", "statement": "On Linux, a driver that polls its port holds one file descriptor if the port is open and none otherwise, provided the terminal can be configured; a successful open() applies the last accepted configuration; configuring an open port has no effect until it is opened again. The expectation that a failed open() leaves nothing behind is false: if the terminal cannot be configured, every run() leaks one descriptor.", "quantifier": "all histories of polls, closes and configurations", "why_tests_cant": "the leak and its absence are statements about unbounded histories", "anchors": ["cicada/platform/linux/unixserial.cpp:open", "cicada/platform/linux/unixserial.cpp:close"]}
{"id": "C61", "title": "The end of a connection is noticed", "statement": "If the server closes the connection while nothing is to be sent or received, the drivers for SIM800, Espressif and CC1352P7 close their side (AT+CIPSHUT, AT+CWQAP, nothing) and become idle when the modem confirms. The expectation is false for SIM7x00: it reports the connection for ever and sends nothing, however often run() is called. If the server closes while data are being fetched, the SIM7x00 driver does not return to the state of an open connection after the last of them: from the next run() on it reports neither a connection nor that it is idle, until a line arrives or the application calls connect() or disconnect().", "quantifier": "every connection and every such dialogue, lines arriving in pieces of any size; for the last sentence every state of the driver and any number of run() calls", "why_tests_cant": "liveness; unbounded number of run() calls", "anchors": ["cicada/commdevices/sim7x00.cpp:run", "cicada/commdevices/sim800.cpp:run", "cicada/commdevices/espressif.cpp:run", "cicada/commdevices/cc1352p7.cpp:run"]}
{"id": "C62", "title": "A connected driver and a modem that buffers data lose nothing between them", "statement": "While a connection is open, in every interleaving of write(), read(), run(), data from the server, announcements of data, unrelated lines and answers of the modem to the driver's commands (the modem hears exactly what the driver has sent): the bytes the modem has for the server are a prefix of the bytes write() accepted, and the rest is in the write buffer; the bytes read() has handed out are a prefix of those the server has sent, and the rest is in the read buffer, in the block being received, or in the modem. The driver reports a connection all the time, and everything it sends arrives complete.", "quantifier": "every driver (Espressif: TCP, both formats of the reply with data), every sequence of earlier connections, all buffer sizes from a minimum on, every sequence of acts of application, server and modem, lines and blocks of data arriving in arbitrary pieces, with any acts of the application between the pieces", "why_tests_cant": "needs all interleavings of two peers and the application; a test runs few of them against a fixed script", "anchors": ["cicada/commdevices/sim7x00.cpp:run", "cicada/commdevices/sim800.cpp:run", "cicada/commdevices/espressif.cpp:run", "cicada/commdevices/cc1352p7.cpp:run", "cicada/commdevices/simcommdevice.cpp:sendCiprxget2", "cicada/commdevices/simcommdevice.cpp:parseCiprxget2", "cicada/commdevices/simcommdevice.cpp:parseCiprxget4", "cicada/commdevices/atcommdevice.cpp:prepareSending", "cicada/commdevices/atcommdevice.cpp:sendData", "cicada/commdevices/atcommdevice.cpp:receive"]}
{"id": "C63", "title": "Everything that was written is sent and everything the server sent can be read", "statement": "From every state reached as in C62, when application and server send nothing more, and in each of a sufficient number of rounds run() is called, at least one byte may be read, and the modem may say whatever it has to say: the modem has for the server exactly the accepted bytes, read() has handed out exactly the bytes of the server, and the connection is up. The number of rounds is linear in the number of bytes under way. disconnect() then closes the connection, and the driver is idle.", "quantifier": "as C62; every sequence of rounds with these acts in any order and with other lines between them", "why_tests_cant": "termination of a protocol between two peers under every fair schedule", "anchors": ["cicada/commdevices/sim7x00.cpp:run", "cicada/commdevices/sim800.cpp:run", "cicada/commdevices/espressif.cpp:run", "cicada/commdevices/cc1352p7.cpp:run", "cicada/commdevices/atcommdevice.cpp:prepareSending", "cicada/commdevices/atcommdevice.cpp:receive", "cicada/commdevices/atcommdevice.cpp:handleDisconnect"]}
{"id": "C64", "title": "The bytes on the serial line are those the driver and the application handed over", "statement": "In every history in which the modem asks for payload only after it has got the command: the bytes that left the serial port are a prefix of the commands, payload and serialWrite() data in the order in which they were handed to the serial device, and the rest is in the transmit buffer. Nothing is lost, repeated or inserted, also when writes are cut for lack of space. The same holds whenever payload fits into the free space when it is handed over. Without this the payload overwrites bytes in the transmit buffer, as sendData() does not check for space.", "quantifier": "every driver, all buffer sizes, all histories with interrupts between and during calls", "why_tests_cant": "needs the relation between two buffers with different fill levels and interrupts at all times", "anchors": ["cicada/commdevices/atcommdevice.cpp:sendData", "cicada/commdevices/atcommdevice.cpp:prepareSending", "cicada/commdevices/atcommdevice.cpp:sendCommand", "cicada/commdevices/atcommdevice.cpp:serialWrite", "cicada/bufferedserial.cpp:write", "cicada/bufferedserial.cpp:copyToBuffer"]}
{"id": "C65", "title": "disconnect() lets accepted data go first", "statement": "In all histories: while the connection is open, run() takes up a request to disconnect only when the write buffer is empty; then everything that write() accepted was sent (if at most one byte leaves the transmit buffer between two accesses of the driver). But data which write() accepts after that, while isConnected() still returns true, are not sent on the connection.", "quantifier": "every driver, all buffer sizes, all histories with interrupts between and during calls", "why_tests_cant": "needs an invariant over all states in which data are received or the connection is closed", "anchors": ["cicada/commdevices/sim7x00.cpp:run", "cicada/commdevices/sim800.cpp:run", "cicada/commdevices/espressif.cpp:run", "cicada/commdevices/cc1352p7.cpp:run", "cicada/commdevices/atcommdevice.cpp:handleDisconnect", "cicada/commdevices/ipcommdevice.cpp:write"]}
{"id": "C66", "title": "Data go to the peer they were written for", "statement": "False: data that are not sent when a connection ends stay in the write buffer and are sent to the peer of the next connection, which may be another host. If resetStates() is called in between this cannot happen: what is sent after resetStates() was accepted after it, in this order.", "quantifier": "every driver; resetStates(): all buffer sizes, all histories in which at most one byte leaves the transmit buffer between two accesses of the driver", "why_tests_cant": "needs two connections and data left over from the first; the positive part needs the whole history of accepted and sent bytes", "anchors": ["cicada/commdevices/sim7x00.cpp:run", "cicada/commdevices/sim800.cpp:run", "cicada/commdevices/espressif.cpp:run", "cicada/commdevices/cc1352p7.cpp:run", "cicada/commdevices/ipcommdevice.cpp:write", "cicada/commdevices/simcommdevice.cpp:resetStates"]}
{"id": "C67", "title": "Recovery after refusals", "statement": "A modem may refuse commands any number of times, at any step on the way to the connection, also while the driver recovers (SIM800, Espressif, CC1352P7: also when the connection is open). The driver resets the modem or closes what is open and starts over, without any help of the application. It says just the commands of the documented dialogue, in this order, whole. When the modem has given all answers, isConnected() returns true; connect() was called once.", "quantifier": "every driver, every peer and access data that fit the transmit buffer, any number of earlier connections, any list of refusals at any steps, all calls of run() in between, lines in any pieces", "why_tests_cant": "unit tests try one refusal at one step; any list of refusals at any steps needs an induction over the steps of the recovery", "anchors": ["cicada/commdevices/sim7x00.cpp:run", "cicada/commdevices/sim800.cpp:run", "cicada/commdevices/espressif.cpp:run", "cicada/commdevices/cc1352p7.cpp:run", "cicada/commdevices/simcommdevice.cpp:parseDnsReply", "cicada/commdevices/atcommdevice.cpp:handleConnect"]}
{"id": "C68", "title": "disconnect() while a connection is opened", "statement": "The application may call disconnect() after any number of answers of the modem on the way to the connection. The driver goes on with the opening to the point where it can be given up, closes what has been opened, says just the commands of the documented dialogue, in this order, whole, and is idle; connections before and after are opened and closed as ever. SIM800: this is so if disconnect() is followed by an accepted connection; if disconnect() is called while the connection is awaited and the server refuses (CONNECT FAIL), the driver waits for ever, says nothing and is never idle again, unless the modem reports an error.", "quantifier": "every driver, every peer and access data that fit the transmit buffer, any number of earlier and later connections, disconnect() after any number of answers, all calls of run() in between, lines in any pieces", "why_tests_cant": "unit tests call disconnect() at one point of one dialogue; any point, any texts, any pieces of lines and any history need a proof, as does that no line ends the wait", "anchors": ["cicada/commdevices/sim7x00.cpp:run", "cicada/commdevices/sim800.cpp:run", "cicada/commdevices/espressif.cpp:run", "cicada/commdevices/cc1352p7.cpp:run", "cicada/commdevices/atcommdevice.cpp:handleDisconnect", "cicada/commdevices/atcommdevice.cpp:disconnect"]}
{"id": "C69", "title": "Questions to the modem are answered", "statement": "The application may call requestRSSI(), requestIDString() or requestMac() while the driver is idle or connected, any number of times before and during any number of connections. The next run() passes the question on, whole, and sends nothing else; until the answer comes getRSSI(), getIDString() and getMacString() return no value, in particular no old one; after the answer (a line with the value, then OK) they return exactly the value the modem sent (texts cut to the size of the buffer, the signal strength converted), and the driver is idle or connected as before; connections afterwards work as ever. Answers the drivers do not understand: Espressif asks for ever if the name of the network is so long that the line with the signal strength does not fit into the line buffer, and if the answer is 32767, and reports the channel if the name has a comma; the cellular drivers take a message like RING for the identification; without a valid ICCID the SIM7x00 driver waits for ever and does not connect.", "quantifier": "every driver, every value, any number of questions and connections, other lines before the answer, lines in any pieces, any number of calls of run() in between", "why_tests_cant": "unit tests ask one question with one answer; any values, any pieces of lines, and any history of connections and questions need a proof", "anchors": ["cicada/commdevices/sim7x00.cpp:run", "cicada/commdevices/sim800.cpp:run", "cicada/commdevices/espressif.cpp:run", "cicada/commdevices/cc1352p7.cpp:run", "cicada/commdevices/simcommdevice.cpp:requestIDString", "cicada/commdevices/simcommdevice.cpp:parseIDReply", "cicada/commdevices/simcommdevice.cpp:parseCsq", "cicada/commdevices/espressif.cpp:requestMac"]}
{"id": "C70", "title": "Answers are waited for", "statement": "After a command that asks the modem for a value (signal strength, identification, MAC address, IP address of the host, own IP address, amount of received data, received data) the driver transmits nothing, in no state and whatever the application calls, until the modem has sent a line with the value, or the receive buffers were flushed because of a modem error, or the application called resetStates(). In particular OK without the value stops the driver. After requestIDString(ICCID) only a valid ICCID counts as the value. The expectation that requestIDString() called again before the answer gets its own answer is false: the second question is never passed on, the answer to the first is reported.", "quantifier": "every history of every driver from its constructor: all calls, all bytes from the modem, all schedules of interrupts", "why_tests_cant": "unit tests can look at a few answers only; that no history makes the driver talk over an open question needs an invariant", "anchors": ["cicada/commdevices/sim7x00.cpp:run", "cicada/commdevices/sim800.cpp:run", "cicada/commdevices/espressif.cpp:run", "cicada/commdevices/cc1352p7.cpp:run", "cicada/commdevices/simcommdevice.cpp:requestIDString", "cicada/commdevices/simcommdevice.cpp:parseIDReply", "cicada/commdevices/simcommdevice.cpp:parseDnsReply", "cicada/commdevices/simcommdevice.cpp:parseCsq"]}
{"id": "C71", "title": "An attached modem is detected and can be used", "statement": "An application opens the port through ModemDetect, starts the detection and keeps calling run(). If the attached modem answers the identification query as its model does, modemDetected() becomes true, whatever the modem has said before the start, whatever other lines come before and after the answer, in whatever pieces they arrive, and however often run() is called; nothing but the queries is sent. The object from getDetectedModem() is the driver for the modem and works like one constructed by hand on a fresh port: after the rest of the answer has arrived it opens and closes any number of connections, answers questions, and is connected in the end after exactly the commands needed. The expectation that it can be used at once is false: the detector does not wait for the OK of the query, the driver takes it for the answer to its own first command, and the CC1352P7 driver reports a connection the modem has not confirmed.", "quantifier": "all serial buffer sizes from 60 and 20 bytes, all other lines and ways to split them, all numbers of calls of run(), all sequences of connections and questions, all hosts and passwords that fit", "why_tests_cant": "needs every interleaving of lines, pieces and calls, and histories of any length after the detection; a test plays a few dialogues", "anchors": ["cicada/commdevices/modemdetect.cpp:run", "cicada/commdevices/modemdetect.cpp:getDetectedModem", "cicada/commdevices/modemdetect.cpp:startDetection"]}
{"id": "C72", "title": "Blocking calls on a driver", "statement": "An application uses a driver with an open connection through BlockingCommDevice, after any use of the connection. While a call waits, run() is called, the modem says things in any pieces, and the server may send more. A blocking read returns the next bytes of the server, at most as many as asked for, and loses none, also when it gives up. A blocking write that does not return 0 has had exactly its data sent to the server, after all data before; a write that returns 0 has handed over all of its data or none. If everybody does his part and the timeout is long enough, a read of bytes that have come ends with exactly these bytes, and a write of data that fits into the write buffer ends with everything sent, provided the unread bytes of the server fit into the read buffer. The expectation that a write ends without this proviso is false: with a full read buffer and more data in the modem the drivers send nothing, and as nobody reads while the caller waits, the write waits for ever. The expectation that a write that returns 0 has sent nothing is false too.", "quantifier": "all buffer sizes, all histories of the connection, all behaviours of clock, server and modem while waiting, all lengths below 2^31, all timeouts", "why_tests_cant": "needs every interleaving of the waiting loops with modem and server, and an argument that the loops end; a test waits for a few", "anchors": ["cicada/commdevices/blockingcommdev.cpp:read", "cicada/commdevices/blockingcommdev.cpp:write", "cicada/commdevices/ipcommdevice.cpp:spaceAvailable", "cicada/commdevices/ipcommdevice.cpp:writeBufferProcessed", "cicada/commdevices/sim7x00.cpp:run", "cicada/commdevices/sim800.cpp:run", "cicada/commdevices/espressif.cpp:run", "cicada/commdevices/cc1352p7.cpp:run"]}
{"id": "C73", "title": "Bytes that arrive early wait for their turn", "statement": "The modem does not wait for run(). If a complete line is in the receive buffer, further bytes that arrive before the next run() have exactly the same effect as if they had arrived after it, whatever the line says, provided they fit into the receive buffer; likewise bytes behind a block of data that is there completely. So it does not matter how often run() is called between lines, and every property shown for bytes that come line by line carries over. The exceptions are exact: when the driver is about to ask for data, early bytes reduce the amount it asks for.", "quantifier": "all histories from the constructor (interrupts between calls), all platforms, all connection types, all buffers, all lines, all further bytes, all four drivers", "why_tests_cant": "Every test feeds one particular timing; that a different timing makes no difference is a statement about pairs of executions, for all states.", "anchors": ["cicada/commdevices/sim7x00.cpp:run", "cicada/commdevices/sim800.cpp:run", "cicada/commdevices/espressif.cpp:run", "cicada/commdevices/cc1352p7.cpp:run", "cicada/commdevices/simcommdevice.cpp:fillLineBuffer", "cicada/bufferedserial.cpp:transferToAndFromBuffer", "cicada/linecircularbuffer.h:LineCircularBuffer"]}
{"id": "C74", "title": "The answer to a request for data fits into the receive buffer", "statement": "When the Espressif or the CC1352P7 driver asks the modem for data, the whole answer - header, as many bytes as asked for, final line - fits into what is free of the serial receive buffer, so that no byte of it is dropped however late run() is called next. For the SIM7x00 and SIM800 drivers the same expectation is false: they keep 8 bytes free, but the header alone has at least 19. If the answer arrives before run() is called again, its end is dropped, and the driver delivers bytes of the next notification to the application as if the server had sent them.", "quantifier": "all histories from the constructor (interrupts between calls), all buffer sizes, all amounts, all data; witnesses for the SIM drivers", "why_tests_cant": "A test with a buffer larger than the data, or with prompt calls of run(), never sees the loss; that the reserve is large enough for every header is a statement about all amounts.", "anchors": ["cicada/commdevices/espressif.cpp:sendCiprcvdata", "cicada/commdevices/cc1352p7.cpp:sendCiprcvdata", "cicada/commdevices/simcommdevice.cpp:sendCiprxget2", "cicada/bufferedserial.cpp:transferToAndFromBuffer"]}
{"id": "C75", "title": "Nothing is lost when modem and driver do not wait for each other", "statement": "The modem and a connected driver are joined by a cable with flow control: what the modem says (answers, announcements of data, unrelated lines, blocks of data) is on its way for any time and arrives in the receive buffer in portions of any size, whether or not the driver has dealt with what came before; run() is called at any time. Then, in every interleaving with write(), read() and data from the server, the bytes the modem has for the server are a prefix of the accepted ones and the rest is in the write buffer, the bytes handed out are a prefix of those the server has sent, and the driver reports a connection all the time. Whatever is on its way or waits in the receive buffer is read by a bounded number of calls of run(). When application and server send nothing more, everything is delivered after a number of rounds that is linear in the number of bytes under way, and disconnect() then closes the connection.", "quantifier": "every driver (Espressif: TCP, both formats of the reply with data), every sequence of earlier connections, all buffer sizes from a minimum on, every sequence of acts of application, server, modem and cable", "why_tests_cant": "needs all interleavings and all delays of a full-duplex line between two peers; a test feeds bytes at a few chosen moments", "anchors": ["cicada/commdevices/sim7x00.cpp:run", "cicada/commdevices/sim800.cpp:run", "cicada/commdevices/espressif.cpp:run", "cicada/commdevices/cc1352p7.cpp:run", "cicada/commdevices/simcommdevice.cpp:fillLineBuffer", "cicada/commdevices/simcommdevice.cpp:sendCiprxget2", "cicada/commdevices/atcommdevice.cpp:receive", "cicada/bufferedserial.cpp:transferToAndFromBuffer"]}
{"id": "C76", "title": "Data blocks that are bigger than the serial receive buffer", "statement": "run() takes a block of payload only when it is complete in the receive buffer of the serial device. Once more payload is due than this buffer has places, nothing happens on the serial line any more, whatever is called and received, until disconnect() or resetStates(). After disconnect() each call of run() throws away what has arrived of the block. If no byte arrives while the driver runs and the modem never sends more than it was asked for, this does not happen: the payload that is due always leaves room for 8 (SIM800, SIM7x00) or 30 (Espressif, CC1352P7) more bytes. It does happen, with a modem that does what it is asked for, if bytes arrive between the two looks at the fill level of the receive buffer: the driver then asks for more than the buffer can hold. With UDP or SSL the WiFi driver asks for nothing, so a datagram bigger than the receive buffer ends all traffic.", "quantifier": "every driver, every history from the constructor (Espressif: TCP, datagrams apart), all buffer sizes, all calls and received bytes before and after", "why_tests_cant": "the failure needs an interrupt between two particular instructions of one call, and that nothing helps afterwards is a statement about all continuations", "anchors": ["cicada/commdevices/atcommdevice.cpp:receive", "cicada/commdevices/simcommdevice.cpp:sendCiprxget2", "cicada/commdevices/sim7x00.cpp:run", "cicada/commdevices/sim800.cpp:run", "cicada/commdevices/espressif.cpp:run", "cicada/commdevices/cc1352p7.cpp:run"]}
{"id": "C77", "title": "How often run() has to be called so that no received byte is lost", "statement": "run() takes at most one line or one block of payload out of the receive buffer of the serial device. If the driver is run at least once per k received bytes, starting with an empty receive buffer, no byte is ever lost, however long it is used and whatever the modem sends and the application calls, provided that no line is shorter than k bytes, the receive buffer has at least 2k places, and k is at most 9 (SIM800, SIM7x00) or 31 (Espressif, CC1352P7). With k = 1 this is a condition on the calls of run() only. The other conditions are that the serial device is open and not locked, bytes arrive between calls only, 20 places are free in the transmit buffer when run() is called, and the modem sends neither more payload than it was asked for nor empty data blocks. The condition on the length of lines is needed: with two line feeds per call of run() a receive buffer of 80 places overflows.", "quantifier": "every driver, every history from the constructor followed by every steady use (Espressif: TCP), all buffer sizes, all received bytes", "why_tests_cant": "overflow depends on the interleaving of all received bytes with all calls over an unbounded time; a test sees finitely many schedules", "anchors": ["cicada/commdevices/atcommdevice.cpp:receive", "cicada/commdevices/simcommdevice.cpp:fillLineBuffer", "cicada/commdevices/sim7x00.cpp:run", "cicada/commdevices/sim800.cpp:run", "cicada/commdevices/espressif.cpp:run", "cicada/commdevices/cc1352p7.cpp:run", "cicada/bufferedserial.cpp:transferToAndFromBuffer"]}
{"id": "C78", "title": "How long a driver sleeps and how soon it is run again", "statement": "A driver only ever asks the scheduler for certain delays: 0, 10, 2000 or 4000 ms (SIM7x00), 0, 10 or 2000 ms (SIM800), 0, 10 or 100 ms (Espressif), 0 (CC1352P7). While it is connected the delay is 0 (SIM7x00), at most 10 ms (SIM800), 0 or 100 ms (Espressif; 100 ms when a request to disconnect was taken up). In a system of n tasks, which may use the driver in any way, whose scheduler is called at least every B ms, the driver is therefore run again after at most 4000 + n B ms (2000, 100, 0 for the other drivers), and after at most n B ms while connected (10 + n B, 100 + n B, n B). But a SIM7x00 driver that restarted its modem keeps the delay of 4 s: it reads one line of the messages of the booting modem every 4 s, even if all of them have arrived, and the delay is still 4 s after the line it waits for.", "quantifier": "every driver, every history from the constructor, every system of tasks, every sequence of call times including wrap-around of the 32 bit tick", "why_tests_cant": "the worst case over all interleavings of tasks, times and modem answers; tests have a fake clock and single tasks", "anchors": ["cicada/scheduler.cpp:runTask", "cicada/task.h:setDelay", "cicada/commdevices/sim7x00.cpp:run", "cicada/commdevices/sim800.cpp:run", "cicada/commdevices/espressif.cpp:run", "cicada/commdevices/cc1352p7.cpp:run"]}
{"id": "C79", "title": "No more connections are opened than were asked for", "statement": "In every history the number of commands by which a driver opens a connection (AT+CIPOPEN on the SIM7x00, AT+CIPSTART on the others) is at most the number of successful calls of connect() plus the number of lines received by which the modem reports a failure: ERROR, +CIPOPEN with a code other than 0, +CDNSGIP: 0 (SIM7x00); ERROR, +CME ERROR, +PDP: DEACT, CONNECT FAIL, +CDNSGIP: 0 (SIM800); ERROR, FAIL (Espressif); ERROR, SEND FAIL (CC1352P7). In particular a connection closed by the other side is not opened again by the driver. But a request stays a request: connect() while connected makes the driver open another connection after the next disconnect(), even if disconnect() was called after it, and disconnect() right after the first connect() has no effect.", "quantifier": "every driver, every history from the constructor, all modem input", "why_tests_cant": "the count is over whole histories with arbitrary input; a test sees one session", "anchors": ["cicada/commdevices/ipcommdevice.cpp:connect", "cicada/commdevices/ipcommdevice.cpp:disconnect", "cicada/commdevices/atcommdevice.cpp:handleConnect", "cicada/commdevices/sim7x00.cpp:run", "cicada/commdevices/sim800.cpp:run", "cicada/commdevices/espressif.cpp:run", "cicada/commdevices/cc1352p7.cpp:run"]}
{"id": "C80", "title": "Idle only after the modem reported the end of the connection", "statement": "In every history, once a driver has sent the command that opens a connection (AT+CIPOPEN on the SIM7x00, AT+CIPSTART on the others), isIdle() is false until the modem has sent a line by which it reports the end: SIM7x00 +IPCLOSE: 0, or, after AT+NETCLOSE, +NETCLOSE: 0, or, after AT+CRESET, RDY; SIM800 0, CLOSED or, after AT+CIPSHUT, SHUT OK or an error; Espressif WIFI DISCONNECT or, after AT+RST, ready; CC1352P7 CLOSED or, after AT+CIPCLOSE, OK; or resetStates() is called. For the SIM800 this holds in histories in which the serial device can be opened; if opening it fails while a connection is open, the driver may become idle and connect anew without having closed the connection. A SIM7x00 becomes idle on +IPCLOSE while AT+NETCLOSE is not confirmed yet. A CC1352P7 that answers AT+CIPCLOSE with an error three times in a row is sent the command four times.", "quantifier": "every driver, every history from the constructor, all modem input", "why_tests_cant": "idle is reached over many different paths, one for each place where a line may arrive; a test sees one", "anchors": ["cicada/commdevices/ipcommdevice.cpp:isIdle", "cicada/commdevices/sim7x00.cpp:run", "cicada/commdevices/sim800.cpp:run", "cicada/commdevices/espressif.cpp:run", "cicada/commdevices/cc1352p7.cpp:run"]}
{"id": "C81", "title": "Ticks follow the time", "statement": "The tick function of Linux, which uses floating point numbers, returns the time in milliseconds without fraction or one more, modulo 2^32; later calls return no smaller number of milliseconds. The difference of two ticks is less than 2 ms off the time between the calls, as long as that is below 2^32 - 2 ms. Under the scheduler a task is never run again earlier than 2 ms before its delay has passed, and a task whose delay and one millisecond have passed is run when its turn comes. A task may be run before its delay has passed: 9.000001 ms after its last run with a delay of 10 ms. With the tick function for no platform a task with a delay is never run.", "quantifier": "every rounding of floating point numbers that keeps order and natural numbers up to 2^53, all clock readings, all task bodies, all histories of the scheduler", "why_tests_cant": "depends on rounding, on the fraction of a millisecond and on wraps after 49 days", "anchors": ["cicada/platform/linux/tick_linux.cpp:eTickFunction", "cicada/platform/noplatform/tick_none.cpp:eTickFunction", "cicada/scheduler.cpp:runTask"]}
{"id": "C82", "title": "Datagrams are delivered whole and in order", "statement": "With a connection of the WiFi driver that is not TCP, and a modem that passes on datagrams of at least one byte that fit into the serial receive buffer, whenever the read buffer has room for them, in portions of any size and with other lines in between: the application reads the bytes of the datagrams in the order they came, none lost or doubled; datagrams become readable as a whole; if bytes keep arriving and run() keeps being called, all of them become readable. A datagram without content is different: after its header the driver takes nothing from the serial line any more and sends at most one further command, until disconnect() or resetStates().", "quantifier": "all sequences of connections before, all datagrams (with any bytes, also line ends and header texts), all splits into portions, all orders of arrivals, run() and read()", "why_tests_cant": "depends on where the header, the line and the data are cut by arrivals and calls; tests use one or two splits", "anchors": ["cicada/commdevices/espressif.cpp:run", "cicada/commdevices/espressif.cpp:fillLineBuffer", "cicada/commdevices/atcommdevice.cpp:receive"]}
{"id": "C83", "title": "A task with reentrant macros behaves like a thread", "statement": "Let run() be any combination of statements, branches, loops, break and continue with the macros E_REENTER_YIELD, _DELAY, _COND, _COND_DELAY, _COND_TIMEOUT and _COND_TIMEOUT_DELAY anywhere in it, also within nested loops. Then every sequence of calls of run(), at any ticks and with anything happening in between, has exactly the effects of a thread that executes the same text and waits where the macros are: everything it does, in the same calls, and the delays it asks the scheduler for; a call does not end iff the thread loops without waiting. After the end nothing is done any more. This does not hold for a return or a break outside of loops (every call repeats what comes after the last macro) and for a macro as the body of an if without braces (the task returns even if the condition is false, and begins again).", "quantifier": "all bodies, all conditions and actions with side effects, all ticks including wrap-around, all changes of the world between calls", "why_tests_cant": "the switch jumps into the middle of nested loops; a test checks one body; that every body works is a statement about all programs", "anchors": ["cicada/task.h:E_BEGIN_TASK_ARG", "cicada/task.h:E_END_TASK_ARG", "cicada/task.h:E_REENTER_YIELD_ARG", "cicada/task.h:E_REENTER_DELAY_ARG", "cicada/task.h:E_REENTER_COND_ARG", "cicada/task.h:E_REENTER_COND_DELAY_ARG", "cicada/task.h:E_REENTER_COND_TIMEOUT_ARG", "cicada/task.h:E_REENTER_COND_TIMEOUT_DELAY_ARG", "cicada/task.h:startTimeout"]}
{"id": "C84", "title": "Under one scheduler with a polled serial device no byte is lost while the driver is awake", "statement": "On Linux the serial device is a task that takes one byte from the operating system per run. If the driver and the serial device are tasks of one scheduler, together with any other tasks, every byte taken from the operating system reaches the receive buffer as long as the driver does not ask for a delay: always with CC1352P7, while connected with SIM7x00. This does not hold while the driver sleeps: the serial device goes on reading and drops what does not fit, although the operating system would have kept it.", "quantifier": "all systems of tasks and orders of tasks, all clocks, all behaviour of the other tasks (they do not close or lock the port, do not run the driver themselves and leave the delay of the serial device), all bytes, any number of scheduler calls, from any state in which the port is open and the receive buffer empty", "why_tests_cant": "the claim composes scheduler, serial task, ring buffer and driver over unbounded runs; a loss shows only when the phases of the tasks and the pace of the modem fall badly", "anchors": ["cicada/bufferedserial.h:BufferedSerialTask", "cicada/bufferedserial.cpp:transferToAndFromBuffer", "cicada/scheduler.cpp:runTask", "cicada/commdevices/cc1352p7.cpp:run", "cicada/commdevices/sim7x00.cpp:run", "cicada/commdevices/sim800.cpp:run", "cicada/commdevices/espressif.cpp:run"]}
{"id": "C85", "title": "The example for IP communication keeps the rules of the interface", "statement": "The task of examples/linux/ipcommdevice.cpp, run in any steps of the scheduler, makes its calls in the documented order: detection, configuration, connect(), one request, written while isConnected() holds, the answer in pieces, disconnect() when the connection is down, end when the driver is idle. It prints each piece of the answer up to its first zero byte. If the driver is run at most once between two turns of the task, then with every driver, whatever the modem says: buf[] is never exceeded, no read() is in vain, and when disconnect() is called every byte that was received has been read. Refuted expectations: the task does not end if the server closes without an answer, it waits for ever for the first byte; if the driver is run several times between two turns of the task, bytes received before the end of the connection stay unread and the task disconnects; bytes behind a zero are not printed.", "quantifier": "every driver and every history of it before, every sequence of turns, everything the modem, the interrupts, other tasks and other callers do in between", "why_tests_cant": "control flow of a reentrant task across any number of returns, composed with each driver; the loss depends on how the turns of the tasks interleave", "anchors": ["examples/linux/ipcommdevice.cpp:run", "cicada/commdevices/ipcommdevice.cpp:isConnected", "cicada/commdevices/sim7x00.cpp:run", "cicada/commdevices/sim800.cpp:run", "cicada/commdevices/espressif.cpp:run", "cicada/commdevices/cc1352p7.cpp:run"]}
{"id": "C86", "title": "The IP communication example as a whole program", "statement": "The program examples/linux/ipcommdevice.cpp, from main() on, with its three tasks (application, detector with driver, serial device) under the scheduler: whatever is connected to the serial port, whatever it says, whether or not the port can be opened, however many calls of the scheduler have been made and whatever the clock shows: the task uses the pointer to the driver only when it is not NULL, makes its calls in the documented order, never exceeds its buffer, and when it disconnects every byte received has been read and the connection is down. Every call of the task returns, so the other tasks always get their turn; the scheduler never leaves its list. With a WiSUN modem that answers, the program finds the modem, sends the request, prints the answer and ends.", "quantifier": "every modem and every sequence of bytes from it, every behaviour of the port, all ticks, any number of scheduler steps", "why_tests_cant": "composition of the scheduler, the reentrant task, the detector, each of the four drivers and the serial device over runs of any length", "anchors": ["examples/linux/ipcommdevice.cpp:run", "examples/linux/ipcommdevice.cpp:main", "cicada/scheduler.cpp:runTask", "cicada/commdevices/modemdetect.cpp:run", "cicada/commdevices/modemdetect.cpp:getDetectedModem"]}
{"id": "C87", "title": "The end-of-line test ends with a verdict", "statement": "The task of examples/linux/autodetectntp.cpp, with every driver and whatever modem and server do: every turn of it returns; if its turns are at most G milliseconds apart, it ends the program after 180 s and 3 G at the latest, across the overflow of the tick counter; it does not give up before the time allowed for each step (30, 60, 60, 30 s); the message of failure tells which step it was, with exactly the calls before it made; EXIT_SUCCESS means that the request was sent while connected, there was something to read and it was read, a time after November 2021 was printed, and the driver was idle at the end. The printed time is the time of the answer for all times up to 2106, also after the overflow of NTP in 2036. Refuted expectation: success does not mean that a time was received. Bytes of the packet that are missing in the answer are taken from the request; with 40 bytes or fewer the time is always 7 February 2036, which is accepted.", "quantifier": "every detector and driver, everything they and other tasks do between the turns, all times of the turns, all answers", "why_tests_cant": "time bounds over any schedule and any behaviour of the modem; wrap-around of the clock; the accepted wrong answer depends on what the buffer held before", "anchors": ["examples/linux/autodetectntp.cpp:run", "examples/linux/autodetectntp.cpp:checkExitEol", "cicada/task.h:startTimeout", "cicada/task.h:isTimeout"]}
{"id": "C88", "title": "Nothing gets stuck in the serial port of mbed", "statement": "A MbedSerial and its interrupts, from the constructor on, for every sequence of API calls interrupted between any two atomic steps: between the calls unsent data are buffered only if the transmit interrupt has its handler; the bytes on the wire followed by the buffered ones are the bytes the sized writes accepted, in order; a write accepts what there was space for when it was called; once the UART was ready to send often enough everything is on the wire, writeBufferProcessed() says so, and the handler is removed. Every byte received gets to the read buffer. Refuted expectation: close() does not close; open() and close() have no effect at all, isOpen() is always true, bytes are received before open() and after close(), and setSerialConfig() reports success for every setting. The tick counts the interrupts of the ticker modulo 2^32: a task runs again less than 1 ms before its delay has passed, at the earliest, and a task whose delay has passed is due.", "quantifier": "all buffers, all histories of calls and interrupts, all times", "why_tests_cant": "interleavings of interrupts with the copy loop; unbounded histories", "anchors": ["cicada/platform/mbed/mbedserial.cpp:handleInterrupt", "cicada/platform/mbed/mbedserial.cpp:startTransmit", "cicada/platform/mbed/mbedserial.cpp:close", "cicada/platform/mbed/mbedtick.cpp:increase"]}
{"id": "C89", "title": "The event loop example keeps the rules, but may end too early", "statement": "The program of examples/linux/eventloop.cpp and examples/stm32f1/eventloop.cpp from its first instruction, with any modem or none and whatever the serial port does, the detector being run once at most in each turn of the loop: the calls come in order, with one request while connected; it prints what it reads, stays within its buffer, reads nothing in vain, and does not dereference NULL; it ends as soon as the request was sent and the driver is idle, and not before. In the last turn 40 of the waiting bytes are read, the others are lost; so nothing is lost if never more than 40 bytes are waiting when the loop looks. On Linux, with the scheduler and any clock, a byte is moved in each direction in every second turn and the detector is run between if due, so all this holds. Refuted expectation: the whole answer is printed. With a WiSUN modem and an answer of 200 bytes, all of them in the serial buffer when the driver is run, after which the server closes the connection, 160 are printed.", "quantifier": "all platforms, buffers, modems, interleavings; any number of turns", "why_tests_cant": "whether bytes are lost depends on the size of the blocks and on how soon the connection is closed", "anchors": ["examples/linux/eventloop.cpp:main", "examples/stm32f1/eventloop.cpp:main", "cicada/commdevices/modemdetect.cpp:getDetectedModem", "cicada/scheduler.cpp:runTask"]}
{"id": "C90", "title": "The blocking example reads until two seconds of silence", "statement": "The program of examples/linux/blocking.cpp from its first instruction, with the SIM7x00 driver under the scheduler, any modem, serial port and clock. If it comes to its end: the driver was configured and asked to connect; the request was handed over at once and completely, or, if there was no space for two seconds, not at all; the answer was read in pieces of at most 40 bytes up to an empty one, and each piece was printed, up to its first zero; the driver was asked to disconnect and is idle. A piece of fewer than 40 bytes took more than two seconds, so reading stops only after two seconds without a byte. What was read, followed by what is left in the driver, is the payload taken from the serial line, if the modem honours the requested amount. In its turn, every second call of the scheduler, the driver is run if and only if the delay it set is over. Refuted expectations: that the program comes to its end (with a modem that says nothing it waits for ever); that the whole answer is printed (the server makes a pause, the modem announces more data, the program has disconnected).", "quantifier": "all platforms, buffers, modems, interleavings, clocks; any number of turns", "why_tests_cant": "depends on the timing of modem and server in relation to the clock", "anchors": ["examples/linux/blocking.cpp:main", "examples/linux/blocking.cpp:yieldFunction", "cicada/commdevices/blockingcommdev.cpp:read", "cicada/commdevices/blockingcommdev.cpp:write", "cicada/commdevices/sim7x00.cpp:run", "cicada/scheduler.cpp:runTask"]}
{"id": "C91", "title": "The serial example alternates command and answer", "statement": "The task of examples/linux/serial_linux.cpp and examples/stm32f1/serial.cpp, with a write buffer of at least 400 bytes, any interrupts within the calls and any transfers between them; on Linux also the whole program under the scheduler, with any clock. At any time: if configuring or opening the port failed, the Linux program has ended; otherwise commands and answers alternate, a hundred at most, then the port is closed; each command is taken by the port as a whole, and what goes to the wire is a prefix of the commands; an answer has 1 to 31 bytes, so buf is not exceeded; what was read is a prefix of what was received, in order, and printed up to the zeros. Every call of run() returns. After an answer was read the next action comes at least 500 ms later. Refuted expectations: that the program ends (a device that does not answer gets one command only); that what is printed after a command is the answer to it (if the task looks in the middle of the answer, the rest is taken for the answer to the next command).", "quantifier": "all buffers, contents, interrupts, transfers, clocks; any number of turns", "why_tests_cant": "depends on when bytes arrive in relation to the polling; hundred rounds of waiting", "anchors": ["examples/linux/serial_linux.cpp:run", "examples/linux/serial_linux.cpp:main", "cicada/bufferedserial.cpp:write", "cicada/bufferedserial.cpp:read", "cicada/scheduler.cpp:runTask"]}
{"id": "C92", "title": "The clients with a counted loop", "statement": "The tasks of examples/mbed/main.cpp and examples/stm32f1/ipcommdevice_stm32.cpp, with any driver whose read() returns as many bytes as asked for as far as available (all drivers do), whatever happens between the calls. At any time: the calls come in the documented order, the request is sent while connected, the pieces read have 1 to 40 bytes, so buf is not exceeded, and are printed in order (mbed: each up to its first zero; STM32: all of it with a carriage return before each line feed); disconnect() is called after exactly 400 rounds, each of which read a piece or was a pause. Once something was read, 400 further calls of run() lead to disconnect(), whatever the driver and the server do; between them the task asks to be called after 10 or 20 ms. Every call of run() returns. Refuted expectations: that the whole answer is printed (at most 16000 bytes are, even if more are waiting; and after 399 pauses the task disconnects although the connection is up); that the task comes to its end (without an answer it waits for the first byte for ever).", "quantifier": "all drivers, data, interleavings; any number of turns", "why_tests_cant": "400 rounds, any division of the answer and any delays of the server", "anchors": ["examples/mbed/main.cpp:run", "examples/stm32f1/ipcommdevice_stm32.cpp:run", "cicada/task.h:E_REENTER_DELAY", "cicada/ipcommdevice.cpp:read"]}
{"id": "C93", "title": "The scheduler example prints its messages in time", "statement": "The program of examples/linux/scheduler.cpp, two tasks under one scheduler, with any clock. Each task prints its messages in the order of its text, for ever; the first task goes on to step 3 only after the second has woken it up. After each message of a task its next message comes not before the pause given in the text (2000 and 1500 ms; 3000, 2000, 3000 and 1000 ms), also if the 32-bit tick counter wraps around; and when the turn of the task comes after the pause, the message is printed in this turn, except that the first task waits at step 2 for the wakeup. Every call of run() returns.", "quantifier": "all sequences of ticks", "why_tests_cant": "needs any clock, any number of turns and the wrap-around after 49 days", "anchors": ["examples/linux/scheduler.cpp:run", "examples/linux/scheduler.cpp:main", "cicada/scheduler.cpp:runTask", "cicada/task.h:E_REENTER_DELAY", "cicada/task.h:E_REENTER_COND"]}
{"id": "C94", "title": "The sequence example publishes numbered packets every four seconds, except when the clock wraps around", "statement": "The loop of examples/stm32f1/mqttsequence.cpp, whatever the durations of the calls of the MQTT client. The n-th packet has 80 bytes: n modulo 2^32 in its first four bytes, low byte first, and 76 bytes which are computed one from the other beginning with the low byte of n. If the tick counter does not wrap around within four seconds after publish() has returned, the next packet is published at least these four seconds later; and less than the duration of a yield() after that, if the counter does not wrap around by then either. Refuted expectations: that there is a pause after each packet (there is none when the counter wraps around within the four seconds); that the next packet comes soon (when the counter wraps around in the call of yield(), it comes at least 49 days later, or never); that the data differ from packet to packet (they are the same for numbers with the same low byte).", "quantifier": "all start times, durations of calls and numbers of packets", "why_tests_cant": "the tick counter wraps around after 49 days", "anchors": ["examples/stm32f1/mqttsequence.cpp:main", "examples/stm32f1/mqttsequence.cpp:generateRand"]}
{"id": "C95", "title": "The NTP examples print the time of the server if its answer comes in one piece", "statement": "The tasks of examples/linux/ntp.cpp and examples/stm32f1/ntp.cpp with any driver whose read() returns as many bytes as asked for as far as available (all drivers do), whatever happens between the calls. The calls come in the documented order; the request of 48 bytes is sent once, while connected; when there is an answer it is read once, up to 48 bytes of what is there; the time in it is printed; the task disconnects and ends when the driver is idle. If 44 bytes or more were there, the time printed is that of the server, until the year 2106; byteSwap() of the STM32 example is right for all words. Every call of run() returns. Refuted expectations: that the time of the server is printed (if 40 bytes or fewer were there, a moment in 2036 is printed); that the task comes to its end (if the request or the answer is lost, it waits for ever).", "quantifier": "all drivers, interleavings and answers", "why_tests_cant": "depends on the timing of the driver and on the date", "anchors": ["examples/linux/ntp.cpp:run", "examples/stm32f1/ntp.cpp:run", "examples/stm32f1/ntp.cpp:byteSwap", "cicada/commdevices/ipcommdevice.cpp:read"]}
{"id": "C96", "title": "Bytes go through a Linux serial port in order, also over closing and opening", "statement": "A UnixSerial object used in any way (opened, closed, opened again, openings that fail, reconfigured, its task run at any time, the operating system accepting bytes or not). What the operating system accepted, followed by what is buffered, is exactly what the write calls reported as accepted; writeBufferProcessed() says whether all of it was accepted. What came in is handed over in order; without an opening in between nothing is lost on the way from the operating system to the port. If only the drivers open the port and the terminal can be configured: while isOpen() is false nothing is transferred, while it is true each run() moves one byte each way if there is one. Refuted expectations: that a port opened again starts afresh (what was written before is sent, what was received before is read); that nothing is transferred while isOpen() is false (if the terminal cannot be configured, bytes go both ways); that a port whose isOpen() is true transfers (after open() on an open port whose device is gone, isOpen() stays true, no driver opens it again, and nothing is transferred until it is closed).", "quantifier": "all histories, buffer sizes and answers of the operating system", "why_tests_cant": "depends on the operating system and on failures of system calls", "anchors": ["cicada/platform/linux/unixserial.cpp:open", "cicada/platform/linux/unixserial.cpp:close", "cicada/platform/linux/unixserial.cpp:rawRead", "cicada/platform/linux/unixserial.cpp:rawWrite", "cicada/platform/linux/unixserial.cpp:writeBufferProcessed", "cicada/bufferedserial.cpp:transferToAndFromBuffer"]}
{"id": "C97", "title": "What printf sends in the examples for the STM32", "statement": "printf() hands each character to _putchar(), which writes it to the port for messages without looking for space. As long as every character finds space, whenever the interrupts come, what was sent followed by what is buffered is what was printed. Refuted expectation: that at worst characters are lost when more is printed than fits. If e characters of a text do not fit (e less than the size of the buffer, no interrupt meanwhile), those are sent first and e older ones are lost; from then on, for every later history in which the characters fit, the output lags by e characters for ever: the e characters are sent again, and the last e characters printed are held back although the buffer counts as empty. Flushing the receive buffer does not change it.", "quantifier": "all buffer sizes, texts and interleavings with interrupts", "why_tests_cant": "needs more output than the buffer holds, and the damage shows later", "anchors": ["examples/stm32f1/dualport_stm32.cpp:_putchar", "examples/stm32f1/ipcommdevice_stm32.cpp:_putchar", "examples/stm32f1/printf.cpp:_putchar", "cicada/bufferedserial.cpp:write", "cicada/bufferedserial.cpp:copyToBuffer", "cicada/circularbuffer.h:push"]}
{"id": "C98", "title": "The MQTT examples wait for each of their messages", "statement": "examples/linux/blockingmqtt.cpp and examples/stm32f1/blockingmqtt_stm32.cpp with any MQTT client and broker. If the program comes to its end, the calls of the client were those of the text in order, and the number printed is that of the messages that arrived. With a broker that accepts everything and a topic nobody else uses: the program comes to its end, with three messages, each of which had come back before the next was published, the last before the program unsubscribes. Refuted expectations: that the program comes to its end (if the first message is lost it waits for ever); that it waits for its own messages (one of someone else that arrives upon subscribing is taken for the first one); that it waits for the messages after one that could not be published (it waits for none of them).", "quantifier": "all behaviours of the client and the broker", "why_tests_cant": "depends on the broker and on other users of the topic", "anchors": ["examples/linux/blockingmqtt.cpp:main", "examples/linux/blockingmqtt.cpp:messageArrived", "examples/stm32f1/blockingmqtt_stm32.cpp:main"]}
{"id": "C99", "title": "writeBufferProcessed() waits for the confirmation of the modem", "statement": "In every history of each of the four drivers: from the moment a block of payload was handed to the serial device until the modem confirms it (OK; SIM800: 0, SEND OK; Espressif: SEND OK), reports an error, or reports the end of the connection (SIM7x00, SIM800, Espressif), or the modem or the driver is reset, writeBufferProcessed() is false, isConnected() is true, and write() accepts nothing. Refuted expectation: that writeBufferProcessed() means that the data were sent; if the modem answers ERROR it is true as well.", "quantifier": "all histories of API calls, lines and bytes received", "why_tests_cant": "all interleavings of calls, lines and partial lines", "anchors": ["cicada/commdevices/ipcommdevice.cpp:writeBufferProcessed", "cicada/commdevices/ipcommdevice.cpp:write", "cicada/commdevices/sim7x00.cpp:run", "cicada/commdevices/sim800.cpp:run", "cicada/commdevices/espressif.cpp:run", "cicada/commdevices/cc1352p7.cpp:run"]}
