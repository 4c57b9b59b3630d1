import Verif.Model.BufferedSerial
import Verif.Model.CString

/-!
# Model of `cicada/commdevices/ipcommdevice.cpp` and `cicada/commdevices/atcommdevice.cpp`

`Dev S R X` is the state of a driver object: the members of `Task` (delay), `IPCommDevice` and
`ATCommDevice`, with the send state of type `S`, the reply state of type `R` (both `int8_t` members
holding values of an enumeration of the concrete driver) and further members `X` of the concrete
driver.

`trace` is a ghost field, never read by the model. It records what the driver does on the serial
line and the calls of the application.
-/

namespace Verif

/-- iipcommdevice.h, `ConnectionType`. -/
inductive ConnType
  | udp | tcp | ssl
deriving Repr, DecidableEq

/-- ipcommdevice.h:68-76, `ConnectState`. -/
inductive ConnState
  | notConnected | intermediate | connected | transmitting | receiving | generalError | dnsError
deriving Repr, DecidableEq

/-- Properties of the platform that are visible in the drivers: is `char` signed, has `long` 64 bits. -/
structure Platform where
  charSigned : Bool
  long64 : Bool
deriving Repr, DecidableEq

/-- Ghost events. -/
inductive Ev
  /-- The driver starts a command: first serial write of it; the string it wants to send and the part
  the serial device accepted. -/
  | cmd (want got : List Byte)
  /-- Further serial write of the same command. -/
  | arg (want got : List Byte)
  /-- A block of user payload handed to the serial device. -/
  | pay (bs : List Byte)
  /-- A line handed to the reply parser. -/
  | line (bs : List Byte)
  /-- Bytes moved from the serial device to the read buffer of the application. -/
  | data (bs : List Byte)
  /-- Bytes read from the serial device and thrown away. -/
  | drop (bs : List Byte)
  /-- `flushReceiveBuffers()`. -/
  | flush
  /-- `connect()` returned true, called by the application. -/
  | apiConnect
  /-- `disconnect()`. -/
  | apiDisconnect
  /-- `write()` accepted these bytes. -/
  | apiWrite (bs : List Byte)
  /-- `read()` delivered these bytes. -/
  | apiRead (bs : List Byte)
  /-- `resetStates()`. -/
  | apiReset
  /-- `serialWrite()` handed these bytes to the serial device. -/
  | userTx (bs : List Byte)
  /-- `serialRead()` took these bytes from the serial device. -/
  | userRx (bs : List Byte)
deriving Repr, DecidableEq

/-- State of a driver. `ser`: the serial device; `isOpen`: its open state; `rbuf`, `wbuf`:
`_readBuffer`, `_writeBuffer`; the seven flags: bits of `_stateBooleans` (ipcommdevice.h:32-38);
`cs`: `_connectState`; `wait`: `_waitForReply` (`none` is `NULL`); `line`, `lbFill`: `_lineBuffer`,
`_lbFill`; `snd`, `rep`: `_sendState`, `_replyState`; the counters are `Size`, i.e. numbers below 2^64
with explicit wrap-around where they are decremented or added to; `delay`: `Task::_delay`; `ub`:
sticky, undefined behaviour happened (not a member). -/
structure Dev (S R X : Type) where
  ser : Ser
  isOpen : Bool
  rbuf : Ring Byte
  wbuf : Ring Byte
  typ : ConnType
  host : Option (List Byte)
  port : Nat
  connectPending : Bool
  resetPending : Bool
  dataPending : Bool
  disconnectPending : Bool
  ipConnected : Bool
  lineRead : Bool
  serialLocked : Bool
  cs : ConnState
  wait : Option (List Byte)
  line : Mem
  lbFill : Nat
  snd : S
  rep : R
  bytesToWrite : Nat
  bytesToReceive : Nat
  bytesToRead : Nat
  rssi : Int
  delay : Nat
  ub : Bool
  trace : List Ev
  ext : X
deriving Repr, DecidableEq

/-- atcommdevice.h:31, `LINE_MAX_LENGTH`. -/
def lineMax : Nat := 60

/-- atcommdevice.cpp:30, `MIN_SPACE_AVAILABLE`. -/
def minSpace : Nat := 22

/-- atcommdevice.cpp:34, `_okStr`. -/
def okStr : List Byte := b!"OK"
/-- atcommdevice.cpp:35, `_lineEndStr`. -/
def lineEnd : List Byte := b!"\r\n"
/-- atcommdevice.cpp:36, `_quoteEndStr`. -/
def quoteEnd : List Byte := b!"\"\r\n"

/-- `INT16_MAX`. -/
def int16Max : Int := 32767

namespace Dev

variable {S R X : Type}

/-- Ghost: record an event. -/
def log (d : Dev S R X) (e : Ev) : Dev S R X := { d with trace := d.trace ++ [e] }

/-! ## Configuration and queries, `IPCommDevice` -/

/-- ipcommdevice.cpp:50-55, `setHostPort`. `port` is a `uint16_t`. -/
def setHostPort (d : Dev S R X) (h : Option (List Byte)) (p : UInt16) (t : ConnType) : Dev S R X :=
  { d with host := h, port := p.toNat, typ := t }

/-- ipcommdevice.cpp:57-65, `IPCommDevice::connect()`: new state, return value. -/
def ipConnect (d : Dev S R X) : Dev S R X × Bool :=
  if d.host = none ∨ d.port = 0 then (d, false)
  else ({ d with connectPending := true }, true)

/-- ipcommdevice.cpp:81-84, `isIdle()`. -/
def isIdle (d : Dev S R X) : Bool := d.cs == .notConnected

/-- ipcommdevice.cpp:75-79, `isConnected()`. -/
def isConnected (d : Dev S R X) : Bool :=
  d.cs == .connected || d.cs == .transmitting || d.cs == .receiving

/-- ipcommdevice.cpp:67-73, `disconnect()`. -/
def disconnect (d : Dev S R X) : Dev S R X :=
  if d.isIdle then d else { d with disconnectPending := true }

/-- ipcommdevice.cpp:86-89, `bytesAvailable()`. -/
def bytesAvailable (d : Dev S R X) : Nat := d.rbuf.bytesAvailable

/-- ipcommdevice.cpp:91-97, `spaceAvailable()`. -/
def spaceAvailable (d : Dev S R X) : Nat :=
  if d.cs ≠ .connected then 0 else d.wbuf.spaceAvailable

/-- ipcommdevice.cpp:99-102, `read(data, maxSize)`: the bytes stored in `data`. -/
def read (d : Dev S R X) (maxSize : Nat) : Dev S R X × List Byte :=
  let r := d.rbuf.pullN maxSize
  ({ d with rbuf := r.1 }, r.2)

/-- ipcommdevice.cpp:104-110, `write(data, size)`. -/
def write (d : Dev S R X) (data : List Byte) : Dev S R X × Nat :=
  if d.cs ≠ .connected then (d, 0)
  else
    let r := d.wbuf.pushN data
    ({ d with wbuf := r.1 }, r.2)

/-- ipcommdevice.cpp:112-115, `writeBufferProcessed()`. -/
def writeBufferProcessed (d : Dev S R X) : Bool :=
  d.wbuf.bytesAvailable == 0 && d.cs != .transmitting

/-! ## Serial output -/

/-- First `_serial.write(const uint8_t*)` of a command. -/
def cmd (d : Dev S R X) (s : List Byte) : Dev S R X :=
  let r := d.ser.writeStr s
  { d with ser := r.1, trace := d.trace ++ [.cmd s (s.take r.2)] }

/-- Further `_serial.write(const uint8_t*)` of a command. -/
def arg (d : Dev S R X) (s : List Byte) : Dev S R X :=
  let r := d.ser.writeStr s
  { d with ser := r.1, trace := d.trace ++ [.arg s (s.take r.2)] }

/-- First `_serial.write(const uint8_t*, Size)` of a command. -/
def cmdN (d : Dev S R X) (s : List Byte) : Dev S R X :=
  let r := d.ser.write s
  { d with ser := r.1, trace := d.trace ++ [.cmd s (s.take r.2)] }

/-- Further `_serial.write(const uint8_t*, Size)` of a command. -/
def argN (d : Dev S R X) (s : List Byte) : Dev S R X :=
  let r := d.ser.write s
  { d with ser := r.1, trace := d.trace ++ [.arg s (s.take r.2)] }

/-- atcommdevice.cpp:149-153, `sendCommand`. -/
def sendCommand (d : Dev S R X) (s : List Byte) : Dev S R X := (d.cmd s).arg lineEnd

/-- `_serial.spaceAvailable()`: the value. -/
def serSpace (d : Dev S R X) : Nat := d.ser.spaceAvailable.2
/-- `_serial.spaceAvailable()`: the state after it. -/
def askSpace (d : Dev S R X) : Dev S R X := { d with ser := d.ser.spaceAvailable.1 }
/-- `_serial.bytesAvailable()`: the value. -/
def serAvail (d : Dev S R X) : Nat := d.ser.bytesAvailable.2
/-- `_serial.bytesAvailable()`: the state after it. -/
def askAvail (d : Dev S R X) : Dev S R X := { d with ser := d.ser.bytesAvailable.1 }
/-- `_serial.flushReceiveBuffers()`. -/
def flushSer (d : Dev S R X) : Dev S R X :=
  { d with ser := d.ser.flushReceiveBuffers, trace := d.trace ++ [.flush] }

/-! ## `ATCommDevice` -/

/-- atcommdevice.cpp:66-69, the loop of `flushReadBuffer()`; `n` is `_bytesToRead`. Returns the
serial device, the remaining `_bytesToRead` and (ghost) the discarded bytes. -/
def flushLoop (s : Ser) : Nat → Ser × Nat × List Byte
  | 0 => (s, 0, [])
  | n + 1 =>
    let a := s.bytesAvailable
    if a.2 = 0 then (a.1, n + 1, [])
    else
      let r := a.1.read1
      let q := flushLoop r.1 n
      (q.1, q.2.1, r.2 :: q.2.2)

/-- atcommdevice.cpp:64-75, `flushReadBuffer()`. -/
def flushReadBuffer (d : Dev S R X) : Dev S R X :=
  let q := flushLoop d.ser d.bytesToRead
  { d with
    ser := q.1
    bytesToRead := q.2.1
    bytesToReceive := 0
    lineRead := if q.2.1 = 0 then true else d.lineRead
    trace := d.trace ++ [.drop q.2.2] }

/-- atcommdevice.cpp:77-87, `handleDisconnect`: the state after it. Its return value is
`d.disconnectPending`. -/
def handleDisconnect (d : Dev S R X) (next : S) : Dev S R X :=
  if d.disconnectPending then { d with disconnectPending := false, snd := next } else d

/-- atcommdevice.cpp:89-99, `handleConnect`: the state after it. -/
def handleConnect (d : Dev S R X) (next : S) : Dev S R X :=
  if d.connectPending then { d with connectPending := false, snd := next } else d

/-- atcommdevice.cpp:106-109: the new value of `_bytesToWrite`, given the results of the two (or
three) calls of `_serial.spaceAvailable()`. -/
def amount (avail sp1 sp2 : Nat) : Nat :=
  if avail > sp1 - minSpace then sp2 - minSpace else avail

/-- atcommdevice.cpp:101-125, `prepareSending`: new state, return value. -/
def prepareSending (d : Dev S R X) (sendChannel : Bool) : Dev S R X × Bool :=
  if d.serSpace < minSpace then (d.askSpace, false)
  else
    let d1 := d.askSpace
    let avail := d1.wbuf.bytesAvailable
    let d2 := d1.askSpace
    let d3 := if avail > d1.serSpace - minSpace then d2.askSpace else d2
    let n := amount avail d1.serSpace d2.serSpace
    let d4 := { d3 with bytesToWrite := n }
    let d5 := d4.cmd b!"AT+CIPSEND="
    let d6 := if sendChannel then d5.arg b!"0," else d5
    let d7 := d6.arg (dec5 n)
    ({ d7 with wait := some b!">" }, true)

/-- `_writeBuffer.pull()`, `n` times. -/
def pulls (r : Ring Byte) : Nat → Ring Byte × List Byte
  | 0 => (r, [])
  | n + 1 =>
    let p := r.pull
    let q := pulls p.1 n
    (q.1, p.2 :: q.2)

/-- atcommdevice.cpp:127-132, `sendData()`. The loop pulls a byte from one buffer and puts it into
the other one; the two buffers are independent, so all pulls are done first here. The loop variable
ends as -1. -/
def sendData (d : Dev S R X) : Dev S R X :=
  let q := pulls d.wbuf d.bytesToWrite
  { d with
    wbuf := q.1
    ser := d.ser.writeLoop q.2
    bytesToWrite := 18446744073709551615
    trace := d.trace ++ [.pay q.2] }

/-- atcommdevice.cpp:134-147, `receive()`: new state, return value. Serial reads are done before the
pushes to the (independent) read buffer. -/
def receive (d : Dev S R X) : Dev S R X × Bool :=
  if d.serAvail ≥ d.bytesToRead then
    let d := d.askAvail
    let q := d.ser.readLoop d.bytesToRead
    ({ d with
        ser := q.1
        rbuf := q.2.foldl Ring.push d.rbuf
        bytesToRead := 0
        lineRead := true
        trace := d.trace ++ [.data q.2] }, true)
  else (d.askAvail, false)

/-- atcommdevice.cpp:155-162, `serialWrite`. -/
def serialWrite (d : Dev S R X) (s : List Byte) : Dev S R X × Nat :=
  if d.serialLocked then
    let r := d.ser.writeStr s
    ({ d with ser := r.1, trace := d.trace ++ [.userTx (s.take r.2)] }, r.2)
  else (d, 0)

/-- atcommdevice.cpp:164-171, `serialRead`: the bytes stored in `data`. -/
def serialRead (d : Dev S R X) (maxSize : Nat) : Dev S R X × List Byte :=
  if d.serialLocked then
    let r := d.ser.read maxSize
    ({ d with ser := r.1, trace := d.trace ++ [.userRx r.2] }, r.2)
  else (d, [])

/-- atcommdevice.cpp:173-176, `requestRSSI()`. -/
def requestRSSI (d : Dev S R X) : Dev S R X := { d with rssi := int16Max }

/-- atcommdevice.cpp:178-181, `getRSSI()`. -/
def getRSSI (d : Dev S R X) : Int := d.rssi

/-- The loop of `fillLineBuffer()` (simcommdevice.cpp:71-79, espressif.cpp:89-111,
cc1352p7.cpp:72-80). `stop l k c` tells whether the line is complete after `c` was stored, `k` being
the new fill and `l` the buffer, and the reply state then. `fuel` bounds the iterations; the callers
start with `lineMax - k`, and a line is complete at `lineMax` bytes at the latest. The length of a
completed line is returned for the ghost trace only. -/
def fillLoop (stop : Mem → Nat → Byte → Option R) :
    Nat → Ser → Mem → Nat → Ser × Mem × Nat × Option (R × Nat)
  | 0, s, l, k => (s, l, k, none)
  | fuel + 1, s, l, k =>
    let a := s.bytesAvailable
    if a.2 = 0 then (a.1, l, k, none)
    else
      let r := a.1.read1
      let l := l.store k r.2
      match stop l (k + 1) r.2 with
      | some x => (r.1, l.store (k + 1) 0, 0, some (x, k + 1))
      | none => fillLoop stop fuel r.1 l (k + 1)

/-- `fillLineBuffer()` (simcommdevice.cpp:66-82, espressif.cpp:84-114, cc1352p7.cpp:67-83): new state,
return value. -/
def fillLine (d : Dev S R X) (stop : Mem → Nat → Byte → Option R) : Dev S R X × Bool :=
  if d.lineRead then
    let q := fillLoop stop (lineMax - d.lbFill) d.ser d.line d.lbFill
    match q.2.2.2 with
    | none => ({ d with ser := q.1, line := q.2.1, lbFill := q.2.2.1 }, false)
    | some (x, n) =>
      -- ghost: the line is everything stored since the buffer was empty
      ({ d with
          ser := q.1
          line := q.2.1
          lbFill := q.2.2.1
          rep := x
          trace := d.trace ++ [.line (q.2.1.cells.take n)] }, true)
  else (d, false)

/-- `if (_waitForReply) if (strncmp(_lineBuffer, _waitForReply, strlen(_waitForReply)) == 0)`. -/
def waitMatches (d : Dev S R X) : Bool :=
  match d.wait with
  | none => false
  | some w => hasPrefix d.line w

/-- `_lineBuffer` starts with the literal. -/
def has (d : Dev S R X) (lit : List Byte) : Bool := hasPrefix d.line lit

end Dev
end Verif
