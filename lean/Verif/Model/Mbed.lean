import Verif.Model.BufferedSerial

/-!
# Model of `cicada/platform/mbed/`

`MbedSerial` with the interrupts of its `RawSerial`, in the style of `Verif.Model.Stm32Uart`: the main
program may be interrupted between any two atomic steps, an interrupt handler runs to its end. Atomic
steps of the main program are the critical sections of `BufferedSerial` and a call of
`RawSerial::attach` (which mbed executes with interrupts locked).

mbedserial.cpp:99 calls `_writeBuffer.availableData()`. No class of the repository has a function of that
name (circularbuffer.h, linecircularbuffer.h): the file does not compile as it is. It is read as
`_writeBuffer.bytesAvailable()`, which line 106 uses for the same purpose.

Assumptions about mbed, which is not part of the repository: the handler attached to an interrupt is called
if a byte was received (`RxIrq`) or if the UART is ready to send (`TxIrq`), and only then; `readable`
and `writeable` answer truthfully; `putc` returns its argument.
-/

namespace Verif.Mbed

/-- Where the main program is: outside of the write functions; in the loop of
bufferedserial.cpp:89-91/104-106; at `startTransmit()`. -/
inductive Pc
  | idle
  | copy (rest : List Byte)
  | start
deriving Repr, DecidableEq

/-- A `MbedSerial`: the buffers, the handlers attached to `RxIrq` and `TxIrq`, the configuration of
`RawSerial`, and the main program. -/
structure Port where
  ser : Ser
  rxIrq : Bool
  txIrq : Bool
  baud : Nat
  bits : Nat
  pc : Pc
deriving Repr, DecidableEq

/-- mbedserial.cpp:29-42, constructors: 115200 baud; mbed's default format has 8 data bits. -/
def init (rmem wmem : List Byte) : Port :=
  { ser := Ser.init rmem wmem [], rxIrq := true, txIrq := false, baud := 115200, bits := 8, pc := .idle }

/-- Something that happens. -/
inductive Act
  /-- `write(data, size)` or `write(data)`, up to the computation of the number of bytes to copy. -/
  | callWrite (data : List Byte)
  /-- `write(uint8_t)`. -/
  | callWrite1 (c : Byte)
  /-- The next atomic step of the write function. -/
  | go
  /-- `read()`. -/
  | callRead
  /-- `flushReceiveBuffers()`. -/
  | callFlush
  /-- `open()`. -/
  | callOpen
  /-- `close()`. -/
  | callClose
  /-- `setSerialConfig(baudRate, dataBits)`. -/
  | callConfig (baud bits : Nat)
  /-- The UART has a byte received and/or is ready to send. -/
  | event (h : Hw)
deriving Repr, DecidableEq

/-- mbedserial.cpp:95-102, `handleInterrupt()`, with `rawRead` (69-77) and `rawWrite` (79-88) in
`Ser.transfer`. -/
def handleInterrupt (p : Port) (h : Hw) : Port :=
  let s := p.ser.transfer h
  { p with ser := s, txIrq := if s.tx.ring.bytesAvailable = 0 then false else p.txIrq }

/-- Does an interrupt happen that has a handler? -/
def fires (p : Port) (h : Hw) : Bool := (h.rx.isSome && p.rxIrq) || (h.txOk && p.txIrq)

/-- mbedserial.cpp:44-47, `open()`: the port afterwards and the value returned. -/
def openPort (p : Port) : Port × Bool := (p, true)

/-- mbedserial.cpp:49-52, `isOpen()`. -/
def isOpen (_ : Port) : Bool := true

/-- mbedserial.cpp:62, `close()`. -/
def closePort (p : Port) : Port := p

/-- mbedserial.cpp:54-60, `setSerialConfig()`. -/
def setSerialConfig (p : Port) (baud bits : Nat) : Port × Bool := ({ p with baud := baud, bits := bits }, true)

/-- mbedserial.cpp:104-107, `writeBufferProcessed()`. -/
def writeBufferProcessed (p : Port) : Bool := p.ser.tx.ring.bytesAvailable == 0

/-- Next atomic step of a write function: bufferedserial.cpp:119-124 (`copyToBuffer`),
mbedserial.cpp:90-93 (`startTransmit()`). -/
def go (p : Port) : Port :=
  match p.pc with
  | .idle => p
  | .copy (c :: cs) => { p with ser := p.ser.copyToBuffer c, pc := .copy cs }
  | .copy [] => { p with pc := .start }
  | .start => { p with txIrq := true, pc := .idle }

/-- One action. API functions can be called only when the main program is outside of one. -/
def step (p : Port) : Act → Port
  | .callWrite data =>
    if p.pc = .idle then
      let r := p.ser.spaceAvailable
      { p with ser := r.1, pc := .copy (data.take r.2) }
    else p
  | .callWrite1 c => if p.pc = .idle then { p with pc := .copy [c] } else p
  | .go => go p
  | .callRead => if p.pc = .idle then { p with ser := p.ser.read1.1 } else p
  | .callFlush => if p.pc = .idle then { p with ser := p.ser.flushReceiveBuffers } else p
  | .callOpen => if p.pc = .idle then (openPort p).1 else p
  | .callClose => if p.pc = .idle then closePort p else p
  | .callConfig b d => if p.pc = .idle then (setSerialConfig p b d).1 else p
  | .event h => if fires p h then handleInterrupt p h else p

/-- A sequence of actions. -/
def exec (p : Port) (as : List Act) : Port := as.foldl step p

/-! ## The clock -/

/-- `EnaccessTicker` (mbedtick.cpp:29-51), constructor: `_millis`, a `uint32_t`. -/
def tickerInit : Nat := 0

/-- mbedtick.cpp:37-40, `increase()`, called every 1000 µs. -/
def increase (ms : Nat) : Nat := (ms + 1) % 4294967296

/-- mbedtick.cpp:54-57, `eTickFunction()`, after `n` interrupts of the ticker. -/
def tick : Nat → Nat
  | 0 => tickerInit
  | n + 1 => increase (tick n)

end Verif.Mbed
