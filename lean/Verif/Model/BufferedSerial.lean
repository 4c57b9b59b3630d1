import Verif.Model.LineCircularBuffer

/-!
# Model of `cicada/bufferedserial.cpp`

Interrupts: `sched` is a list of batches. Each batch is a list of calls of
`transferToAndFromBuffer` by the interrupt handler. Before every critical section, if interrupts are
enabled, the next batch is executed (`sync`). As batches may be empty and the schedule is universally
quantified in the theorems, this covers every interleaving of interrupts with critical sections.

`startTransmit()` is a hook of the platform; it does not touch the buffers (on Linux it is empty, for
the STM32 see `Verif.Model.Stm32Uart`) and is not modelled here.
-/

namespace Verif

/-- Answers of the hardware during one call of `transferToAndFromBuffer`: the byte `rawRead`
delivers, if any, and whether `rawWrite` accepts a byte. -/
structure Hw where
  rx : Option Byte
  txOk : Bool
deriving Repr, DecidableEq

/-- State of a `BufferedSerial` (bufferedserial.h: `_readBuffer`, `_writeBuffer`). `irqOn` is the
interrupt enable flag of the processor. `arrived`, `accepted`, `taken`, `sent`, `wire` are ghost
fields, never read by the model:
bytes the hardware delivered; bytes stored in the read buffer since the last flush; bytes removed by
`read()` since the last flush; bytes put into the write buffer; bytes the hardware accepted for
transmission. -/
structure Ser where
  rx : LineBuf
  tx : LineBuf
  sched : List (List Hw)
  irqOn : Bool
  arrived : List Byte
  accepted : List Byte
  taken : List Byte
  sent : List Byte
  wire : List Byte
deriving Repr, DecidableEq

namespace Ser

/-- bufferedserial.cpp:30-37, constructors, with two raw buffers of arbitrary content. -/
def init (rmem wmem : List Byte) (sched : List (List Hw)) : Ser :=
  { rx := LineBuf.init rmem, tx := LineBuf.init wmem, sched := sched, irqOn := true,
    arrived := [], accepted := [], taken := [], sent := [], wire := [] }

/-- bufferedserial.cpp:173-176, the receiving half of `transferToAndFromBuffer`. -/
def transferRx (s : Ser) (rx : Option Byte) : Ser :=
  match rx with
  | none => s
  | some c =>
    let s := { s with arrived := s.arrived ++ [c] }
    if !s.rx.ring.isFull then
      { s with rx := s.rx.push c, accepted := s.accepted ++ [c] }
    else s

/-- bufferedserial.cpp:178-182, the sending half of `transferToAndFromBuffer`. -/
def transferTx (s : Ser) (txOk : Bool) : Ser :=
  if s.tx.ring.bytesAvailable ≠ 0 then
    let (r, c) := s.tx.ring.peek
    let s := { s with tx := { s.tx with ring := r } }
    if txOk then
      { s with tx := s.tx.pull.1, wire := s.wire ++ [c] }
    else s
  else s

/-- bufferedserial.cpp:171-183, `transferToAndFromBuffer`. -/
def transfer (s : Ser) (h : Hw) : Ser := (s.transferRx h.rx).transferTx h.txOk

/-- A batch of interrupts. -/
def transfers (s : Ser) (hs : List Hw) : Ser := hs.foldl transfer s

/-- Interrupts that happen before the next critical section: only if enabled. -/
def sync (s : Ser) : Ser :=
  if s.irqOn then
    match s.sched with
    | [] => s
    | b :: bs => { s with sched := bs }.transfers b
  else s

/-- irq.h: `eDisableInterrupts()`. -/
def disable (s : Ser) : Ser := { s with irqOn := false }

/-- irq.h: `eEnableInterrupts()`. Unconditional. -/
def enable (s : Ser) : Ser := { s with irqOn := true }

/-- bufferedserial.cpp:39-46, `bytesAvailable()`. -/
def bytesAvailable (s : Ser) : Ser × Nat :=
  let s := s.sync.disable
  let n := s.rx.ring.bytesAvailable
  (s.enable, n)

/-- bufferedserial.cpp:48-55, `spaceAvailable()`. -/
def spaceAvailable (s : Ser) : Ser × Nat :=
  let s := s.sync.disable
  let n := s.tx.ring.spaceAvailable
  (s.enable, n)

/-- bufferedserial.cpp:72-79, `read()`. -/
def read1 (s : Ser) : Ser × Byte :=
  let s := s.sync.disable
  let (b, c) := s.rx.pull
  let s := { s with rx := b, taken := s.taken ++ [c] }
  (s.enable, c)

/-- bufferedserial.cpp:65-67, the loop of `read(uint8_t*, Size)`. -/
def readLoop (s : Ser) : Nat → Ser × List Byte
  | 0 => (s, [])
  | n + 1 =>
    let (s', c) := s.read1
    let (s'', cs) := s'.readLoop n
    (s'', c :: cs)

/-- bufferedserial.cpp:57-70, `read(uint8_t* data, Size size)`: the bytes stored in `data`. -/
def read (s : Ser) (size : Nat) : Ser × List Byte :=
  let (s, avail) := s.bytesAvailable
  let n := if size > avail then avail else size
  s.readLoop n

/-- bufferedserial.cpp:119-124, `copyToBuffer`. -/
def copyToBuffer (s : Ser) (c : Byte) : Ser :=
  let s := s.sync.disable
  let s := { s with tx := s.tx.push c, sent := s.sent ++ [c] }
  s.enable

/-- bufferedserial.cpp:89-91, the loop of `write(const uint8_t*, Size)`. -/
def writeLoop (s : Ser) : List Byte → Ser
  | [] => s
  | c :: cs => (s.copyToBuffer c).writeLoop cs

/-- bufferedserial.cpp:81-96, `write(const uint8_t* data, Size size)`, `data` having `size` bytes. -/
def write (s : Ser) (data : List Byte) : Ser × Nat :=
  let (s, space) := s.spaceAvailable
  let n := if data.length > space then space else data.length
  (s.writeLoop (data.take n), n)

/-- bufferedserial.cpp:104-106, the loop of `write(const uint8_t*)`: `data` is the string starting at
the current position, a missing byte counts as the terminating zero; `space` is the remaining
allowance, `n` is `writeCount`. -/
def writeStrLoop (s : Ser) (space n : Nat) : List Byte → Ser × Nat
  | [] => (s, n)
  | c :: cs =>
    if c ≠ 0 ∧ n < space then (s.copyToBuffer c).writeStrLoop space (n + 1) cs else (s, n)

/-- bufferedserial.cpp:98-111, `write(const uint8_t* data)` for a zero terminated string `data`
(given without the terminating zero). -/
def writeStr (s : Ser) (data : List Byte) : Ser × Nat :=
  let (s, space) := s.spaceAvailable
  s.writeStrLoop space 0 data

/-- bufferedserial.cpp:113-117, `write(uint8_t)`. -/
def write1 (s : Ser) (c : Byte) : Ser := s.copyToBuffer c

/-- bufferedserial.cpp:126-133, `canReadLine()`. -/
def canReadLine (s : Ser) : Ser × Bool :=
  let s := s.sync.disable
  let n := s.rx.numBufferedLines
  (s.enable, decide (n > 0))

/-- Number of interrupts still scheduled. -/
def pending (s : Ser) : Nat := (s.sched.map List.length).sum

/-- bufferedserial.cpp:143-148, the loop of `readLine`; `c` is the last byte read, `acc` the bytes
stored so far in reverse. `fuel` bounds the iterations: the loop ends by itself after at most as
many iterations as there are bytes buffered or still to arrive. -/
def readLineLoop (size : Nat) : Nat → Ser → Byte → List Byte → Ser × List Byte
  | 0, s, _, acc => (s, acc.reverse)
  | fuel + 1, s, c, acc =>
    let (s, avail) := s.bytesAvailable
    if avail ≠ 0 ∧ c ≠ nl then
      let (s, c') := s.read1
      readLineLoop size fuel s c' (if acc.length < size - 1 then c' :: acc else acc)
    else (s, acc.reverse)

/-- bufferedserial.cpp:135-152, `readLine(uint8_t* data, Size size)`: new state, everything stored
in `data` (including the terminating zero), return value. -/
def readLine (s : Ser) (size : Nat) : Ser × List Byte × Nat :=
  if size = 0 then (s, [], 0)
  else
    let (s', bs) := readLineLoop size (s.rx.ring.bytesAvailable + s.pending + 1) s 0 []
    (s', bs ++ [0], bs.length)

/-- bufferedserial.cpp:154-159, `flushReceiveBuffers()`. -/
def flushReceiveBuffers (s : Ser) : Ser :=
  let s := s.sync.disable
  { s with rx := s.rx.flush, accepted := [], taken := [] }.enable

/-- bufferedserial.cpp:161-164, `readBufferSize()`. -/
def readBufferSize (s : Ser) : Nat := s.rx.ring.size

/-- bufferedserial.cpp:166-169, `writeBufferSize()`. -/
def writeBufferSize (s : Ser) : Nat := s.tx.ring.size

end Ser
end Verif
