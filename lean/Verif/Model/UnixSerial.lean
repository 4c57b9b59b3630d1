import Verif.Model.BufferedSerial
import Verif.Model.PortConfig

/-!
# Model of the transfers of `cicada/platform/linux/unixserial.cpp`

A `UnixSerial` object with its buffers, and the input queue the operating system keeps for the
terminal. The system calls: `::read` and `::write` fail for the descriptor -1; for another one `::read`
delivers the oldest byte of the queue, if there is one, and `::write` accepts the byte or not (an
argument). `tcsetattr` with `TCSAFLUSH` empties the queue. Not modelled: a terminal that disappears
while its descriptor is open (`::read` and `::write` then fail: an empty queue and `false`).
There are no interrupts on Linux: `sched` of the buffers is empty.
-/

namespace Verif.UnixSerial

open Verif.PortConfig

/-- unixserial.h: `_isOpen`, `_fd`, the configuration, the buffers of the base class; `queue` is the
input queue of the operating system. -/
structure Unix where
  port : Port
  ser : Ser
  queue : List Byte
deriving Repr, DecidableEq

namespace Unix

/-- unixserial.cpp:32-49, constructors. -/
def init (rmem wmem : List Byte) : Unix := ⟨Port.init, Ser.init rmem wmem [], []⟩

/-- unixserial.cpp:51-89, `open()`; the queue is emptied by `tcsetattr` (line 83). -/
def opens (u : Unix) (o : Outcome) : Unix :=
  { u with port := (u.port.open o).1, queue := if o = .success then [] else u.queue }

/-- What `run()` of the drivers does first (sim7x00.cpp:52, for example): open the port unless it
is open. -/
def poll (u : Unix) (o : Outcome) : Unix := if u.port.isOpen then u else u.opens o

/-- unixserial.cpp:210-218, `close()`. -/
def close (u : Unix) : Unix := { u with port := u.port.close }

/-- unixserial.cpp:91-208, `setSerialConfig`. -/
def set (u : Unix) (baud : UInt32) (bits : UInt8) : Unix := { u with port := u.port.step (.set baud bits) }

/-- unixserial.cpp:220-223, `writeBufferProcessed()`. -/
def writeBufferProcessed (u : Unix) : Bool := u.ser.tx.ring.isEmpty

/-- unixserial.cpp:225-228, `rawRead`. -/
def rawRead (u : Unix) : Unix × Option Byte :=
  match u.port.fd with
  | none => (u, none)
  | some _ => ({ u with queue := u.queue.tail }, u.queue.head?)

/-- unixserial.cpp:230-233, `rawWrite`; `ok` is whether the operating system would accept a byte. -/
def rawWrite (u : Unix) (ok : Bool) : Bool := u.port.fd.isSome && ok

/-- bufferedserial.h:136-139, `BufferedSerialTask::run()`: `transferToAndFromBuffer()` of
bufferedserial.cpp:171-183. -/
def run (u : Unix) (ok : Bool) : Unix :=
  let r := u.rawRead
  { r.1 with ser := r.1.ser.transfer ⟨r.2, r.1.rawWrite ok⟩ }

/-- The operating system puts bytes into the queue. -/
def deliver (u : Unix) (cs : List Byte) : Unix := { u with queue := u.queue ++ cs }

end Unix
end Verif.UnixSerial
