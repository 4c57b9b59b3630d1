import Verif.Model.Client
import Verif.Model.ModemDetect
import Verif.Model.Scheduler

/-!
# The program examples/linux/ipcommdevice.cpp

Three tasks: that of `Verif.Model.Client`, the detector with the driver inside, the serial device. The scheduler runs them for ever.
-/

namespace Verif.Program

open ModemDetect Client

/-- `isConnected()`, `bytesAvailable()`, `isIdle()` and the bytes `read()` hands out, by the virtual functions of the driver. -/
def connected : Driver → Bool
  | .sim800 d => d.isConnected
  | .sim7x00 d => d.isConnected
  | .espressif d => d.isConnected
  | .cc1352p7 d => d.isConnected

def avail : Driver → Nat
  | .sim800 d => d.rbuf.bytesAvailable
  | .sim7x00 d => d.rbuf.bytesAvailable
  | .espressif d => d.rbuf.bytesAvailable
  | .cc1352p7 d => d.rbuf.bytesAvailable

def idle : Driver → Bool
  | .sim800 d => d.isIdle
  | .sim7x00 d => d.isIdle
  | .espressif d => d.isIdle
  | .cc1352p7 d => d.isIdle

def bytes (n : Nat) : Driver → List Byte
  | .sim800 d => (d.read n).2
  | .sim7x00 d => (d.read n).2
  | .espressif d => (d.read n).2
  | .cc1352p7 d => (d.read n).2

/-- ipcommdevice.cpp:33-41: which of the `dynamic_cast`s succeeds. -/
def conf : Option Driver → List Op
  | some (.sim800 _) | some (.sim7x00 _) => confSim
  | some (.espressif _) => confEsp
  | _ => []

/-- What the task sees of the detector and the driver. Without a driver the pointer is NULL; the values here are arbitrary then. -/
def api (p : Platform) (b : Mems) : Api MD where
  startDetection m := step p m .start
  modemDetected := modemDetected
  getDetectedModem m := step p m (.get b)
  configure m := execD p m ((conf m.modem).map .app)
  setHostPort m := step p m (.app (.setHostPort (some b!"wttr.in") 80 .tcp))
  connect m := step p m (.app .connect)
  isConnected m := m.modem.elim false connected
  write m bs := step p m (.app (.write bs))
  bytesAvailable m := m.modem.elim 0 avail
  read m n := (step p m (.app (.read n)), m.modem.elim [] (bytes n))
  disconnect m := step p m (.app .disconnect)
  isIdle m := m.modem.elim false idle

/-- The state of the program apart from the members of `Task`. `entry` is the static variable of the task. The rest is the environment:
what the operating system does in the `n`-th call, and whether the port can be opened. -/
structure Main where
  entry : Nat
  user : World MD
  feed : Nat → Hw
  opens : Nat → Bool
  n : Nat

/-- The three `run()` functions as the scheduler calls them (it has set `lastRun` before). The detector's `Task::_delay` is `MD.delay`.
The serial device moves a byte in each direction (bufferedserial.h:136-139). -/
structure Bodied (p : Platform) (b : Mems) (body : Bodies Main) : Prop where
  task : ∀ w t ts, ∃ s, Duff.Call (text (api p b)) t.lastRun ⟨t, w.entry, w.user⟩ s ∧
    body 0 w (t :: ts) = ({ w with entry := s.entry, user := s.user }, s.task :: ts)
  detector : ∀ w t0 t1 ts, body 1 w (t0 :: t1 :: ts) =
    let m := step p w.user.dev (.run (w.opens w.n))
    ({ w with user := { w.user with dev := m }, n := w.n + 1 }, t0 :: t1.setDelay m.delay :: ts)
  serial : ∀ w ts, body 2 w ts =
    ({ w with user := { w.user with dev := step p w.user.dev (.irq [w.feed w.n]) }, n := w.n + 1 }, ts)

/-- ipcommdevice.cpp:88-103, `main()`: the state before the first call of `runTask()`. -/
def main (rmem wmem : List Byte) (junk : Nat) (feed : Nat → Hw) (opens : Nat → Bool) : Sched Main :=
  Sched.init [Task.init 0 junk, Task.init 0 junk, Task.init 0 junk]
    ⟨0, ⟨ModemDetect.init (Ser.init rmem wmem []), [], [], false⟩, feed, opens, 0⟩

end Verif.Program
