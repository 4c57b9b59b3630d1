import Verif.Model.BufferedSerial
import Verif.Model.Duff
import Verif.Model.Scheduler

/-!
# The task of examples/linux/serial_linux.cpp and examples/stm32f1/serial.cpp

The task opens a serial port, and sends a command a hundred times, each time waiting for an answer. There is no driver: it uses the
buffered serial device itself.
-/

namespace Verif.SerialTask

/-- What the task does, with the results. -/
inductive Ev where
  | config (ok : Bool)
  | opened (ok : Bool)
  | wrote (n : Nat)
  | got (bytes : List Byte)
  | closed
  | exit
deriving DecidableEq, Repr

/-- The world of the task. `cfg` and `opn` are what `setSerialConfig()` and `open()` answer. `i` is `m_i`. `shown`: what was printed
of the answers. `oob`: an access outside `buf`. -/
structure World where
  ser : Ser
  cfg : Bool
  opn : Bool
  i : Nat
  log : List Ev
  shown : List Byte
  oob : Bool

/-- serial_linux.cpp:43 -/
def command : List Byte := b!"AT\r\n"

/-- serial_linux.cpp:24; `checks`: on the STM32 the results of the two calls are ignored (serial.cpp:25-31). -/
def config (checks : Bool) : Duff.Test World := fun w => (w.cfg || !checks, { w with log := w.log ++ [.config w.cfg] })

/-- serial_linux.cpp:29 -/
def opens (checks : Bool) : Duff.Test World := fun w => (w.opn || !checks, { w with log := w.log ++ [.opened w.opn] })

/-- serial_linux.cpp:42-47 -/
def send (w : World) : World :=
  let r := w.ser.write command
  { w with ser := r.1, log := w.log ++ [.wrote r.2] }

/-- serial_linux.cpp:49, the condition. -/
def answered : Duff.Test World := fun w =>
  let r := w.ser.bytesAvailable
  (r.2 != 0, { w with ser := r.1 })

/-- serial_linux.cpp:51-59: up to 31 bytes are read into `char buf[32]`, a zero is put behind them, and they are printed with `%s`, that
is up to the first zero. (serial.cpp:41-42 does not print.) -/
def receive (w : World) : World :=
  let r := w.ser.read 31
  { w with
    ser := r.1
    log := w.log ++ [.got r.2]
    shown := w.shown ++ r.2.takeWhile (· != 0)
    oob := w.oob || decide (r.2.length > 31) }

/-- An entry. -/
def note (e : Ev) (w : World) : World := { w with log := w.log ++ [e] }

/-- serial_linux.cpp:41-62, the loop. -/
def rounds : Duff.Prog World :=
  .seq (.act fun w => { w with i := 0 })
  (.loop (fun w => (decide (w.i < 100), w)) (fun w => { w with i := w.i + 1 })
    (.seq (.act send)
    (.seq (.wait 1 (.condDelay answered fun _ => 100))
    (.seq (.act receive)
    (.wait 2 (.delay fun _ => 500))))))

/-- serial_linux.cpp:22-68, `run()`, with the values of `__COUNTER__` from 1 on. `exit(1)` does not return: what follows is in the other
branch here. -/
def body (checks : Bool) : Duff.Prog World :=
  .ite (config checks)
    (.ite (opens checks) (.seq rounds (.act (note .closed))) (.act (note .exit)))
    (.act (note .exit))

/-- The text of `run()` after macro expansion. -/
def text (checks : Bool) : Duff.Raw World := Duff.whole 0 3 (body checks).expand

/-- The task before its first turn. -/
def start (ser : Ser) (cfg opn : Bool) : World := ⟨ser, cfg, opn, 0, [], [], false⟩

/-! ## With the scheduler, on Linux -/

/-- The state of the program apart from the members of `Task`. `entry` is the static variable of the task. `feed`: what the operating
system does in the `n`-th call of the serial device's `run()`. -/
structure Main where
  entry : Nat
  user : World
  feed : Nat → Hw
  n : Nat

/-- The two `run()` functions as the scheduler calls them (it has set `lastRun` before). The serial device moves a byte in each direction
(bufferedserial.h:136-139). -/
structure Bodied (body : Bodies Main) : Prop where
  task : ∀ w t ts, ∃ s, Duff.Call (text true) t.lastRun ⟨t, w.entry, w.user⟩ s ∧
    body 0 w (t :: ts) = ({ w with entry := s.entry, user := s.user }, s.task :: ts)
  serial : ∀ w ts, body 1 w ts = ({ w with user := { w.user with ser := w.user.ser.transfer (w.feed w.n) }, n := w.n + 1 }, ts)

/-- serial_linux.cpp:75-85, `main()`: the state before the first call of `runTask()`. -/
def main (rmem wmem : List Byte) (junk : Nat) (cfg opn : Bool) (feed : Nat → Hw) : Sched Main :=
  Sched.init [Task.init 0 junk, Task.init 0 junk] ⟨0, start (Ser.init rmem wmem []) cfg opn, feed, 0⟩

end Verif.SerialTask
