import Verif.Spec.Pace
import Verif.Spec.Served

/-!
# A driver and a polled serial device under one scheduler

On platforms without interrupts the serial device is a task, too (bufferedserial.h:122-141, `BufferedSerialTask`): each
time it is run it moves at most one byte from the operating system into the receive buffer, and one byte out.
-/

namespace Verif.Spec

variable {S R X W : Type}

/-- A system with driver `i` and serial device `j`. The driver does nothing but `run()` when it is run. The other tasks
may call the driver, but they do not run it themselves, close the port or lock it, they change neither the number of
tasks nor the delay of the serial device, which is 0. -/
structure Linux (i j : Nat) (turn : Nat → Dev S R X × W → List Task → Turn W) : Prop where
  apart : i ≠ j
  serial : ∀ w ts, ∃ h, (turn j w ts).ops = [.irq [h]]
  driver : ∀ w ts, (turn i w ts).ops = [] ∧ (turn i w ts).ok = true
  others : ∀ m w ts, m ≠ j → ∀ op ∈ (turn m w ts).ops,
    op ≠ .closePort ∧ op ≠ .serialLock ∧ (∀ ok, op ≠ .run ok) ∧ ∀ hs, op ≠ .irq hs
  count : ∀ m w ts, (turn m w ts).tasks.length = ts.length
  delay : ∀ m w ts, (turn m w ts).tasks[j]?.map Task.delay = ts[j]?.map Task.delay

/-- What happens to the driver in one call of `runTask()`. -/
def opsAt (i : Nat) (turn : Nat → Dev S R X × W → List Task → Turn W) (s : Sched (Dev S R X × W)) (tick : Nat) : List Op :=
  match s.tasks[s.cur]? with
  | none => []
  | some t =>
    if Sched.due t tick then
      let u := turn s.cur s.world (s.tasks.set s.cur (t.setLastRun tick))
      u.ops ++ if s.cur = i then [.run u.ok] else []
    else []

/-- What happens to the driver in the first `k` calls of `runTask()`. -/
def history (step : Dev S R X → Op → Dev S R X) (i : Nat) (turn : Nat → Dev S R X × W → List Task → Turn W)
    (s : Sched (Dev S R X × W)) (tm : Nat → Nat) : Nat → List Op
  | 0 => []
  | k + 1 => history step i turn s tm k ++ opsAt i turn (stAt (system step i turn) s tm k) (tm k % 4294967296)

/-- The scheduler is at one of its tasks, among them the driver and the serial device, and each has its own delay. -/
structure Set (i j : Nat) (s : Sched (Dev S R X × W)) : Prop where
  cur : s.cur < s.tasks.length
  driver : s.tasks[i]?.map Task.delay = some (s.world.1.delay % 65536)
  serial : s.tasks[j]?.map Task.delay = some 0

end Verif.Spec
