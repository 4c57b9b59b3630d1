import Verif.Model.Scheduler
import Verif.Model.Ops

/-!
# A driver as one of the tasks of a scheduler

True time is a natural number of milliseconds, `tm k` is the time of the `k`-th call of `runTask()`. The scheduler
sees its low 32 bits.
-/

namespace Verif.Spec

variable {σ : Type}

/-- State before the `k`-th call of `runTask()`. -/
def stAt (body : Bodies σ) (s : Sched σ) (tm : Nat → Nat) : Nat → Sched σ
  | 0 => s
  | k + 1 => (Sched.runTask body (stAt body s tm k) (tm k % 4294967296)).1

/-- The `k`-th call runs task `i`. -/
def RunsAt (body : Bodies σ) (s : Sched σ) (tm : Nat → Nat) (i k : Nat) : Prop :=
  ∃ e, (Sched.runTask body (stAt body s tm k) (tm k % 4294967296)).2 = some e ∧ e.idx = i ∧ e.ran = true

/-- Time does not run backwards, does not stop, and consecutive calls are at most `B` milliseconds apart. -/
structure Clock (tm : Nat → Nat) (B : Nat) : Prop where
  mono : ∀ k, tm k ≤ tm (k + 1)
  gap : ∀ k, tm (k + 1) ≤ tm k + B
  goes : ∀ T, ∃ k, T ≤ tm k

/-- What a task does when it is run, as far as the driver and the other tasks are concerned: the calls it makes to the
driver (and the interrupts that come meanwhile), whether the port can be opened if it is the driver itself, the rest
of the world, and the tasks. -/
structure Turn (W : Type) where
  ops : List Op
  ok : Bool
  world : W
  tasks : List Task

/-- A system of tasks, one of which, number `i`, is a driver. `Task::_delay` of this task is the delay of the driver. -/
def system {S R X W : Type} (step : Dev S R X → Op → Dev S R X) (i : Nat)
    (turn : Nat → Dev S R X × W → List Task → Turn W) : Bodies (Dev S R X × W) := fun j w ts =>
  let t := turn j w ts
  let d := exec step w.1 t.ops
  let d := if j = i then step d (.run t.ok) else d
  ((d, t.world), t.tasks.modify i (·.setDelay d.delay))

end Verif.Spec
