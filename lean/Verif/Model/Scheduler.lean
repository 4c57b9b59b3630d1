import Verif.Model.Task

/-!
# Model of `cicada/scheduler.cpp`

What a task's `run()` does is arbitrary: a parameter `body` that may change the rest of the world
(`σ`) and the tasks (it may call `setDelay` on any of them).
-/

namespace Verif

/-- scheduler.h:76-78, members of `Scheduler`: `tasks` is the list `_taskList` points to (without the
terminating NULL), `cur` the position of `_currentTask` in it. `ub` records undefined behaviour. -/
structure Sched (σ : Type) where
  tasks : List Task
  cur : Nat
  world : σ
  ub : Bool

/-- One examination of a task, as recorded for the properties: which task, at which tick, its delay and
last run before, and whether it was run. -/
structure SchedEv where
  idx : Nat
  tick : Nat
  delay : Nat
  last : Nat
  ran : Bool
deriving Repr, DecidableEq

/-- The bodies of the tasks' `run()` functions. -/
abbrev Bodies (σ : Type) := Nat → σ → List Task → σ × List Task

namespace Sched

variable {σ : Type}

/-- scheduler.cpp:29-31, constructor. -/
def init (tasks : List Task) (w : σ) : Sched σ := { tasks := tasks, cur := 0, world := w, ub := false }

/-- scheduler.cpp:36-37, the condition under which the current task is run. -/
def due (t : Task) (tick : Nat) : Bool :=
  t.delay == 0 || decide (sub32 tick t.lastRun ≥ t.delay)

/-- scheduler.cpp:33-45, `runTask()`, `tick` being the value returned by the tick function. An empty
task list makes `(*_currentTask)->delay()` dereference NULL. -/
def runTask (body : Bodies σ) (s : Sched σ) (tick : Nat) : Sched σ × Option SchedEv :=
  match s.tasks[s.cur]? with
  | none => ({ s with ub := true }, none)
  | some t =>
    let d := due t tick
    let s' : Sched σ :=
      if d then
        let (w, ts) := body s.cur s.world (s.tasks.set s.cur (t.setLastRun tick))
        { s with tasks := ts, world := w }
      else s
    let next := s.cur + 1
    ({ s' with cur := if next ≥ s.tasks.length then 0 else next },
      some { idx := s.cur, tick := tick, delay := t.delay, last := t.lastRun, ran := d })

/-- scheduler.cpp:47-51, `start()`, for as many iterations as ticks are given. -/
def runTasks (body : Bodies σ) (s : Sched σ) : List Nat → Sched σ × List (Option SchedEv)
  | [] => (s, [])
  | t :: ts =>
    let (s', e) := runTask body s t
    let (s'', es) := runTasks body s' ts
    (s'', e :: es)

end Sched
end Verif
