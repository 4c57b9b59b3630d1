import Verif.Model.Duff
import Verif.Model.Scheduler

/-!
# The program of examples/linux/scheduler.cpp

Two tasks print messages with pauses between them; one waits for the other. The program shows how the scheduler is used.
-/

namespace Verif.TwoTasks

/-- The messages. -/
inductive Msg where
  /-- "Task 1 - step 1" and so on -/
  | one1 | one2 | one3
  /-- "Task 1 - in loop" -/
  | oneLoop
  | two1 | two2
  /-- "Waking up task 1" -/
  | wake
  | twoLoop
deriving DecidableEq, Repr

/-- `wakeup`: the member `m_wakeup` of the first task. `log`: what was printed. -/
structure World where
  wakeup : Bool
  log : List Msg

/-- `printf` -/
def say (m : Msg) (w : World) : World := { w with log := w.log ++ [m] }

/-- scheduler.cpp:12-15 and 53-54, `wakeup()` -/
def wakes (w : World) : World := { say .wake w with wakeup := true }

/-- scheduler.cpp:17-35, `run()` of the first task, with the values of `__COUNTER__` from 1 on. -/
def first : Duff.Prog World :=
  .seq (.act (say .one1))
  (.seq (.wait 1 (.delay fun _ => 2000))
  (.seq (.act (say .one2))
  (.seq (.wait 2 (.cond fun w => (w.wakeup, w)))
  (.seq (.act (say .one3))
  (.loop (fun w => (true, w)) id (.seq (.act (say .oneLoop)) (.wait 3 (.delay fun _ => 1500))))))))

/-- scheduler.cpp:43-64, `run()` of the second task; `__COUNTER__` is counted on. -/
def second : Duff.Prog World :=
  .seq (.act (say .two1))
  (.seq (.wait 6 (.delay fun _ => 3000))
  (.seq (.act (say .two2))
  (.seq (.wait 7 (.delay fun _ => 2000))
  (.seq (.act wakes)
  (.seq (.wait 8 (.delay fun _ => 3000))
  (.loop (fun w => (true, w)) id (.seq (.act (say .twoLoop)) (.wait 9 (.delay fun _ => 1000)))))))))

/-- The texts of the two functions after macro expansion. -/
def text1 : Duff.Raw World := Duff.whole 0 4 first.expand
def text2 : Duff.Raw World := Duff.whole 5 10 second.expand

/-- The state of the program apart from the members of `Task`. `e1`, `e2`: the points at which the tasks go on. -/
structure Main where
  e1 : Nat
  e2 : Nat
  user : World

/-- The two `run()` functions as the scheduler calls them (it has set `lastRun` before). -/
structure Bodied (body : Bodies Main) : Prop where
  one : ∀ w t ts, ∃ s, Duff.Call text1 t.lastRun ⟨t, w.e1, w.user⟩ s ∧
    body 0 w (t :: ts) = ({ w with e1 := s.entry, user := s.user }, s.task :: ts)
  two : ∀ w t0 t ts, ∃ s, Duff.Call text2 t.lastRun ⟨t, w.e2, w.user⟩ s ∧
    body 1 w (t0 :: t :: ts) = ({ w with e2 := s.entry, user := s.user }, t0 :: s.task :: ts)

/-- scheduler.cpp:71-81, `main()`: the state before the first call of `runTask()`. -/
def main (junk : Nat) : Sched Main := Sched.init [Task.init 0 junk, Task.init 0 junk] ⟨0, 5, ⟨false, []⟩⟩

end Verif.TwoTasks
