import Verif.Model.Blocking
import Verif.Model.Client
import Verif.Model.Ops
import Verif.Model.Scheduler

/-!
# The program examples/linux/blocking.cpp

A `BlockingCommDevice` around a `Sim7x00CommDevice`. The yield function calls `runTask()` of a scheduler with two tasks, the driver and the
serial device. Each loop gets `fuel`: `none` means "not finished after that many turns".
-/

namespace Verif.BlockingProgram

/-- What is recorded of the program: the readings of the clock by the blocking calls, and the calls of the driver (`write`: the number
returned). -/
inductive Call
  | now (t : Nat)
  | setApn
  | setHostPort
  | connect
  | write (n : Nat)
  | read (bs : List Byte)
  | disconnect
deriving Repr, DecidableEq

/-- The driver, and the environment: what the operating system does in the `n`-th call of a task, whether the port can be opened, and what
the `c`-th call of `eTickFunction()` returns. `log`: the calls. `shown`: what was printed of the answer. `oob`: an access outside `buf`. `runs`: the
ticks at which the driver was run, with the delay it set; not in the code. -/
structure Env where
  dev : Sim7x00.D
  feed : Nat → Hw
  opens : Nat → Bool
  n : Nat
  clock : Nat → Nat
  c : Nat
  log : List Call
  shown : List Byte
  oob : Bool
  runs : List (Nat × Nat)

/-- A call of the driver's API. -/
def Env.call (p : Platform) (e : Env) (op : Op) (x : Call) : Env := { e with dev := Sim7x00.step p e.dev op, log := e.log ++ [x] }

/-- `setDelay()` of the first task. -/
def setDelay1 (d : Nat) : List Task → List Task
  | t :: ts => t.setDelay d :: ts
  | [] => []

/-- `lastRun()` of the first task; the scheduler has set it to the tick. -/
def lastRun1 : List Task → Nat
  | t :: _ => t.lastRun
  | [] => 0

/-- blocking.cpp:31, the task list: the driver and the serial device (a byte in each direction, bufferedserial.h:136-139). -/
def bodies (p : Platform) : Bodies Env := fun i e ts =>
  match i with
  | 0 =>
    let d := Sim7x00.step p e.dev (.run (e.opens e.n))
    ({ e with dev := d, n := e.n + 1, runs := e.runs ++ [(lastRun1 ts, d.delay)] }, setDelay1 d.delay ts)
  | _ => ({ e with dev := Sim7x00.step p e.dev (.irq [e.feed e.n]), n := e.n + 1 }, ts)

/-- The program: the scheduler with everything else. -/
abbrev Prog := Sched Env

/-- A change of the environment or by the program. -/
def upd (s : Prog) (f : Env → Env) : Prog := { s with world := f s.world }

/-- blocking.cpp:15-18, `yieldFunction()`. -/
def yield (p : Platform) (s : Prog) : Prog := (Sched.runTask (bodies p) (upd s fun e => { e with c := e.c + 1 }) (s.world.clock s.world.c)).1

/-- What the `BlockingCommDevice` is given (blocking.cpp:35). -/
def bld (p : Platform) : BDev Prog where
  tick s := (s.world.clock s.world.c, upd s fun e => { e with c := e.c + 1, log := e.log ++ [.now (e.clock e.c)] })
  read s n := ((s.world.dev.read n).2, upd s fun e => e.call p (.read n) (.read (e.dev.read n).2))
  space s := (s.world.dev.spaceAvailable, s)
  write s bs := ((s.world.dev.write bs).2, upd s fun e => e.call p (.write bs) (.write (e.dev.write bs).2))
  processed s := (s.world.dev.writeBufferProcessed, s)
  yield := yield p

/-- blocking.cpp:41-42 and 61-62: `while (...) yieldFunction(&s)`. -/
def await (p : Platform) (cond : Sim7x00.D → Bool) : Nat → Prog → Option Prog
  | 0, _ => none
  | fuel + 1, s => if cond s.world.dev then some s else await p cond fuel (yield p s)

/-- blocking.cpp:56-57. `buf` has 41 bytes; a zero ends what is printed. -/
def print (s : Prog) (bs : List Byte) : Prog :=
  upd s fun e => { e with shown := e.shown ++ bs.takeWhile (· != 0), oob := e.oob || decide (bs.length > 40) }

/-- blocking.cpp:52-58, the loop in which the answer is read. -/
def readAll (p : Platform) (fuel : Nat) : Nat → Prog → Option Prog
  | 0, _ => none
  | k + 1, s =>
    match Blocking.read (bld p) fuel s 40 2000 with
    | none => none
    | some (bs, s) => if bs.length = 0 then some (print s bs) else readAll p fuel k (print s bs)

/-- blocking.cpp:22-39: before the first loop. -/
def start (p : Platform) (dev : Sim7x00.D) (junk : Nat) (feed : Nat → Hw) (opens : Nat → Bool) (clock : Nat → Nat) : Prog :=
  upd (Sched.init [Task.init 0 junk, Task.init 0 junk] ⟨dev, feed, opens, 0, clock, 0, [], [], false, []⟩) fun e =>
    ((e.call p (.setApn (some b!"internet")) .setApn).call p (.setHostPort (some b!"wttr.in") 80 .tcp) .setHostPort).call p .connect .connect

/-- blocking.cpp:20-65, `main()`. The request is that of `Verif.Model.Client`; the result of `write()` is ignored. -/
def main (p : Platform) (fuel : Nat) (dev : Sim7x00.D) (junk : Nat) (feed : Nat → Hw) (opens : Nat → Bool) (clock : Nat → Nat) : Option Prog :=
  match await p (·.isConnected) fuel (start p dev junk feed opens clock) with
  | none => none
  | some s =>
    match Blocking.write (bld p) fuel s Client.request 2000 with
    | none => none
    | some (_, s) =>
      match readAll p fuel fuel s with
      | none => none
      | some s => await p (·.isIdle) fuel (upd s fun e => e.call p .disconnect .disconnect)

end Verif.BlockingProgram
