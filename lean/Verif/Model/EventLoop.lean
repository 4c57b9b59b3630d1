import Verif.Model.Program

/-!
# The program examples/linux/eventloop.cpp

A loop without tasks of its own: it calls `runTask()` and looks what has happened. The same loop is in examples/stm32f1/eventloop.cpp.
-/

namespace Verif.EventLoop

open ModemDetect Client Program

/-- The state of the loop. `detected` and `connected` are the flags of lines 19 and 20; `ptr`: `commDevice` is not NULL; `null`: NULL was
dereferenced; `ended`: what `isIdle()` and `bytesAvailable()` would have answered at the `break`. -/
structure Loop where
  w : World MD
  detected : Bool
  connected : Bool
  ptr : Bool
  null : Bool
  ended : Option (Bool × Nat)

/-- eventloop.cpp:17-40, up to the loop. -/
def start (p : Platform) (b : Mems) (m : MD) : Loop :=
  ⟨call .startDetection (api p b).startDetection ⟨m, [], [], false⟩, false, false, false, false, none⟩

/-- eventloop.cpp:49-75: the modem has been detected. -/
def detectEvent (p : Platform) (b : Mems) (s : Loop) : Loop :=
  if !s.detected && modemDetected s.w.dev then
    let w := call .getDetectedModem (api p b).getDetectedModem s.w
    let ptr := w.dev.modem.isSome
    let w := call .configure (api p b).configure w
    let w := call .setHostPort (api p b).setHostPort w
    let w := call .connect (api p b).connect w
    { s with w := w, ptr := ptr, null := s.null || !ptr, detected := true }
  else s

/-- eventloop.cpp:78-89: the modem is connected. -/
def connectEvent (p : Platform) (b : Mems) (s : Loop) : Loop :=
  if !s.connected && s.ptr && (api p b).isConnected s.w.dev then
    { s with w := call (.write ((api p b).isConnected s.w.dev)) ((api p b).write · request) s.w, connected := true }
  else s

/-- eventloop.cpp:92-98: there are data. -/
def dataEvent (p : Platform) (b : Mems) (s : Loop) : Loop :=
  if s.ptr && (api p b).bytesAvailable s.w.dev != 0 then { s with w := readSome (api p b) s.w } else s

/-- eventloop.cpp:101-105: the modem is idle again. -/
def endEvent (p : Platform) (b : Mems) (s : Loop) : Loop :=
  if s.connected && s.ptr && (api p b).isIdle s.w.dev then
    { s with ended := some ((api p b).isIdle s.w.dev, (api p b).bytesAvailable s.w.dev) }
  else s

/-- eventloop.cpp:48-105: everything the loop does after `runTask()`. -/
def events (p : Platform) (b : Mems) (s : Loop) : Loop := endEvent p b (dataEvent p b (connectEvent p b (detectEvent p b s)))

/-- eventloop.cpp:43-106, one turn of the loop; `ops` is what happens in `runTask()`, and meanwhile. -/
def turn (p : Platform) (b : Mems) (s : Loop) (ops : List DOp) : Loop :=
  if s.ended.isSome then s else events p b { s with w := { s.w with dev := execD p s.w.dev ops } }

/-- The loop. -/
def loop (p : Platform) (b : Mems) (m : MD) (passes : List (List DOp)) : Loop := passes.foldl (turn p b) (start p b m)

/-! ## With the scheduler, on Linux -/

/-- The loop and the environment: what the operating system does in the `n`-th call, and whether the port can be opened. -/
structure Env where
  loop : Loop
  feed : Nat → Hw
  opens : Nat → Bool
  n : Nat

/-- An operation on the detector or the serial device. -/
def Env.op (p : Platform) (e : Env) (op : DOp) : Env :=
  { e with loop := { e.loop with w := { e.loop.w with dev := step p e.loop.w.dev op } }, n := e.n + 1 }

/-- `setDelay()` of the second task. -/
def setDelay2 (d : Nat) : List Task → List Task
  | t0 :: t1 :: ts => t0 :: t1.setDelay d :: ts
  | ts => ts

/-- eventloop.cpp:37, the task list: the serial device (a byte in each direction, bufferedserial.h:136-139) and the detector. -/
def bodies (p : Platform) : Bodies Env := fun i e ts =>
  match i with
  | 0 => (e.op p (.irq [e.feed e.n]), ts)
  | _ =>
    let e' := e.op p (.run (e.opens e.n))
    (e', setDelay2 e'.loop.w.dev.delay ts)

/-- eventloop.cpp:43-106, one turn of the loop. -/
def round (p : Platform) (b : Mems) (s : Sched Env) (tick : Nat) : Sched Env :=
  if s.world.loop.ended.isSome then s
  else
    let s := (Sched.runTask (bodies p) s tick).1
    { s with world := { s.world with loop := events p b s.world.loop } }

/-- eventloop.cpp:17-40: the state before the loop. -/
def main (p : Platform) (b : Mems) (rmem wmem : List Byte) (junk : Nat) (feed : Nat → Hw) (opens : Nat → Bool) : Sched Env :=
  Sched.init [Task.init 0 junk, Task.init 0 junk] ⟨start p b (ModemDetect.init (Ser.init rmem wmem [])), feed, opens, 0⟩

/-- The program after some turns of the loop, `ticks` being the values of the tick function. -/
def program (p : Platform) (b : Mems) (rmem wmem : List Byte) (junk : Nat) (feed : Nat → Hw) (opens : Nat → Bool) (ticks : List Nat) :
    Sched Env := ticks.foldl (round p b) (main p b rmem wmem junk feed opens)

end Verif.EventLoop
