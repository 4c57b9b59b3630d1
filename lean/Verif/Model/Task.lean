import Verif.Base

/-!
# Model of `cicada/task.h`: class `Task`

Ticks are 32 bit (`E_TICK_TYPE`, defines.h:32), kept below 2^32.
-/

namespace Verif

/-- `uint32_t` subtraction of values below 2^32. -/
def sub32 (a b : Nat) : Nat := (a + 4294967296 - b) % 4294967296

/-- task.h:284-287, members of `Task`. `timeout` is uninitialised by the constructor. -/
structure Task where
  delay : Nat
  timeout : Nat
  timeoutRunning : Bool
  lastRun : Nat
deriving Repr, DecidableEq

namespace Task

/-- task.h:197, constructor; `junk` is the uninitialised `_timeout`. -/
def init (initialDelay junk : Nat) : Task :=
  { delay := initialDelay % 65536, timeout := junk, timeoutRunning := false, lastRun := 0 }

/-- task.h:213-216, `setDelay(uint16_t)`: the argument is converted to 16 bits. -/
def setDelay (t : Task) (d : Nat) : Task := { t with delay := d % 65536 }

/-- task.h:231-234, `setLastRun`. -/
def setLastRun (t : Task) (time : Nat) : Task := { t with lastRun := time }

/-- task.h:252-258, `startTimeout`. -/
def startTimeout (t : Task) : Task :=
  if t.timeoutRunning then t else { t with timeoutRunning := true, timeout := t.lastRun }

/-- task.h:263-266, `resetTimeout`. -/
def resetTimeout (t : Task) : Task := { t with timeoutRunning := false }

/-- task.h:273-276, `isTimeout(uint32_t timeout)`; the argument is converted to 32 bits. -/
def isTimeout (t : Task) (timeout : Nat) : Bool :=
  decide (sub32 t.lastRun t.timeout > timeout % 4294967296)

end Task
end Verif
