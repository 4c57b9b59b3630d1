import Verif.Model.Task

/-!
# Model of `cicada/mqttcountdown.cpp`

The tick delivered by `eTickFunction()` is an argument `tick < 2^32` of each function.
-/

namespace Verif

/-- mqttcountdown.h:54, `_endTime`; `ub` records signed overflow. -/
structure Countdown where
  endTime : Nat
  ub : Bool
deriving Repr, DecidableEq

namespace Countdown

/-- mqttcountdown.cpp:41-44, `countdown_ms(int ms)`: unsigned 32 bit addition, `ms` converted. -/
def countdownMs (c : Countdown) (tick : Nat) (ms : Int) : Countdown :=
  { c with endTime := (((tick : Int) + ms) % 4294967296).toNat }

/-- mqttcountdown.cpp:46-49, `countdown(int seconds)`: `seconds * 1000` is an `int` product. -/
def countdown (c : Countdown) (tick : Nat) (seconds : Int) : Countdown :=
  if seconds * 1000 > 2147483647 ∨ seconds * 1000 < -2147483648 then { c with ub := true }
  else c.countdownMs tick (seconds * 1000)

/-- mqttcountdown.cpp:29-34, constructors: `MQTTCountdown()` leaves `_endTime` uninitialised
(`junk`). -/
def init (junk : Nat) : Countdown := { endTime := junk, ub := false }

/-- Conversion of a 64 bit value to `int` (two's complement wrap, as all supported compilers do). -/
def toInt32 (x : Int) : Int := (x + 2147483648) % 4294967296 - 2147483648

/-- mqttcountdown.cpp:51-58, `left_ms()`. The subtraction is done in 64 bits and cannot overflow. -/
def leftMs (c : Countdown) (tick : Nat) : Int :=
  let left : Int := (c.endTime : Int) - tick
  let left := if left < 0 then 0 else left
  toInt32 left

/-- mqttcountdown.cpp:36-39, `expired()`. -/
def expired (c : Countdown) (tick : Nat) : Bool := c.leftMs tick == 0

end Countdown
end Verif
