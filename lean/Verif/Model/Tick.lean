/-!
# Model of the tick functions (`cicada/platform/*/tick_*.cpp`)

Floating point numbers are rational numbers, every operation is followed by the rounding `rnd`, which is a parameter.
-/

namespace Verif

/-- A result of `clock_gettime(CLOCK_MONOTONIC, …)`, `struct timespec`: `tv_sec`, `tv_nsec`. -/
structure Clock where
  sec : Nat
  nsec : Nat
deriving Repr, DecidableEq

/-- tick_linux.cpp:34-35: `ms = tv_sec * 1000` and `ms += tv_nsec / 1.0e6`. The sum is computed as a `double` and cut off
when it is stored. Simplified: the product does not exceed 64 bits (it does after 292 million years). -/
def tickMs (rnd : Rat → Rat) (c : Clock) : Nat :=
  (rnd (rnd ((c.sec * 1000 : Nat) : Rat) + rnd ((c.nsec : Rat) / 1000000))).floor.toNat

/-- tick_linux.cpp:27-38, `eTickFunction()` on Linux; `E_TICK_TYPE` is `uint32_t` (defines.h:32). -/
def tickLinux (rnd : Rat → Rat) (c : Clock) : Nat := tickMs rnd c % 4294967296

/-- tick_none.cpp:27-30, `eTickFunction()` without a platform. -/
def tickNone : Nat := 0

end Verif
