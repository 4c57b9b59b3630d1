import Verif.Model.Countdown

/-!
# Property C24: MQTT countdown

Time is a natural number `t` of milliseconds; the tick the code sees is `t % 2^32`.
-/

namespace Verif.Props.Countdown

open Verif

/-- The 32 bit tick at true time `t`. -/
def tickAt (t : Nat) : Nat := t % 4294967296

/-- **C24.** A countdown of `ms` started at time `t0`, queried at `t ≥ t0`, both before the end of the
same 2^32 ms period, the end also in that period: `left_ms()` is the time left, `expired()` is
true exactly from `t0 + ms` on. -/
theorem C24_countdown (c : Countdown) (t0 t ms : Nat) (hms : ms < 2147483648)
    (h0 : t0 ≤ t) (hp : t / 4294967296 = t0 / 4294967296)
    (he : (t0 + ms) / 4294967296 = t0 / 4294967296) :
    let c' := c.countdownMs (tickAt t0) ms
    c'.leftMs (tickAt t) = ((t0 + ms - t : Nat) : Int) ∧
      (c'.expired (tickAt t) = true ↔ t0 + ms ≤ t) := by
  intro c'
  have hend : c'.endTime = (t0 + ms) % 4294967296 := by
    simp only [c', Countdown.countdownMs, tickAt]
    omega
  have hl : c'.leftMs (tickAt t) = ((t0 + ms - t : Nat) : Int) := by
    simp only [Countdown.leftMs, hend, tickAt, Countdown.toInt32]
    split <;> omega
  refine ⟨hl, ?_⟩
  simp only [Countdown.expired, hl, beq_iff_eq]
  omega

example : let c := (Countdown.init 77).countdownMs (tickAt 4294967300) 500
    c.leftMs (tickAt 4294967400) = 400 ∧ c.expired (tickAt 4294967799) = false ∧
      c.expired (tickAt 4294967800) = true := by decide

/-- **C24**, `countdown(seconds)` is `countdown_ms(1000 * seconds)` unless the product overflows. -/
theorem C24_seconds (c : Countdown) (t : Nat) (s : Int) (h1 : -2147483 ≤ s) (h2 : s ≤ 2147483) :
    c.countdown (tickAt t) s = c.countdownMs (tickAt t) (s * 1000) := by
  simp only [Countdown.countdown]
  rw [if_neg]; omega

/-- **C24**, overflow: from 2147484 seconds on the multiplication is undefined behaviour. -/
theorem C24_seconds_overflow (c : Countdown) (t : Nat) (s : Int) (h : 2147484 ≤ s) :
    (c.countdown t s).ub = true := by
  simp only [Countdown.countdown]
  rw [if_pos]; omega

/-- **C24, expectation refuted (1).** A countdown whose end lies in the next 2^32 ms period is
expired at once, however long it is. -/
theorem C24_wrap_expired_at_once (c : Countdown) (t0 ms : Nat) (hms : ms < 2147483648)
    (he : (t0 + ms) / 4294967296 ≠ t0 / 4294967296) :
    (c.countdownMs (tickAt t0) ms).expired (tickAt t0) = true := by
  have hend : (c.countdownMs (tickAt t0) ms).endTime = (t0 + ms) % 4294967296 := by
    simp only [Countdown.countdownMs, tickAt]; omega
  generalize c.countdownMs (tickAt t0) ms = c' at hend
  simp only [Countdown.expired, Countdown.leftMs, hend, tickAt, Countdown.toInt32, beq_iff_eq]
  split <;> omega

example : (Countdown.init 0).countdownMs (tickAt 4294967295) 60000 |>.expired (tickAt 4294967295) :=
  by decide

/-- **C24, expectation refuted (2).** A countdown that should have ended before the wrap, but is
queried only after it, counts as running again: at every time `t` of the next period with a tick
below the end tick it is not expired. -/
theorem C24_wrap_never_expires (c : Countdown) (t0 t ms : Nat)
    (he : (t0 + ms) / 4294967296 = t0 / 4294967296)
    (ht : tickAt t < tickAt (t0 + ms)) :
    (c.countdownMs (tickAt t0) ms).expired (tickAt t) = false := by
  simp only [tickAt] at ht
  have hend : (c.countdownMs (tickAt t0) ms).endTime = (t0 + ms) % 4294967296 := by
    simp only [Countdown.countdownMs, tickAt]; omega
  generalize c.countdownMs (tickAt t0) ms = c' at hend
  simp only [Countdown.expired, Countdown.leftMs, hend, tickAt, Countdown.toInt32,
    beq_eq_false_iff_ne, ne_eq]
  split <;> omega

/-- A 1 s countdown queried 5 s later, after the tick counter wrapped. -/
example : tickAt 4294967301 < tickAt (4294962296 + 1000) ∧
    ((Countdown.init 0).countdownMs (tickAt 4294962296) 1000).expired (tickAt 4294967301) = false :=
  by decide

end Verif.Props.Countdown
