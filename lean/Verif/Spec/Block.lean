import Verif.Spec.Modem
import Verif.Model.Blocking

/-!
# Blocking calls on a driver

A `BlockingCommDevice` wraps a driver with an open connection. While a call waits, it calls the yield function, and everything
else happens there: `run()` is called, the modem says things, bytes arrive, the server sends more.
-/

namespace Verif.Spec

/-- Driver and modem, and how often the clock was read and the yield function was called. -/
structure Site (D : Type) where
  world : World D
  polls : Nat
  yields : Nat

/-- A blocking call begins. -/
def World.site {D : Type} (w : World D) : Site D := ⟨w, 0, 0⟩

section
variable {S R X : Type} (c : Scene) (step : Dev S R X → Op → Dev S R X)

/-- What a `BlockingCommDevice` is given: the driver, a clock that shows `ticks k` when it is read for the `k`-th time, and a yield
function; what happens in the `k`-th call of it may depend on everything. -/
def World.blocking (ticks : Nat → Nat) (others : Nat → World (Dev S R X) → List Act) : BDev (Site (Dev S R X)) where
  tick s := (ticks s.polls, { s with polls := s.polls + 1 })
  read s n := ((s.world.drv.read n).2, { s with world := s.world.act c step (.read n) })
  space s := (s.world.drv.spaceAvailable, s)
  write s bs := ((s.world.drv.write bs).2, { s with world := s.world.act c step (.write bs) })
  processed s := (s.world.drv.writeBufferProcessed, s)
  yield s := { s with world := s.world.acts c step (others s.yields s.world), yields := s.yields + 1 }

/-- Only the caller uses the driver: while it waits, nobody calls `read()` or `write()`. -/
def Act.foreign : Act → Bool
  | .write _ => false
  | .read _ => false
  | _ => true

/-- While the caller waits, `run()` is called, and the modem says something of each kind, in any order. What the modem says arrives
completely. The server sends nothing. -/
structure Pause (w : World (Dev S R X)) (as : List Act) : Prop where
  still : ∀ a ∈ as, a.still = true
  foreign : ∀ a ∈ as, a.foreign = true
  run : .run ∈ as
  tell : Chance c step w as (· = .tell)
  speak : Chance c step w as (· = .speak)
  give : Chance c step w as fun a => ∃ k, a = .give k
  ends : (w.acts c step as).under = none

end

/-- The time does not run out before the clock was read `n` times after the first time. -/
def Patient (ticks : Nat → Nat) (timeout : Int) (n : Nat) : Prop :=
  ∀ k, k ≤ n → Blocking.expired (ticks k) (ticks 0) timeout = false

end Verif.Spec
