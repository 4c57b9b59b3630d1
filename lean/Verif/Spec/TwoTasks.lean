import Verif.Model.TwoTasks

/-!
# What the two tasks of the scheduler example print, and when
-/

namespace Verif.Spec.TwoTasks

open Verif.TwoTasks

/-- The messages of the first task. -/
def isOne : Msg → Bool
  | .one1 | .one2 | .one3 | .oneLoop => true
  | _ => false

def isTwo (m : Msg) : Bool := !isOne m

/-- The messages of the first task in their order. -/
def script1 : Nat → Msg
  | 0 => .one1
  | 1 => .one2
  | 2 => .one3
  | _ => .oneLoop

def script2 : Nat → Msg
  | 0 => .two1
  | 1 => .two2
  | 2 => .wake
  | _ => .twoLoop

/-- The pause after a message, in milliseconds. -/
def pause : Msg → Nat
  | .one1 => 2000
  | .one2 | .one3 => 0
  | .oneLoop => 1500
  | .two1 => 3000
  | .two2 => 2000
  | .wake => 3000
  | .twoLoop => 1000

/-- The messages with the times at which they were printed, the scheduler running with these ticks. -/
def history (body : Bodies Main) : Sched Main → List Nat → List (Nat × Msg)
  | _, [] => []
  | s, t :: ts =>
    let s' := (Sched.runTask body s t).1
    (s'.world.user.log.drop s.world.user.log.length).map (t, ·) ++ history body s' ts

/-- Those of one task. -/
def part (mine : Msg → Bool) (h : List (Nat × Msg)) : List (Nat × Msg) := h.filter fun x => mine x.2

/-- After each message the pause is kept. Ticks have 32 bits. -/
def Spaced (h : List (Nat × Msg)) : Prop := ∀ l x y r, h = l ++ x :: y :: r → sub32 y.1 x.1 ≥ pause x.2

/-- Step 3 of the first task comes after the wakeup. -/
def Woken (l : List Msg) : Prop := ∀ i : Nat, l[i]? = some Msg.one3 → ∃ j, j < i ∧ l[j]? = some Msg.wake

end Verif.Spec.TwoTasks
