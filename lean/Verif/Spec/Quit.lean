import Verif.Model.Dev

/-! How often a command appears in a history. -/

namespace Verif.Spec

/-- The event is the command beginning with `w`. -/
def isCmdOf (w : List Byte) : Ev → Bool
  | .cmd x _ => x == w
  | _ => false

/-- How many times the command `w` was sent. -/
def times (w : List Byte) (l : List Ev) : Nat := (l.filter (isCmdOf w)).length

/-- One of the commands was sent. -/
def anyOf (ws : List (List Byte)) (l : List Ev) : Bool := l.any fun e => ws.any fun w => isCmdOf w e

theorem times_append (w : List Byte) (a b : List Ev) : times w (a ++ b) = times w a + times w b := by
  simp [times]

theorem anyOf_append (ws : List (List Byte)) (a b : List Ev) : anyOf ws (a ++ b) = (anyOf ws a || anyOf ws b) := by
  simp [anyOf]

end Verif.Spec
