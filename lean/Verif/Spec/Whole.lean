import Verif.Spec.Order

/-! # Complete commands -/

namespace Verif.Spec

/-- Bytes of command text and payload in a list of events. -/
def outLen : List Ev → Nat
  | [] => 0
  | .cmd w _ :: l | .arg w _ :: l | .pay w :: l => w.length + outLen l
  | _ :: l => outLen l

/-- The serial device accepted every string of a command in full. -/
def Whole (l : List Ev) : Prop := ∀ w g, (.cmd w g ∈ l ∨ .arg w g ∈ l) → g = w

/-- The strings of the commands are C strings. -/
def Strings (l : List Ev) : Prop := ∀ w g, (.cmd w g ∈ l ∨ .arg w g ∈ l) → (0 : Byte) ∉ w

end Verif.Spec
