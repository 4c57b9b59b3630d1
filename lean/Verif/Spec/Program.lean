import Verif.Model.Program
import Verif.Spec.Client

/-!
# What the program examples/linux/ipcommdevice.cpp is meant to do
-/

namespace Verif.Spec.Program

open Verif.Client Spec.Client ModemDetect

/-- The calls of the task are in order, it prints what it reads, it stays within `buf`, no `read()` is in vain, when it calls
`disconnect()` the connection is down and nothing is left to be read, and the pointer to the driver is not NULL when it is used. -/
structure Proper (w : World MD) : Prop where
  order : Orderly w.log
  shown : w.shown = answer w.log
  inside : w.oob = false
  reads : ∀ bs, .read bs ∈ w.log → bs ≠ [] ∧ bs.length ≤ 40
  complete : ∀ c n, .disconnect c n ∈ w.log → c = false ∧ n = 0
  pointer : .getDetectedModem ∈ w.log → w.dev.modem ≠ none

end Verif.Spec.Program
