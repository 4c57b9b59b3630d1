import Verif.Model.Ops

/-!
# Vocabulary for bytes that arrive early
-/

namespace Verif.Spec

/-- The bytes `y` arrive, one interrupt each; nothing is sent meanwhile. -/
def lands (y : List Byte) : Op := .irq (y.map fun c => ⟨some c, false⟩)

end Verif.Spec
