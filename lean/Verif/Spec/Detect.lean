import Verif.Model.ModemDetect
import Verif.Spec.Chat

/-!
# Detection of a modem

The environment is that of `Verif.Spec.Chat`. The application uses the detector: it calls `run()` of the detector and,
once it has a driver, the other functions of the driver.
-/

namespace Verif.Spec

open ModemDetect

/-- An operation on the driver that belongs to a detector. -/
def via : Op → DOp
  | .irq hs => .irq hs
  | .closePort => .closePort
  | .run ok => .run ok
  | op => .app op

/-- How the modems answer the queries, after AT+CGMM was said. -/
def find800 : List Exchange := [⟨await b!"SIMCOM_SIM800" [b!"SIMCOM_SIM7600", b!"CC1352P7", b!"ERROR"], []⟩]
def find7x00 : List Exchange := [⟨await b!"SIMCOM_SIM7600" [b!"SIMCOM_SIM800", b!"CC1352P7", b!"ERROR"], []⟩]
def findCC : List Exchange := [⟨await b!"CC1352P7" [b!"SIMCOM_SIM800", b!"SIMCOM_SIM7600", b!"ERROR"], []⟩]
def findEsp : List Exchange :=
  [⟨await b!"ERROR" [b!"SIMCOM_SIM800", b!"SIMCOM_SIM7600", b!"CC1352P7"], [b!"AT+GMR\r\n"]⟩,
   ⟨⟨fun l => b!"AT version:1.7" <+: l ∨ b!"AT version:2.1" <+: l, Clear [b!"AT version:1.7", b!"AT version:2.1"]⟩, []⟩,
   ⟨await b!"OK\r\n" [], []⟩]

/-- A detection: lines of the modem before it is started; number of additional calls of `run()`; answers; lines
afterwards. -/
structure Search where
  early : List Spoken
  wait : Nat
  beats : List Beat
  late : List Spoken

/-- What happens. -/
def Search.ops (n : Nat) (s : Search) : List DOp :=
  .run true :: (hearAll n s.early).map via ++ (.start :: List.replicate (s.wait + 2) (.run true)) ++
    (Spec.ops n s.beats ++ hearAll n s.late).map via

/-- The modem does its part. -/
structure Search.Ok (as : List Exchange) (s : Search) : Prop where
  early : ∀ x ∈ s.early, x.Is fun _ => True
  beats : Dialogue as s.beats
  late : ∀ x ∈ s.late, x.Is fun _ => True

end Verif.Spec
