import Verif.Spec.Waiting
import Verif.Spec.Parse

/-!
# Questions and the lines that answer them

Some commands ask the modem for a value. `OK` says that the command was carried out; the value comes in a line of its own.
-/

namespace Verif.Spec

/-- Questions to a modem: the first string of the command, and the test for a line with the value. -/
abbrev Questions := List (List Byte × (List Byte → Bool))

/-- The question the modem has not answered with a value. -/
def asked (q : Questions) : Observer (Option (List Byte)) where
  init := none
  step := fun s e =>
    match e with
    | .cmd w _ => if (q.lookup w).isSome then some w else none
    | .pay _ => none
    | .line l =>
      match s with
      | some w => if ((q.lookup w).getD fun _ => true) l then none else some w
      | none => none
    | .flush => none
    | .apiReset => none
    | _ => s

/-- In the trace `t`, after each question nothing is transmitted as long as no line with the value has come, the receive
buffers were not flushed (by the driver, when the modem is reset), and `resetStates()` was not called. -/
def Awaited (q : Questions) (t : List Ev) : Prop :=
  ∀ pre w g mid post v, t = pre ++ .cmd w g :: mid ++ post → q.lookup w = some v →
    (∀ l, .line l ∈ mid → v l = false) → .flush ∉ mid → .apiReset ∉ mid → ∀ e ∈ mid, sent e = none

/-- The line begins with `w`. -/
def begins (w l : List Byte) : Bool := w.isPrefixOf l

/-- A line that is taken for an identification: it is not an echo, not empty, and not a message with `+`, other than
`+ICCID: `. -/
def identLine (l : List Byte) : Bool :=
  !begins b!"AT" l && !begins b!"\r" l && (begins b!"+ICCID: " l || !begins b!"+" l)

/-- The IP address of a name, between the third and the fourth quotation mark (up to ten are accepted). -/
def addressLine (l : List Byte) : Bool :=
  begins b!"+CDNSGIP: 1" l && decide (4 ≤ ((cstr l).filter (· = 34)).length) &&
    decide (((cstr l).filter (· = 34)).length ≤ 10)

/-- The commands for identifications other than the ICCID. -/
def identCommands : List (List Byte) := [b!"AT+CGMI", b!"AT+CGMM", b!"AT+CGSN", b!"AT+CIMI"]

/-- SIM7x00, sim7x00.cpp:107-164. -/
def questionsSim7x00 : Questions :=
  [(b!"AT+CSQ", begins b!"+CSQ: "), (b!"AT+CDNSGIP=\"", addressLine),
   (b!"AT+CIPRXGET=4,0", begins b!"+CIPRXGET: 4,0,"), (b!"AT+CIPRXGET=2,0,", begins b!"+CIPRXGET: 2,0,")] ++
  (b!"AT+CICCID" :: identCommands).map fun w => (w, identLine)

/-- SIM800, sim800.cpp:107-164. A line that could be an identification ends the waiting for the signal strength as well
(missing `break`). -/
def questionsSim800 : Questions :=
  [(b!"AT+CSQ", fun l => begins b!"+CSQ: " l || identLine l), (b!"AT+CDNSGIP=\"", addressLine),
   (b!"AT+CIPRXGET=4,0", begins b!"+CIPRXGET: 4,0,"), (b!"AT+CIPRXGET=2,0,", begins b!"+CIPRXGET: 2,0,"),
   (b!"AT+CIFSR", fun l => ((cstr l).filter (· = 46)).length == 3)] ++
  (b!"AT+CCID" :: identCommands).map fun w => (w, identLine)

/-- Espressif, espressif.cpp:229-270. -/
def questionsEspressif : Questions :=
  [(b!"AT+CWJAP?", fun l => begins b!"+CWJAP:" l || begins b!"No AP" l),
   (b!"AT+CIPSTAMAC?", begins b!"+CIPSTAMAC:\"")]

/-- CC1352P7, cc1352p7.cpp:198-226. A line with a MAC address ends the waiting for the signal strength as well (missing
`break`). -/
def questionsCC1352P7 : Questions :=
  [(b!"AT+CSQ", fun l => begins b!"+CSQ:" l || begins b!"+CIPSTAMAC:\"" l),
   (b!"AT+CIPSTAMAC", begins b!"+CIPSTAMAC:\"")]

open Classical in
/-- The questions about the ICCID, `w` being the command: only a line with a valid one answers it. -/
noncomputable def questionIccid (w : List Byte) : Questions :=
  [(w, fun l => identLine l && decide (ValidIccid (idText l)))]

end Verif.Spec
