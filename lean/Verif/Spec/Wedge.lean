import Verif.Spec.Trace

/-! # Drivers that do nothing any more -/

namespace Verif.Spec

/-- The driver itself did something on the serial line. -/
def driver : Ev → Bool
  | .cmd _ _ | .arg _ _ | .pay _ | .line _ | .data _ | .drop _ | .flush => true
  | _ => false

/-- The driver took bytes from the serial line. -/
def takes : Ev → Bool
  | .line _ | .data _ | .drop _ | .flush => true
  | _ => false

/-- A command was sent. -/
def isCmd : Ev → Bool
  | .cmd _ _ => true
  | _ => false

/-- From trace `a` to trace `b` the driver did nothing at all on the serial line. -/
def Silent (a b : List Ev) : Prop := ∃ new, b = a ++ new ∧ ∀ e ∈ new, driver e = false

/-- From trace `a` to trace `b` the driver took nothing from the serial line, sent no payload and at most
one command. -/
def Deaf (a b : List Ev) : Prop :=
  ∃ new, b = a ++ new ∧ ((∀ e ∈ new, takes e = false) ∧ ∀ e ∈ new, ∀ bs, e ≠ .pay bs) ∧
    (new.filter isCmd).length ≤ 1

/-! ## Serial devices that could not be opened -/

/-- Error messages of the modems. -/
def errors : List (List Byte) :=
  [b!"ERROR", b!"FAIL", b!"SEND FAIL", b!"+CME ERROR", b!"+PDP: DEACT"]

/-- Neither an error message nor `resetStates()`. -/
def harmless : Ev → Bool
  | .line l => !errors.any fun w => w.isPrefixOf l
  | .apiReset => false
  | _ => true

/-- At most one of the commands `cmds` with a line end is sent; no payload is sent or received, nothing is
thrown away. -/
def status (cmds : List (List Byte)) : Ev → Bool
  | .cmd w _ => cmds.contains w
  | .arg w _ => w == b!"\r\n"
  | .pay _ | .data _ | .drop _ | .flush => false
  | _ => true

/-- Requests for signal strength and identification. -/
def statusSim (iccid : List Byte) : List (List Byte) :=
  [b!"AT+CSQ", b!"AT+CGMI", b!"AT+CGMM", b!"AT+CGSN", b!"AT+CIMI", iccid]

/-- Requests for signal strength and MAC address. -/
def statusEsp : List (List Byte) := [b!"AT+CWJAP?", b!"AT+CIPSTAMAC?"]

/-- Requests for signal strength and MAC address. -/
def statusCC : List (List Byte) := [b!"AT+CSQ", b!"AT+CIPSTAMAC"]

end Verif.Spec
