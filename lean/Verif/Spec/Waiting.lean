import Verif.Spec.Trace

/-!
# Which answer of the modem completes which command

Tables taken from the AT command sequences in sim7x00.cpp, sim800.cpp, espressif.cpp and cc1352p7.cpp, and
the observer that follows the pending command.
-/

namespace Verif.Spec

/-- Answers of a modem. Keys: the first string of a command; `none` for a block of payload. -/
structure Replies where
  /-- Beginnings of the lines that complete a command. -/
  words : Option (List Byte) → List (List Byte)
  /-- Beginnings of the lines that complete any command. -/
  any : List (List Byte)
  /-- The answer to the command has no fixed beginning; the line must meet this test. -/
  test : Option (List Byte) → List Byte → Bool

/-- The line completes the command. -/
def Replies.ends (r : Replies) (k : Option (List Byte)) (l : List Byte) : Bool :=
  r.any.any (·.isPrefixOf l) || (r.words k).any (·.isPrefixOf l) || r.test k l

/-- What the driver transmits: the first string of a command or a block of payload. -/
def sent : Ev → Option (Option (List Byte))
  | .cmd w _ => some (some w)
  | .pay _ => some none
  | _ => none

/-- The command, or block of payload, that has not been answered. -/
def pend (r : Replies) : Observer (Option (Option (List Byte))) where
  init := none
  step := fun s e =>
    match e with
    | .cmd w _ => some (some w)
    | .pay _ => some none
    | .line l =>
      match s with
      | some k => if r.ends k l then none else some k
      | none => none
    | .flush => none
    | .apiReset => none
    | _ => s

/-- Look up in a table, `OK` by default. -/
def wordsOf (t : List (Option (List Byte) × List (List Byte))) (k : Option (List Byte)) :
    List (List Byte) :=
  match t with
  | [] => [b!"OK"]
  | (k', w) :: t => if k' = k then w else wordsOf t k

/-- SIM7x00, sim7x00.cpp. `+IPCLOSE: 0,` ends every waiting (simcommdevice.cpp:294-297), as does
`+NETOPEN: 1` (sim7x00.cpp:114-120). -/
def repliesSim7x00 : Replies where
  words := wordsOf
    [(some b!"AT+NETOPEN", [b!"+NETOPEN: 0"]),
     (some b!"AT+CIPOPEN", [b!"+CIPOPEN: 0,0"]),
     (some b!"AT+CIPSEND=", [b!">"]),
     (some b!"AT+CIPRXGET=2,0,", [b!"+CIPRXGET: 2,0,"]),
     (some b!"AT+NETCLOSE", [b!"+NETCLOSE: 0"]),
     (some b!"AT+CRESET", [b!"RDY"])]
  any := [b!"+IPCLOSE: 0,", b!"+NETOPEN: 1"]
  test := fun _ _ => false

/-- SIM800, sim800.cpp. `0, CLOSED` ends every waiting (simcommdevice.cpp:294-297). `AT+CIFSR` is answered
by an IP address: a line with three dots (sim800.cpp:109-117). -/
def repliesSim800 : Replies where
  words := wordsOf
    [(some b!"AT+CIFSR", []),
     (some b!"AT+CIPSTART", [b!"0, CONNECT OK"]),
     (some b!"AT+CIPSEND=", [b!">"]),
     (none, [b!"0, SEND OK"]),
     (some b!"AT+CIPRXGET=2,0,", [b!"+CIPRXGET: 2,0,"]),
     (some b!"AT+CIPCLOSE=0", [b!"0, CLOSE OK"]),
     (some b!"AT+CIPSHUT", [b!"SHUT OK"])]
  any := [b!"0, CLOSED"]
  test := fun k l => k == some b!"AT+CIFSR" && ((cstr l).filter (· = 46)).length == 3

/-- Espressif, espressif.cpp. `SEND FAIL` and `WIFI DISCONNECT` end every waiting (espressif.cpp:217-220,
286-288). -/
def repliesEspressif : Replies where
  words := wordsOf
    [(some b!"AT+CIPSEND=", [b!">"]),
     (none, [b!"SEND OK"]),
     (some b!"AT+CIPRECVDATA=", [b!"+CIPRECVDATA"]),
     (some b!"AT+CWQAP", [b!"WIFI DISCONNECT"]),
     (some b!"AT+RST", [b!"ready"])]
  any := [b!"SEND FAIL", b!"WIFI DISCONNECT"]
  test := fun _ _ => false

/-- CC1352P7, cc1352p7.cpp. -/
def repliesCC1352P7 : Replies where
  words := wordsOf
    [(some b!"AT+CIPSEND=", [b!">"]),
     (some b!"AT+CIPRECVDATA=", [b!"+CIPRECVDATA"])]
  any := []
  test := fun _ _ => false

end Verif.Spec
