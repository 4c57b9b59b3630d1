import Verif.Spec.Trace

/-!
# The order of commands

The documented state machines of the drivers (diagrams in sim7x00.h, sim800.h, espressif.h, cc1352p7.h; the
enumerations `SendState` list the states in this order), seen from the serial line: which command may follow
which. Commands are named by the first string of them, a block of payload by the empty string. Requests for
signal strength, identification and MAC address may come at any time and are left out.
-/

namespace Verif.Spec

/-- The name of a block of payload. -/
def payload : List Byte := []

/-- A diagram: status requests, and for every command the commands it may follow; `none` stands for the
beginning or `resetStates()`. Commands with `any` may come at any time. -/
structure Diagram where
  status : List (List Byte)
  any : List (List Byte)
  table : List (List Byte × List (Option (List Byte)))

/-- Predecessors of a command. -/
def Diagram.before (g : Diagram) (w : List Byte) : List (Option (List Byte)) :=
  ((g.table.filter fun x => x.1 = w).map (·.2)).flatten

/-- The last command of the connection, or block of payload. -/
def Diagram.last (g : Diagram) : Observer (Option (List Byte)) where
  init := none
  step := fun s e =>
    match e with
    | .cmd w _ => if w ∈ g.status then s else some w
    | .pay _ => some payload
    | .apiReset => none
    | _ => s

/-- The event may come after a command. -/
def Diagram.allows (g : Diagram) (s : Option (List Byte)) : Ev → Bool
  | .cmd w _ => decide (w ∈ g.status) || decide (w ∈ g.any) || decide (s ∈ g.before w)
  | .pay _ => decide (s ∈ g.before payload)
  | _ => true

/-- All commands of the trace come in the order of the diagram. -/
def Diagram.Follows (g : Diagram) (t : List Ev) : Prop :=
  Always (fun pre e => g.allows (g.last.after pre) e = true) t

/-- SIM7x00. Connecting: echo off, context, network, DNS query, open. A modem that is switched on answers `+NETOPEN: 1`,
the command is repeated. A connection closed by the peer is opened again from the DNS result. After a reset of the modem
everything starts from the beginning. -/
def diagramSim7x00 : Diagram where
  status := [b!"AT+CSQ", b!"AT+CGMI", b!"AT+CGMM", b!"AT+CGSN", b!"AT+CIMI", b!"AT+CICCID"]
  any := [b!"AT+CRESET"]
  table :=
    [(b!"ATE0", [none, some b!"AT+CRESET", some b!"AT+NETCLOSE", some b!"AT+CIPMODE=0", some b!"AT+NETOPEN"]),
     (b!"AT+CGSOCKCONT=1,\"IP\",\"", [some b!"ATE0"]),
     (b!"AT+CSOCKSETPN=1", [some b!"AT+CGSOCKCONT=1,\"IP\",\""]),
     (b!"AT+CIPMODE=0", [some b!"AT+CSOCKSETPN=1"]),
     (b!"AT+NETOPEN", [some b!"AT+CIPMODE=0", some b!"AT+NETOPEN"]),
     (b!"AT+CIPRXGET=1", [some b!"AT+NETOPEN"]),
     (b!"AT+CDNSGIP=\"", [some b!"AT+CIPRXGET=1"]),
     (b!"AT+CIPOPEN", [some b!"AT+CDNSGIP=\"", some b!"AT+CIPRXGET=4,0", some b!"AT+CIPRXGET=2,0,"]),
     (b!"AT+CIPSEND=", [some b!"AT+CIPOPEN", some payload, some b!"AT+CIPRXGET=4,0", some b!"AT+CIPRXGET=2,0,"]),
     (payload, [some b!"AT+CIPSEND="]),
     (b!"AT+CIPRXGET=4,0", [some b!"AT+CIPOPEN", some payload, some b!"AT+CIPRXGET=4,0", some b!"AT+CIPRXGET=2,0,"]),
     (b!"AT+CIPRXGET=2,0,", [some b!"AT+CIPRXGET=4,0", some b!"AT+CIPRXGET=2,0,"]),
     (b!"AT+NETCLOSE", [some b!"AT+CIPOPEN", some payload, some b!"AT+CIPRXGET=4,0", some b!"AT+CIPRXGET=2,0,"])]

/-- SIM800. `AT+CIPSHUT` closes everything; an error while connecting or connected leads to it. -/
def diagramSim800 : Diagram where
  status := [b!"AT+CSQ", b!"AT+CGMI", b!"AT+CGMM", b!"AT+CGSN", b!"AT+CIMI", b!"AT+CCID"]
  any := [b!"ATE0"]
  table :=
    [(b!"AT+CIPRXGET=1", [some b!"ATE0"]),
     (b!"AT+CIPMUX=1", [some b!"AT+CIPRXGET=1"]),
     (b!"AT+CSTT=\"", [some b!"AT+CIPMUX=1"]),
     (b!"AT+CIICR", [some b!"AT+CSTT=\""]),
     (b!"AT+CIFSR", [some b!"AT+CIICR"]),
     (b!"AT+CDNSGIP=\"", [some b!"AT+CIFSR"]),
     (b!"AT+CIPSTART", [some b!"AT+CDNSGIP=\"", some b!"AT+CIPRXGET=4,0", some b!"AT+CIPRXGET=2,0,"]),
     (b!"AT+CIPSEND=", [some b!"AT+CIPSTART", some payload, some b!"AT+CIPRXGET=4,0", some b!"AT+CIPRXGET=2,0,"]),
     (payload, [some b!"AT+CIPSEND="]),
     (b!"AT+CIPRXGET=4,0", [some b!"AT+CIPSTART", some payload, some b!"AT+CIPRXGET=4,0", some b!"AT+CIPRXGET=2,0,"]),
     (b!"AT+CIPRXGET=2,0,", [some b!"AT+CIPRXGET=4,0", some b!"AT+CIPRXGET=2,0,"]),
     (b!"AT+CIPCLOSE=0", [some b!"AT+CIPSTART", some payload, some b!"AT+CIPRXGET=4,0", some b!"AT+CIPRXGET=2,0,"]),
     (b!"AT+CIPSHUT", [some b!"AT+CSTT=\"", some b!"AT+CIICR", some b!"AT+CIFSR", some b!"AT+CDNSGIP=\"", some b!"AT+CIPSTART", some payload, some b!"AT+CIPSEND=", some b!"AT+CIPRXGET=4,0", some b!"AT+CIPRXGET=2,0,", some b!"AT+CIPCLOSE=0"])]

/-- Espressif. `WIFI DISCONNECT` ends a connection at any time, also where the serial device could not be opened; then
everything starts from the beginning. -/
def diagramEspressif : Diagram where
  status := [b!"AT+CWJAP?", b!"AT+CIPSTAMAC?"]
  any := [b!"AT+RST", b!"ATE0"]
  table :=
    [(b!"AT+CWMODE=1", [some b!"ATE0"]),
     (b!"AT+CWJAP=\"", [some b!"AT+CWMODE=1"]),
     (b!"AT+CIPMUX=0", [some b!"AT+CWJAP=\""]),
     (b!"AT+CIPRECVMODE=1", [some b!"AT+CIPMUX=0"]),
     (b!"AT+CIPRECVMODE=0", [some b!"AT+CIPMUX=0"]),
     (b!"AT+CIPMODE=0", [some b!"AT+CIPRECVMODE=1", some b!"AT+CIPRECVMODE=0"]),
     (b!"AT+CIPSTART", [some b!"AT+CIPMODE=0"]),
     (b!"AT+CIPSEND=", [some b!"AT+CIPSTART", some payload, some b!"AT+CIPRECVDATA="]),
     (payload, [some b!"AT+CIPSEND="]),
     (b!"AT+CIPRECVDATA=", [some b!"AT+CIPSTART", some payload, some b!"AT+CIPRECVDATA="]),
     (b!"AT+CIPCLOSE", [some b!"AT+CIPSTART", some payload, some b!"AT+CIPRECVDATA="]),
     (b!"AT+CWQAP", [some b!"AT+CIPSTART", some payload, some b!"AT+CIPRECVDATA=", some b!"AT+CIPCLOSE"])]

/-- CC1352P7. `AT+CIPCLOSE` follows every error. -/
def diagramCC1352P7 : Diagram where
  status := [b!"AT+CSQ", b!"AT+CIPSTAMAC"]
  any := [b!"AT+CIPCLOSE"]
  table :=
    [(b!"ATE0", [none, some b!"AT+CIPCLOSE", some b!"AT+CIPSTART", some payload, some b!"AT+CIPRECVDATA="]),
     (b!"AT+CIPSTART", [some b!"ATE0"]),
     (b!"AT+CIPSEND=", [some b!"AT+CIPSTART", some payload, some b!"AT+CIPRECVDATA="]),
     (payload, [some b!"AT+CIPSEND="]),
     (b!"AT+CIPRECVDATA=", [some b!"AT+CIPSTART", some payload, some b!"AT+CIPRECVDATA="])]

end Verif.Spec
