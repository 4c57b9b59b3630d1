import Verif.Spec.Budget

/-!
# What the modem said about the end of a connection
-/

namespace Verif.Spec

/-- A connection as seen on the serial line: there is none; a command to open one was sent; a command to close it was
sent; a command to restart the modem was sent. -/
inductive LinkPhase
  | shut | opened | closing | restart
deriving DecidableEq, Repr

/-- Commands, and beginnings of lines of the modem that say that a connection has come to an end: at any time, after a
command to close it, after a command to restart the modem. -/
structure Signs where
  opens : List Byte
  close : List (List Byte)
  restart : List (List Byte)
  always : List (List Byte)
  closed : List (List Byte)
  restarted : List (List Byte)

/-- The line begins with one of the texts. -/
def beginsAny (ws : List (List Byte)) (l : List Byte) : Bool := ws.any (begins · l)

/-- The line says that the connection has come to an end. -/
def Signs.ends (s : Signs) (q : LinkPhase) (l : List Byte) : Bool :=
  beginsAny s.always l || (q == .closing && beginsAny s.closed l) || (q == .restart && beginsAny s.restarted l)

/-- Where the connection stands. -/
def Signs.phase (s : Signs) : Observer LinkPhase where
  init := .shut
  step q e := match e with
    | .cmd w _ =>
      if w = s.opens then .opened
      else if q = .shut then .shut
      else if w ∈ s.close then .closing
      else if w ∈ s.restart then .restart
      else q
    | .line l => if s.ends q l then .shut else q
    | .apiReset => .shut
    | _ => q

def signs7x00 : Signs where
  opens := b!"AT+CIPOPEN"
  close := [b!"AT+NETCLOSE"]
  restart := [b!"AT+CRESET"]
  always := [b!"+IPCLOSE: 0,"]
  closed := [b!"+NETCLOSE: 0"]
  restarted := [b!"RDY"]

def signs800 : Signs where
  opens := b!"AT+CIPSTART"
  close := [b!"AT+CIPSHUT"]
  restart := []
  always := [b!"0, CLOSED"]
  closed := [b!"SHUT OK", b!"ERROR", b!"+CME ERROR", b!"+PDP: DEACT"]
  restarted := []

def signsEsp : Signs where
  opens := b!"AT+CIPSTART"
  close := []
  restart := [b!"AT+RST"]
  always := [b!"WIFI DISCONNECT"]
  closed := []
  restarted := [b!"ready"]

def signsCC : Signs where
  opens := b!"AT+CIPSTART"
  close := [b!"AT+CIPCLOSE"]
  restart := []
  always := [b!"CLOSED"]
  closed := [b!"OK"]
  restarted := []

end Verif.Spec
