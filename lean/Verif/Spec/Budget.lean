import Verif.Spec.Trace
import Verif.Spec.Answer
import Verif.Model.Dev

/-!
# How often connections are opened
-/

namespace Verif.Spec

/-- Number of commands `c` sent. -/
def openings (c : List Byte) (t : List Ev) : Nat :=
  t.countP fun e => match e with | .cmd w _ => w == c | _ => false

/-- Number of successful calls of `connect()`. -/
def requests (t : List Ev) : Nat := t.countP fun e => match e with | .apiConnect => true | _ => false

/-- Number of lines received by which the modem reports a failure. -/
def refusals (bad : List Byte → Bool) (t : List Ev) : Nat :=
  t.countP fun e => match e with | .line l => bad l | _ => false

/-- Failures: an error, a connection that could not be opened, a name that could not be resolved. -/
def bad7x00 (l : List Byte) : Bool :=
  begins b!"ERROR" l || (begins b!"+CIPOPEN: 0," l && !begins b!"+CIPOPEN: 0,0" l) || begins b!"+CDNSGIP: 0" l

def bad800 (l : List Byte) : Bool :=
  begins b!"ERROR" l || begins b!"+CME ERROR" l || begins b!"+PDP: DEACT" l || begins b!"0, CONNECT FAIL" l ||
    begins b!"+CDNSGIP: 0" l

def badEsp (l : List Byte) : Bool := begins b!"ERROR" l || begins b!"FAIL" l

def badCC (l : List Byte) : Bool := begins b!"ERROR" l || begins b!"SEND FAIL" l

end Verif.Spec
