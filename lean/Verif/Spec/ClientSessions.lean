import Verif.Spec.Client
import Verif.Spec.Sessions

/-!
# The task of the example with each driver: concrete sessions
-/

namespace Verif.Spec.Client

open Verif.Client Sess

/-- A driver with a write buffer the request fits in. -/
def roomy {S R X : Type} (d : Dev S R X) : Dev S R X := { d with wbuf := Ring.init (List.replicate 80 0) }

/-- The modem has been detected, then these interrupts and calls happen. -/
def meanwhile {S R X : Type} (step : Dev S R X → Op → Dev S R X) (ops : List Op) (w : World (Bool × Dev S R X)) :
    World (Bool × Dev S R X) := { w with dev := (true, exec step w.dev.2 ops) }

/-- The task has a turn after each of these interrupts and calls. -/
def oneByOne {S R X : Type} (step : Dev S R X → Op → Dev S R X) (ops : List Op) :
    List (Nat × (World (Bool × Dev S R X) → World (Bool × Dev S R X))) := ops.map fun op => (0, meanwhile step [op])

/-- The calls the application makes in these sessions are made by the task. -/
def machine (ops : List Op) : List Op := ops.filter fun
  | .irq _ | .run _ => true
  | _ => false

/-- The connection is opened and the request is sent, in two portions. -/
def sent7x00 : List Op := machine (up7x00 .tcp) ++ talk b!">" ++ talk b!"OK\r\n" ++ talk b!">" ++ talk b!"OK\r\n"
def sent800 : List Op := machine (up800 .tcp) ++ talk b!">" ++ talk b!"0, SEND OK\r\n" ++ talk b!">" ++ talk b!"0, SEND OK\r\n"
def sentEsp : List Op := machine (upEsp .tcp) ++ talk b!"OK\r\n" ++ talk b!">" ++ talk b!"SEND OK\r\n" ++ talk b!"OK\r\n" ++
  talk b!">" ++ talk b!"SEND OK\r\n"
def sentCC : List Op := machine (upCC .tcp) ++ talk b!">" ++ talk b!"OK\r\n" ++ talk b!">" ++ talk b!"OK\r\n"

/-- Three bytes are received, and the server closes. -/
def got7x00 : List Op := talk b!"+CIPRXGET: 1,0\r\n" ++ talk b!"+CIPRXGET: 4,0,3\r\n" ++ talk b!"OK\r\n" ++
  talk b!"+CIPRXGET: 2,0,3,0\r\n" ++ talk b!"abc" ++ talk b!"OK\r\n" ++ talk b!"+IPCLOSE: 0,1\r\n" ++ talk b!"+CIPRXGET: 4,0,0\r\n" ++
  talk b!"OK\r\n" ++ talk b!"+NETCLOSE: 0\r\n"
def got800 : List Op := talk b!"+CIPRXGET: 1,0\r\n" ++ talk b!"+CIPRXGET: 4,0,3\r\n" ++ talk b!"OK\r\n" ++
  talk b!"+CIPRXGET: 2,0,3,0\r\n" ++ talk b!"abc" ++ talk b!"OK\r\n" ++ talk b!"+CIPRXGET: 4,0,0\r\n" ++ talk b!"OK\r\n" ++
  talk b!"0, CLOSED\r\n" ++ talk b!"SHUT OK\r\n"
def gotEsp : List Op := talk b!"+IPD,3\r\n" ++ talk b!"+CIPRECVDATA,3:" ++ talk b!"abc" ++ talk b!"OK\r\n" ++ talk b!"CLOSED\r\n" ++
  talk b!"OK\r\n" ++ talk b!"WIFI DISCONNECT\r\n"
def gotCC : List Op := talk b!"+IPD,3\r\n" ++ talk b!"+CIPRECVDATA,3\r\n" ++ talk b!"abc" ++ talk b!"OK\r\n" ++ talk b!"CLOSED\r\n"

/-- Three bytes with a zero among them. -/
def zeroEsp : List Op := talk b!"+IPD,3\r\n" ++ talk b!"+CIPRECVDATA,3:" ++ talk [97, 0, 99] ++ talk b!"OK\r\n"

/-- The server closes at once. -/
def endedEsp : List Op := talk b!"CLOSED\r\n" ++ talk b!"OK\r\n" ++ talk b!"WIFI DISCONNECT\r\n"

end Verif.Spec.Client
