import Verif.Spec.Ntp
import Verif.Spec.ClientSessions

/-!
# The task of examples/linux/autodetectntp.cpp with a WiSUN modem: a concrete session
-/

namespace Verif.Spec.Ntp

open Verif.Ntp Sess Spec.Client

/-- The modem has been detected, then these interrupts and calls happen. -/
def meanwhile (ops : List Op) (w : Verif.Ntp.World (Bool × CC1352P7.D)) : Verif.Ntp.World (Bool × CC1352P7.D) :=
  { w with dev := (true, exec (CC1352P7.step arm) w.dev.2 ops) }

/-- The connection is opened, the request is sent, three bytes are received, and the connection is closed. -/
def threeBytes : List Op :=
  machine (upCC .udp) ++ talk b!">" ++ talk b!"OK\r\n" ++ talk b!">" ++ talk b!"OK\r\n" ++
  talk b!"+IPD,3\r\n" ++ talk b!"+CIPRECVDATA,3\r\n" ++ talk b!"abc" ++ talk b!"OK\r\n" ++
  machine downCC

/-- The task has a turn after each of them, one per millisecond. -/
def turnsOf (ops : List Op) : List (Nat × (Verif.Ntp.World (Bool × CC1352P7.D) → Verif.Ntp.World (Bool × CC1352P7.D))) :=
  ops.zipIdx.map fun x => (x.2, meanwhile [x.1])

end Verif.Spec.Ntp
