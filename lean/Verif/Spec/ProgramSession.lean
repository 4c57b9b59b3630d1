import Verif.Spec.Program
import Verif.Spec.Sessions

/-!
# The program examples/linux/ipcommdevice.cpp with a WiSUN modem: a concrete session
-/

namespace Verif.Spec.Program

open Verif.Client ModemDetect Verif.Program

/-- The memory of the driver. -/
def mems : Mems :=
  ⟨List.replicate 48 0, List.replicate 80 0, .tcp, List.replicate 61 0, List.replicate 16 0, List.replicate 24 0, List.replicate 24 0, .uninit, .uninit⟩

/-- What the modem says, each line followed by silence. -/
def script : List (Option Byte) :=
  let say (n : Nat) (l : List Byte) : List (Option Byte) := l.map some ++ List.replicate n none
  List.replicate 14 none ++ say 28 b!"CC1352P7\r\n" ++ say 28 b!"OK\r\n" ++ say 30 b!"OK\r\n" ++ say 42 b!">" ++ say 26 b!"OK\r\n" ++ say 42 b!">" ++ say 12 b!"OK\r\n" ++
    say 26 b!"+IPD,3\r\n" ++ say 8 b!"+CIPRECVDATA,3\r\n" ++ say 6 b!"abc" ++ say 16 b!"OK\r\n" ++ say 16 b!"CLOSED\r\n"

/-- In each call of the serial device a byte can be sent; every second call of the environment is one of the serial device. -/
def feed (n : Nat) : Hw := ⟨(script[n / 2]?).getD none, true⟩

/-- The state before the first call of `runTask()`. -/
def fresh : Sched Main := main (List.replicate 64 0) (List.replicate 64 0) 0 feed fun _ => true

end Verif.Spec.Program
