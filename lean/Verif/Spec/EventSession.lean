import Verif.Spec.EventLoop
import Verif.Spec.Sessions

/-!
# The program examples/linux/eventloop.cpp with a WiSUN modem: a concrete session
-/

namespace Verif.Spec.EventLoop

open Verif.EventLoop ModemDetect

/-- The memory of the driver. -/
def mems : Mems :=
  ⟨List.replicate 240 0, List.replicate 80 0, .tcp, List.replicate 61 0, List.replicate 16 0, List.replicate 24 0, List.replicate 24 0, .uninit, .uninit⟩

/-- Everything buffered is sent, the modem says something, the detector is run. -/
def hear (bs : List Byte) : List DOp := [.irq (List.replicate 80 ⟨none, true⟩ ++ bs.map fun c => ⟨some c, true⟩), .run true]

/-- What the modem says up to the answer of the server, which has `n` bytes. -/
def before (n : List Byte) : List (List Byte) :=
  [[], [], [], b!"CC1352P7\r\n", [], [], b!"OK\r\n", b!"OK\r\n", [], b!">", b!"OK\r\n", [], b!"+IPD," ++ n ++ b!"\r\n", []]

/-- The answer, the end of the connection, and some more turns. -/
def after (n data : List Byte) : List (List Byte) :=
  [b!"+CIPRECVDATA," ++ n ++ b!"\r\n", data ++ b!"OK\r\nCLOSED\r\n", [], [], []]

/-- Byte by byte, on Linux: what the modem says, and how long it says nothing afterwards. The driver runs after each byte. -/
def script : List (Option Byte) :=
  List.replicate 12 none ++
    [(b!"CC1352P7\r\n", 8), (b!"OK\r\n", 28), (b!"OK\r\n", 18), (b!">", 72), (b!"OK\r\n", 4), (b!"+IPD,3\r\n", 4), (b!"CLOSED\r\n", 22),
      (b!"+CIPRECVDATA,3\r\n", 2), (b!"abc", 0), (b!"OK\r\n", 9)].flatMap fun (l, n) => l.map some ++ List.replicate n none

/-- The operating system hands over the bytes of the script. -/
def speak (n : Nat) : Hw := ⟨(script[n / 2]?).getD none, true⟩

end Verif.Spec.EventLoop
