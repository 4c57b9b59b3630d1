import Verif.Spec.BlockingProgram
import Verif.Spec.Sessions

/-!
# The program examples/linux/blocking.cpp: a concrete session, byte by byte
-/

namespace Verif.Spec.BlockingProgram

/-- The driver with its memory. -/
def dev : Sim7x00.D :=
  Sim7x00.init (Ser.init (List.replicate 120 0) (List.replicate 120 0) []) (List.replicate 80 0) (List.replicate 80 0) .tcp
    (List.replicate 61 0) (List.replicate 16 0) (List.replicate 24 0)

/-- What the modem says, and how long it says nothing afterwards. At the end the server sends more data. -/
def script : List (Option Byte) :=
  List.replicate 9 none ++
    [(b!"OK\r\n", 40), (b!"OK\r\n", 22), (b!"OK\r\n", 18), (b!"OK\r\n", 16), (b!"+NETOPEN: 0\r\n", 18), (b!"OK\r\n", 30),
      (b!"+CDNSGIP: 1,\"wttr.in\",\"1.2.3.4\"\r\n", 2), (b!"OK\r\n", 40), (b!"+CIPOPEN: 0,0\r\n", 20), (b!">", 80), (b!"OK\r\n", 4),
      (b!"+CIPRXGET: 1,0\r\n", 22), (b!"+CIPRXGET: 4,0,3\r\n", 2), (b!"OK\r\n", 22), (b!"+CIPRXGET: 2,0,3,0\r\n", 2), (b!"abc", 2),
      (b!"OK\r\n", 24), (b!"+CIPRXGET: 4,0,0\r\n", 2), (b!"OK\r\n", 2), (b!"+CIPRXGET: 1,0\r\n", 20), (b!"OK\r\n", 4),
      (b!"+NETCLOSE: 0\r\n", 0)].flatMap fun (l, n) => l.map some ++ List.replicate n none

/-- The operating system hands over the bytes of the script. -/
def feed (n : Nat) : Hw := ⟨(script[n / 2]?).getD none, true⟩

/-- The clock. After the first piece of the answer there is a pause of more than four seconds. -/
def clock (c : Nat) : Nat := if c < 600 then 10 * c else if c < 1600 then 5400 + c else if c < 1604 then 8000 + c else 11000 + c

end Verif.Spec.BlockingProgram
