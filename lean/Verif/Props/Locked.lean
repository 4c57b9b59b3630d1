import Verif.Spec.Sessions
import Verif.Spec.Receiving
import Verif.Props.Stale
import Verif.Spec.Chat

/-!
# C39, C57, C69: further witnesses

The serial lock in the middle of a data block; an announcement that replaces a larger one; a signal strength that is the mark
for "not known".
-/

namespace Verif.Props.Locked

open Verif Dev Spec Stale

/-- Five bytes are announced, asked for and begin to arrive. Then the application takes the lock, reads two bytes from the
serial line and releases the lock. The rest of the block arrives, the application reads. -/
def within (up : List Op) : List Op :=
  up ++ Sess.talk b!"+CIPRXGET: 1,0\r\n" ++ Sess.talk b!"+CIPRXGET: 4,0,5\r\nOK\r\n" ++ [.run true] ++
  Sess.say b!"+CIPRXGET: 2,0,5,0\r\nhe" ++ [.run true, .run true] ++ [.serialLock, .serialRead 2, .serialUnlock] ++
  Sess.talk b!"llo\r\nOK\r\n" ++ [.run true, .run true, .read 8]

/-- Events of `read()` and `serialRead()` that delivered something. -/
def gotten (t : List Ev) : List Ev :=
  t.filter fun e => match e with | .apiRead _ | .userRx _ => true | _ => false

/-- C39, SIM7x00: `serialLock()` succeeds while a block of data is being received. The application takes the beginning of the
block for an answer to a command of its own, and `read()` delivers the end of the answer of the modem as data of the peer. -/
theorem C39_sim7x00_within :
    gotten (exec (Sim7x00.step Sess.arm) Sess.sim7x00 (within (Sess.up7x00 .tcp))).trace =
      [.userRx b!"he", .apiRead b!"llo\r\n"] := by decide +kernel

/-- C39, SIM800: likewise. -/
theorem C39_sim800_within :
    gotten (exec (Sim800.step Sess.arm) Sess.sim800 (within (Sess.up800 .tcp))).trace =
      [.userRx b!"he", .apiRead b!"llo\r\n"] := by decide +kernel

/-- Five bytes are announced and asked for. Before they come two bytes are announced. Then the five bytes come (`rx`), and the
application reads them. -/
def less (up rx : List Op) : List Op :=
  up ++ Sess.talk b!"+IPD,5\r\n" ++ [.run true] ++ Sess.talk b!"+IPD,2\r\n" ++ rx ++
  [.read 8, .run true, .run true, .run true, .run true]

/-- C57, Espressif: seven bytes are announced, five of them are received. Two are left, but the driver asks for eight: the
number of announced bytes has become 2 - 5 modulo the size of the numbers. -/
theorem C57_espressif_wrap :
    let d := exec (Espressif.step Sess.arm) Sess.espressif
      (less (Sess.upEsp .tcp) (Sess.talk b!"+CIPRECVDATA,5:helloOK\r\n"))
    linesWith b!"+IPD" d.trace = [b!"+IPD,5\r\n", b!"+IPD,2\r\n"] ∧ .apiRead b!"hello" ∈ d.trace ∧
    d.bytesToReceive = 18446744073709551613 ∧
    (utter d.trace).drop 7 = [b!"AT+CIPRECVDATA=5\r\n", b!"AT+CIPRECVDATA=8\r\n"] := by decide +kernel

/-- C57, CC1352P7: seven bytes are announced, five of them are received. Two are left, but the driver asks for three, because
there is no more space at the moment. -/
theorem C57_cc1352p7_wrap :
    let d := exec (CC1352P7.step Sess.arm) Sess.cc1352p7
      (less (Sess.upCC .tcp) (Sess.talk b!"+CIPRECVDATA:5,\nhello" ++ [.run true] ++ Sess.talk b!"OK\r\n"))
    linesWith b!"+IPD" d.trace = [b!"+IPD,5\r\n", b!"+IPD,2\r\n"] ∧ .apiRead b!"hello" ∈ d.trace ∧
    d.bytesToReceive = 18446744073709551613 ∧
    (utter d.trace).drop 2 = [b!"AT+CIPRECVDATA=5\r\n", b!"AT+CIPRECVDATA=3\r\n"] := by decide +kernel

/-- C69, Espressif: an answer of 32767 is the mark for "asked and not answered". The driver asks again after every answer. -/
theorem C69_espressif_mark :
    let answer := Sess.talk b!"+CWJAP:\"a\",\"c8:3a:35:00:11:22\",11,32767,0\r\n" ++ Sess.talk b!"\r\n" ++ Sess.talk b!"OK\r\n"
    let d := exec (Espressif.step Sess.arm) Sess.espressif ([.run true, .requestRSSI, .run true] ++ answer ++ answer ++ answer)
    d.getRSSI = 32767 ∧ utter d.trace = List.replicate 4 b!"AT+CWJAP?\r\n" := by decide +kernel

end Verif.Props.Locked
