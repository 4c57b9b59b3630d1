import Verif.Lemmas.MacQuery
import Verif.Lemmas.Broken
import Verif.Spec.Sessions

/-!
# C54: the MAC address query depends on the signedness of `char`

`requestMac()` marks a request by storing 0xFF in a `char`; `run()` compares this `char` with the integer 0xFF.
-/

namespace Verif.Props.MacQuery

open Verif Dev Spec

/-! ## Espressif -/

/-- Where `char` is signed, no history contains the query: all calls, all received bytes, all times. -/
theorem C54_espressif_signed (p : Platform) (hp : p.charSigned = true) (rx tx : List Byte) (sched : List (List Hw))
    (rmem wmem : List Byte) (t : ConnType) (line mac : List Byte) (ssid passwd : CPtr) (hl : line.length = 61) (ops : List Op)
    (g : List Byte) :
    .cmd b!"AT+CIPSTAMAC?" g ∉ (exec (Espressif.step p) (Espressif.init (Ser.init rx tx sched) rmem wmem t line mac ssid passwd) ops).trace :=
  Espressif.exec_stages (Espressif.never_sections hp) (never_calls _) (Espressif.never_own _)
    (Espressif.inv_init rx tx sched rmem wmem t mac ssid passwd hl) (by intro g; simp [Espressif.init, Espressif.resetStates]) ops g

/-- Where `char` is unsigned, the next `run()` of a driver that may send a command sends the query, unless it
handles a line from the modem first. -/
theorem C54_espressif_unsigned (p : Platform) (hp : p.charSigned = false) (d : Espressif.D) (hl : LineOk d)
    (hm : 2 ≤ d.ext.mac.cells.length) (ho : d.isOpen = true) (hr : d.resetPending = false)
    (hw : d.wait = none) (hq : d.rep = .okReply) (hlr : d.lineRead = true) (hi : d.rssi ≠ int16Max)
    (hs : 20 ≤ d.ser.txFree) (hsn : d.snd ≠ .receiving) (ok : Bool) :
    ∃ new, (Espressif.step p (Espressif.step p d .requestMac) (.run ok)).trace = d.trace ++ new ∧
      ((∃ l more, new = .line l :: more) ∨ new = [.cmd b!"AT+CIPSTAMAC?" b!"AT+CIPSTAMAC?", .arg b!"\r\n" b!"\r\n"]) :=
  Espressif.mac_sent p hp d hl hm ho hr hw hq hlr hi hs hsn ok

/-- The driver is created, the port is opened, the address is asked for and the modem answers. Where `char` is
unsigned, the application gets the address; where it is signed, it does not. -/
example :
    let ops := [Op.run true, .requestMac, .run true] ++ Sess.talk b!"+CIPSTAMAC:\"5c:cf:7f:00:00:01\"\r\n" ++
      Sess.talk b!"OK\r\n"
    let d := exec (Espressif.step { Sess.arm with charSigned := false }) Sess.espressif ops
    let e := exec (Espressif.step { Sess.arm with charSigned := true }) Sess.espressif ops
    Espressif.getMacString d = some b!"5c:cf:7f:00:00:01" ∧ Espressif.getMacString e = none ∧
    d.trace.filter isCmd = [.cmd b!"AT+CIPSTAMAC?" b!"AT+CIPSTAMAC?"] ∧ e.trace.filter isCmd = [] := by
  decide +kernel

/-- The hypotheses of the positive statement hold after the port was opened. -/
example :
    let d := exec (Espressif.step Sess.arm) Sess.espressif [.run true]
    d.isOpen = true ∧ d.resetPending = false ∧ d.wait = none ∧ d.rep = .okReply ∧ d.lineRead = true ∧
    d.rssi ≠ int16Max ∧ 20 ≤ d.ser.txFree ∧ d.snd ≠ .receiving ∧ 2 ≤ d.ext.mac.cells.length ∧
    d.line.cells.length = lineMax + 1 := by
  decide +kernel

/-! ## CC1352P7 -/

/-- Where `char` is signed, no history contains the query: all calls, all received bytes, all times. -/
theorem C54_cc1352p7_signed (p : Platform) (hp : p.charSigned = true) (rx tx : List Byte) (sched : List (List Hw))
    (rmem wmem : List Byte) (t : ConnType) (line mac : List Byte) (hl : line.length = 61) (ops : List Op)
    (g : List Byte) :
    .cmd b!"AT+CIPSTAMAC" g ∉ (exec (CC1352P7.step p) (CC1352P7.init (Ser.init rx tx sched) rmem wmem t line mac) ops).trace :=
  CC1352P7.exec_stages (CC1352P7.never_sections hp) (never_calls _) (CC1352P7.never_own _)
    (CC1352P7.inv_init rx tx sched rmem wmem t mac hl) (by intro g; simp [CC1352P7.init, CC1352P7.resetStates]) ops g

/-- Where `char` is unsigned, the next `run()` of a driver that may send a command sends the query, unless it
handles a line from the modem first. -/
theorem C54_cc1352p7_unsigned (p : Platform) (hp : p.charSigned = false) (d : CC1352P7.D) (hl : LineOk d)
    (hm : 2 ≤ d.ext.mac.cells.length) (ho : d.isOpen = true) (hr : d.resetPending = false)
    (hw : d.wait = none) (hq : d.rep = .okReply) (hlr : d.lineRead = true) (hi : d.rssi ≠ int16Max)
    (hs : 20 ≤ d.ser.txFree) (hsn : d.snd ≠ .receiving) (ok : Bool) :
    ∃ new, (CC1352P7.step p (CC1352P7.step p d .requestMac) (.run ok)).trace = d.trace ++ new ∧
      ((∃ l more, new = .line l :: more) ∨ new = [.cmd b!"AT+CIPSTAMAC" b!"AT+CIPSTAMAC", .arg b!"\r\n" b!"\r\n"]) :=
  CC1352P7.mac_sent p hp d hl hm ho hr hw hq hlr hi hs hsn ok

/-- The driver is created, the port is opened, the address is asked for and the modem answers. Where `char` is
unsigned, the application gets the address; where it is signed, it does not. -/
example :
    let ops := [Op.run true, .requestMac, .run true] ++ Sess.talk b!"+CIPSTAMAC:\"5c:cf:7f:00:00:01\"\r\n" ++
      Sess.talk b!"OK\r\n"
    let d := exec (CC1352P7.step { Sess.arm with charSigned := false }) Sess.cc1352p7 ops
    let e := exec (CC1352P7.step { Sess.arm with charSigned := true }) Sess.cc1352p7 ops
    CC1352P7.getMacString d = some b!"5c:cf:7f:00:00:01" ∧ CC1352P7.getMacString e = none ∧
    d.trace.filter isCmd = [.cmd b!"AT+CIPSTAMAC" b!"AT+CIPSTAMAC"] ∧ e.trace.filter isCmd = [] := by
  decide +kernel

/-- The hypotheses of the positive statement hold after the port was opened. -/
example :
    let d := exec (CC1352P7.step Sess.arm) Sess.cc1352p7 [.run true]
    d.isOpen = true ∧ d.resetPending = false ∧ d.wait = none ∧ d.rep = .okReply ∧ d.lineRead = true ∧
    d.rssi ≠ int16Max ∧ 20 ≤ d.ser.txFree ∧ d.snd ≠ .receiving ∧ 2 ≤ d.ext.mac.cells.length ∧
    d.line.cells.length = lineMax + 1 := by
  decide +kernel

end Verif.Props.MacQuery
