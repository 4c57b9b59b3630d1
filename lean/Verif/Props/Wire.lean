import Verif.Lemmas.PayFits
import Verif.Spec.Sessions

/-!
# C64: the bytes on the serial line

For every history of a driver from its constructor: arbitrary calls of the application, arbitrary bytes from the modem
at arbitrary times, arbitrary sizes of all buffers. The bytes that leave the serial port are the commands, the
payload, and what the application wrote to the port itself, in this order; nothing is lost, repeated or inserted.
`sendData()` does not check for space in the transmit buffer, so this needs that payload fits when it is sent.
-/

namespace Verif.Props.Wire

open Verif Dev Spec

/-- Sim7x00: what left the serial port, followed by what is in the transmit buffer, is what the driver and the application
handed to the serial device, if payload is handed over only when there is space for it. -/
theorem C64_sim7x00 (p : Platform) (rx tx : List Byte) (sched : List (List Hw))
    (rmem wmem : List Byte) (t : ConnType) (line ip id : List Byte) (ops : List Op)
    (hf : Stepwise (Sim7x00.step p) PayFits (Sim7x00.init (Ser.init rx tx sched) rmem wmem t line ip id) ops) :
    Carries (exec (Sim7x00.step p) (Sim7x00.init (Ser.init rx tx sched) rmem wmem t line ip id) ops) :=
  (exec_carried (Sim7x00.out_step p) ((Out.event .apiReset rfl (Ser.puts_flush _ _)).carried
    (d := { (Sim7x00.init (Ser.init rx tx sched) rmem wmem t line ip id) with ser := Ser.init rx tx sched, trace := [] }) (Or.inl rfl) ⟨[], ⟨LineBuf.rep_init _, rfl⟩, rfl⟩) ops hf).carries

/-- Sim7x00: the same, if the modem asks for payload only when it has got everything that was sent before. -/
theorem C64_sim7x00_drained (p : Platform) (rx tx : List Byte) (sched : List (List Hw))
    (rmem wmem : List Byte) (t : ConnType) (line ip id : List Byte) (hl : line.length = 61) (ops : List Op)
    (hf : Stepwise (Sim7x00.step p) PayWhenDrained (Sim7x00.init (Ser.init rx tx sched) rmem wmem t line ip id) ops) :
    Carries (exec (Sim7x00.step p) (Sim7x00.init (Ser.init rx tx sched) rmem wmem t line ip id) ops) := by
  refine C64_sim7x00 p rx tx sched rmem wmem t line ip id ops fun pre op post e => ?_
  refine Sim7x00.fits_step p ?_ (hf pre op post e)
  have h : Sim7x00.LeI (exec (Sim7x00.step p) (Sim7x00.init (Ser.init rx tx sched) rmem wmem t line ip id) (pre ++ [op])) :=
    Sim7x00.exec_stages (Sim7x00.leI_sections p) leInv_calls Sim7x00.leI_own (Sim7x00.inv_init rx tx sched rmem wmem t ip id hl)
      ⟨by simp [Sim7x00.init, SimDev.init, SimDev.resetStates], by simp [Sim7x00.init, SimDev.init, SimDev.resetStates]⟩ _
  simpa [exec] using h

/-- Sim800: what left the serial port, followed by what is in the transmit buffer, is what the driver and the application
handed to the serial device, if payload is handed over only when there is space for it. -/
theorem C64_sim800 (p : Platform) (rx tx : List Byte) (sched : List (List Hw))
    (rmem wmem : List Byte) (t : ConnType) (line ip id : List Byte) (ops : List Op)
    (hf : Stepwise (Sim800.step p) PayFits (Sim800.init (Ser.init rx tx sched) rmem wmem t line ip id) ops) :
    Carries (exec (Sim800.step p) (Sim800.init (Ser.init rx tx sched) rmem wmem t line ip id) ops) :=
  (exec_carried (Sim800.out_step p) ((Out.event .apiReset rfl (Ser.puts_flush _ _)).carried
    (d := { (Sim800.init (Ser.init rx tx sched) rmem wmem t line ip id) with ser := Ser.init rx tx sched, trace := [] }) (Or.inl rfl) ⟨[], ⟨LineBuf.rep_init _, rfl⟩, rfl⟩) ops hf).carries

/-- Sim800: the same, if the modem asks for payload only when it has got everything that was sent before. -/
theorem C64_sim800_drained (p : Platform) (rx tx : List Byte) (sched : List (List Hw))
    (rmem wmem : List Byte) (t : ConnType) (line ip id : List Byte) (hl : line.length = 61) (ops : List Op)
    (hf : Stepwise (Sim800.step p) PayWhenDrained (Sim800.init (Ser.init rx tx sched) rmem wmem t line ip id) ops) :
    Carries (exec (Sim800.step p) (Sim800.init (Ser.init rx tx sched) rmem wmem t line ip id) ops) := by
  refine C64_sim800 p rx tx sched rmem wmem t line ip id ops fun pre op post e => ?_
  refine Sim800.fits_step p ?_ (hf pre op post e)
  have h : Sim800.LeI (exec (Sim800.step p) (Sim800.init (Ser.init rx tx sched) rmem wmem t line ip id) (pre ++ [op])) :=
    Sim800.exec_stages (Sim800.leI_sections p) leInv_calls Sim800.leI_own (Sim800.inv_init rx tx sched rmem wmem t ip id hl)
      ⟨by simp [Sim800.init, SimDev.init, SimDev.resetStates], by simp [Sim800.init, SimDev.init, SimDev.resetStates]⟩ _
  simpa [exec] using h

/-- Espressif: what left the serial port, followed by what is in the transmit buffer, is what the driver and the application
handed to the serial device, if payload is handed over only when there is space for it. -/
theorem C64_espressif (p : Platform) (rx tx : List Byte) (sched : List (List Hw))
    (rmem wmem : List Byte) (t : ConnType) (line mac : List Byte) (ssid passwd : CPtr) (ops : List Op)
    (hf : Stepwise (Espressif.step p) PayFits (Espressif.init (Ser.init rx tx sched) rmem wmem t line mac ssid passwd) ops) :
    Carries (exec (Espressif.step p) (Espressif.init (Ser.init rx tx sched) rmem wmem t line mac ssid passwd) ops) :=
  (exec_carried (Espressif.out_step p) ((Out.event .apiReset rfl (Ser.puts_flush _ _)).carried
    (d := { (Espressif.init (Ser.init rx tx sched) rmem wmem t line mac ssid passwd) with ser := Ser.init rx tx sched, trace := [] }) (Or.inl rfl) ⟨[], ⟨LineBuf.rep_init _, rfl⟩, rfl⟩) ops hf).carries

/-- Espressif: the same, if the modem asks for payload only when it has got everything that was sent before. -/
theorem C64_espressif_drained (p : Platform) (rx tx : List Byte) (sched : List (List Hw))
    (rmem wmem : List Byte) (t : ConnType) (line mac : List Byte) (ssid passwd : CPtr) (hl : line.length = 61) (ops : List Op)
    (hf : Stepwise (Espressif.step p) PayWhenDrained (Espressif.init (Ser.init rx tx sched) rmem wmem t line mac ssid passwd) ops) :
    Carries (exec (Espressif.step p) (Espressif.init (Ser.init rx tx sched) rmem wmem t line mac ssid passwd) ops) := by
  refine C64_espressif p rx tx sched rmem wmem t line mac ssid passwd ops fun pre op post e => ?_
  refine Espressif.fits_step p ?_ (hf pre op post e)
  have h : Espressif.LeI (exec (Espressif.step p) (Espressif.init (Ser.init rx tx sched) rmem wmem t line mac ssid passwd) (pre ++ [op])) :=
    Espressif.exec_stages (Espressif.leI_sections p) leInv_calls Espressif.leI_own (Espressif.inv_init rx tx sched rmem wmem t mac ssid passwd hl)
      ⟨by simp [Espressif.init, Espressif.resetStates], by simp [Espressif.init, Espressif.resetStates]⟩ _
  simpa [exec] using h

/-- CC1352P7: what left the serial port, followed by what is in the transmit buffer, is what the driver and the application
handed to the serial device, if payload is handed over only when there is space for it. -/
theorem C64_cc1352p7 (p : Platform) (rx tx : List Byte) (sched : List (List Hw))
    (rmem wmem : List Byte) (t : ConnType) (line mac : List Byte) (ops : List Op)
    (hf : Stepwise (CC1352P7.step p) PayFits (CC1352P7.init (Ser.init rx tx sched) rmem wmem t line mac) ops) :
    Carries (exec (CC1352P7.step p) (CC1352P7.init (Ser.init rx tx sched) rmem wmem t line mac) ops) :=
  (exec_carried (CC1352P7.out_step p) ((Out.event .apiReset rfl (Ser.puts_flush _ _)).carried
    (d := { (CC1352P7.init (Ser.init rx tx sched) rmem wmem t line mac) with ser := Ser.init rx tx sched, trace := [] }) (Or.inl rfl) ⟨[], ⟨LineBuf.rep_init _, rfl⟩, rfl⟩) ops hf).carries

/-- CC1352P7: the same, if the modem asks for payload only when it has got everything that was sent before. -/
theorem C64_cc1352p7_drained (p : Platform) (rx tx : List Byte) (sched : List (List Hw))
    (rmem wmem : List Byte) (t : ConnType) (line mac : List Byte) (hl : line.length = 61) (ops : List Op)
    (hf : Stepwise (CC1352P7.step p) PayWhenDrained (CC1352P7.init (Ser.init rx tx sched) rmem wmem t line mac) ops) :
    Carries (exec (CC1352P7.step p) (CC1352P7.init (Ser.init rx tx sched) rmem wmem t line mac) ops) := by
  refine C64_cc1352p7 p rx tx sched rmem wmem t line mac ops fun pre op post e => ?_
  refine CC1352P7.fits_step p ?_ (hf pre op post e)
  have h : CC1352P7.LeI (exec (CC1352P7.step p) (CC1352P7.init (Ser.init rx tx sched) rmem wmem t line mac) (pre ++ [op])) :=
    CC1352P7.exec_stages (CC1352P7.leI_sections p) leInv_calls CC1352P7.leI_own (CC1352P7.inv_init rx tx sched rmem wmem t mac hl)
      ⟨by simp [CC1352P7.init, CC1352P7.resetStates], by simp [CC1352P7.init, CC1352P7.resetStates]⟩ _
  simpa [exec] using h

/-! ### Concrete histories -/

/-- Serial device with a transmit buffer of 80 bytes. -/
def ser : Ser := Ser.init (List.replicate 80 0) (List.replicate 80 0) []

def drv7x00 : Sim7x00.D :=
  Sim7x00.init ser (List.replicate 8 0) (List.replicate 64 0) .tcp (List.replicate 61 0)
    (List.replicate 16 0) (List.replicate 24 0)

def drv800 : Sim800.D :=
  Sim800.init ser (List.replicate 8 0) (List.replicate 64 0) .tcp (List.replicate 61 0)
    (List.replicate 16 0) (List.replicate 24 0)

def drvEsp : Espressif.D :=
  Espressif.init ser (List.replicate 8 0) (List.replicate 64 0) .tcp (List.replicate 61 0)
    (List.replicate 18 0) .uninit .uninit

def drvCC : CC1352P7.D :=
  CC1352P7.init ser (List.replicate 8 0) (List.replicate 64 0) .tcp (List.replicate 61 0)
    (List.replicate 24 0)

/-- Sixty bytes of the application. -/
def bytes60 : List Byte := (List.range 60).map fun i => UInt8.ofNat (i + 1)

/-- The application writes, the driver gives the send command, the modem asks for the payload, and everything leaves. -/
def orderly (up : List Op) : List Op :=
  up ++ [.write bytes60, .run true] ++ Sess.talk b!">" ++ [.run true] ++ Sess.say []

/-- Bytes from the modem; nothing leaves the transmit buffer. -/
def early (l : List Byte) : List Op := [.irq (l.map fun c => ⟨some c, false⟩), .run true, .run true, .run true]

/-- The prompt comes, and a status request is answered, before anything has left the transmit buffer. -/
def hasty (up : List Op) (csq : List Byte) : List Op :=
  up ++ Sess.say [] ++ [.write bytes60, .run true, .requestRSSI] ++ early b!">" ++ early csq ++ Sess.say []

/-- The hypothesis of `C64_sim7x00_drained` is met, and payload has left the port. -/
example : Stepwise (Sim7x00.step Sess.arm) PayWhenDrained drv7x00 (orderly (Sess.up7x00 .tcp)) ∧
    (bytes60.take 58) <:+ (exec (Sim7x00.step Sess.arm) drv7x00 (orderly (Sess.up7x00 .tcp))).ser.wire :=
  ⟨stepwise_of (by decide +kernel), by decide +kernel⟩

/-- Sim7x00: without the hypothesis the payload overwrites what is in the transmit buffer. -/
theorem C64_sim7x00_overrun : ∃ ops, ¬ Carries (exec (Sim7x00.step Sess.arm) drv7x00 ops) :=
  ⟨hasty (Sess.up7x00 .tcp) b!"+CSQ: 5\r\nOK\r\n", by unfold Carries; decide +kernel⟩

/-- The hypothesis of `C64_sim800_drained` is met, and payload has left the port. -/
example : Stepwise (Sim800.step Sess.arm) PayWhenDrained drv800 (orderly (Sess.up800 .tcp)) ∧
    (bytes60.take 58) <:+ (exec (Sim800.step Sess.arm) drv800 (orderly (Sess.up800 .tcp))).ser.wire :=
  ⟨stepwise_of (by decide +kernel), by decide +kernel⟩

/-- Sim800: without the hypothesis the payload overwrites what is in the transmit buffer. -/
theorem C64_sim800_overrun : ∃ ops, ¬ Carries (exec (Sim800.step Sess.arm) drv800 ops) :=
  ⟨hasty (Sess.up800 .tcp) b!"+CSQ: 5\r\nOK\r\n", by unfold Carries; decide +kernel⟩

/-- The hypothesis of `C64_espressif_drained` is met, and payload has left the port. -/
example : Stepwise (Espressif.step Sess.arm) PayWhenDrained drvEsp (orderly (Sess.upEsp .tcp)) ∧
    (bytes60.take 58) <:+ (exec (Espressif.step Sess.arm) drvEsp (orderly (Sess.upEsp .tcp))).ser.wire :=
  ⟨stepwise_of (by decide +kernel), by decide +kernel⟩

/-- Espressif: without the hypothesis the payload overwrites what is in the transmit buffer. -/
theorem C64_espressif_overrun : ∃ ops, ¬ Carries (exec (Espressif.step Sess.arm) drvEsp ops) :=
  ⟨hasty (Sess.upEsp .tcp) b!"+CWJAP:\"s\",\"x\",1,-50\r\nOK\r\n", by unfold Carries; decide +kernel⟩

/-- The hypothesis of `C64_cc1352p7_drained` is met, and payload has left the port. -/
example : Stepwise (CC1352P7.step Sess.arm) PayWhenDrained drvCC (orderly (Sess.upCC .tcp)) ∧
    (bytes60.take 58) <:+ (exec (CC1352P7.step Sess.arm) drvCC (orderly (Sess.upCC .tcp))).ser.wire :=
  ⟨stepwise_of (by decide +kernel), by decide +kernel⟩

/-- CC1352P7: without the hypothesis the payload overwrites what is in the transmit buffer. -/
theorem C64_cc1352p7_overrun : ∃ ops, ¬ Carries (exec (CC1352P7.step Sess.arm) drvCC ops) :=
  ⟨hasty (Sess.upCC .tcp) b!"+CSQ: 5\r\nOK\r\n", by unfold Carries; decide +kernel⟩

end Verif.Props.Wire
