import Verif.Lemmas.EndedSince
import Verif.Lemmas.EndedSim7x00
import Verif.Lemmas.EndedSim800
import Verif.Lemmas.EndedEspressif
import Verif.Lemmas.EndedCC1352P7
import Verif.Spec.Sessions

/-!
# C80: a driver is idle only after the modem reported the end of the connection

`Signs.phase` (`Spec/Ended.lean`) follows the trace of a history: the command that opens a connection, commands that close
it or restart the modem, and the lines by which the modem reports that the connection has come to an end.
-/

namespace Verif.Props.Ended

open Verif.Spec

/-! ## SIM7x00 -/

/-- **C80**, SIM7x00: the driver is idle only if no connection was opened since the modem last reported an end (`+IPCLOSE: 0,`; `+NETCLOSE: 0` after `AT+NETCLOSE`; `RDY` after `AT+CRESET`) or
since `resetStates()`. -/
theorem C80_sim7x00_idle (p : Platform) (rx tx : List Byte) (sched : List (List Hw))
    (rmem wmem : List Byte) (t : ConnType) (line ip id : List Byte) (hl : line.length = 61)
    (ops : List Op) :
    let d := exec (Sim7x00.step p) (Sim7x00.init (Ser.init rx tx sched) rmem wmem t line ip id) ops
    d.isIdle = true → signs7x00.phase.after d.trace = .shut := by
  intro d hi
  have h : Sim7x00.Ended d := Sim7x00.exec_stages (Sim7x00.ended_sections p) Sim7x00.ended_calls Sim7x00.ended_own
    (Sim7x00.inv_init rx tx sched rmem wmem t ip id hl)
    ⟨by simp [Sim7x00.init, SimDev.init, SimDev.resetStates, Sim7x00.began, Sim7x00.Snd.idx], Or.inl rfl⟩ ops
  rcases h.ended with h | h
  · exact h
  · exact absurd (by simpa [Dev.isIdle] using hi) h.cs

/-- **C80**, SIM7x00: once the command that opens a connection was sent the driver is not idle, as long as no line begins
with one of these texts and `resetStates()` is not called. -/
theorem C80_sim7x00_since (p : Platform) (rx tx : List Byte) (sched : List (List Hw))
    (rmem wmem : List Byte) (t : ConnType) (line ip id : List Byte) (hl : line.length = 61)
    (ops : List Op) (before after : List Ev) (g : List Byte) :
    let d := exec (Sim7x00.step p) (Sim7x00.init (Ser.init rx tx sched) rmem wmem t line ip id) ops
    d.trace = before ++ .cmd signs7x00.opens g :: after → Ev.apiReset ∉ after →
    (∀ l, Ev.line l ∈ after → beginsAny (signs7x00.always ++ signs7x00.closed ++ signs7x00.restarted) l = false) →
    d.isIdle = false := by
  intro d ht hr hn
  have h := C80_sim7x00_idle p rx tx sched rmem wmem t line ip id hl ops
  cases hi : d.isIdle with
  | false => rfl
  | true => exact absurd (h hi) (phase_since ht hr hn)

/-- A connection is opened and closed. -/
example :
    let d := exec (Sim7x00.step Sess.arm) Sess.sim7x00 (Sess.up7x00 .tcp)
    let e := exec (Sim7x00.step Sess.arm) d ([.disconnect, .run true, .run true] ++ Sess.talk b!"+NETCLOSE: 0\r\n" ++ [.run true])
    signs7x00.phase.after d.trace = .opened ∧ d.isIdle = false ∧ signs7x00.phase.after e.trace = .shut ∧ e.isIdle = true := by
  decide +kernel

/-- **C80**, SIM7x00: the line `+IPCLOSE: 0,` while the driver waits for the confirmation of `AT+NETCLOSE` makes it idle, the
confirmation has not come yet. -/
theorem C80_sim7x00_unconfirmed :
    let d := exec (Sim7x00.step Sess.arm) Sess.sim7x00 (Sess.up7x00 .tcp ++ [.disconnect, .run true, .run true])
    let e := exec (Sim7x00.step Sess.arm) d (Sess.talk b!"+IPCLOSE: 0,1\r\n" ++ [.run true])
    d.isIdle = false ∧ d.wait = some b!"+NETCLOSE: 0" ∧ e.isIdle = true ∧
    e.trace.all (fun v => match v with | .line l => !begins b!"+NETCLOSE: 0" l | _ => true) = true := by
  decide +kernel

/-! ## SIM800 -/

/-- **C80**, SIM800: the driver is idle only if no connection was opened since the modem last reported an end (`0, CLOSED`; `SHUT OK` or an error after `AT+CIPSHUT`) or
since `resetStates()` in a history in which the serial device can be opened. -/
theorem C80_sim800_idle (p : Platform) (rx tx : List Byte) (sched : List (List Hw))
    (rmem wmem : List Byte) (t : ConnType) (line ip id : List Byte) (hl : line.length = 61)
    (ops : List Op)
    (hf : Op.run false ∉ ops) :
    let d := exec (Sim800.step p) (Sim800.init (Ser.init rx tx sched) rmem wmem t line ip id) ops
    d.isIdle = true → signs800.phase.after d.trace = .shut := by
  intro d hi
  have h : Sim800.Ended d := Sim800.exec_core (Sim800.ended_core p) Sim800.ended_calls Sim800.ended_own
    (Sim800.inv_init rx tx sched rmem wmem t ip id hl)
    ⟨by simp [Sim800.init, SimDev.init, SimDev.resetStates, Sim800.began, Sim800.Snd.idx], Or.inl rfl⟩ ops hf
  rcases h.ended with h | h
  · exact h
  · exact absurd (by simpa [Dev.isIdle] using hi) h.cs

/-- **C80**, SIM800: once the command that opens a connection was sent the driver is not idle in a history in which the serial device can be opened, as long as no line begins
with one of these texts and `resetStates()` is not called. -/
theorem C80_sim800_since (p : Platform) (rx tx : List Byte) (sched : List (List Hw))
    (rmem wmem : List Byte) (t : ConnType) (line ip id : List Byte) (hl : line.length = 61)
    (ops : List Op)
    (hf : Op.run false ∉ ops) (before after : List Ev) (g : List Byte) :
    let d := exec (Sim800.step p) (Sim800.init (Ser.init rx tx sched) rmem wmem t line ip id) ops
    d.trace = before ++ .cmd signs800.opens g :: after → Ev.apiReset ∉ after →
    (∀ l, Ev.line l ∈ after → beginsAny (signs800.always ++ signs800.closed ++ signs800.restarted) l = false) →
    d.isIdle = false := by
  intro d ht hr hn
  have h := C80_sim800_idle p rx tx sched rmem wmem t line ip id hl ops hf
  cases hi : d.isIdle with
  | false => rfl
  | true => exact absurd (h hi) (phase_since ht hr hn)

/-- A connection is opened and closed. -/
example :
    let d := exec (Sim800.step Sess.arm) Sess.sim800 (Sess.up800 .tcp)
    let e := exec (Sim800.step Sess.arm) d ([.disconnect, .run true, .run true] ++ Sess.talk b!"0, CLOSE OK\r\n" ++ Sess.talk b!"SHUT OK\r\n" ++ [.run true])
    signs800.phase.after d.trace = .opened ∧ d.isIdle = false ∧ signs800.phase.after e.trace = .shut ∧ e.isIdle = true := by
  decide +kernel

/-- **C80**, SIM800: if opening the serial device fails once while a connection is open, the next error makes the driver
idle for a moment, it then connects anew; the modem has not been told to close the connection. -/
theorem C80_sim800_forgotten :
    let d := exec (Sim800.step Sess.arm) Sess.sim800 (Sess.up800 .tcp ++ ([.closePort, .run false, .run true] : List Op) ++
      Sess.say b!"ERROR\r\n" ++ [.run true, .run true])
    signs800.phase.after d.trace = .opened ∧ d.isIdle = true := by
  decide +kernel

/-! ## Espressif -/

/-- **C80**, Espressif: the driver is idle only if no connection was opened since the modem last reported an end (`WIFI DISCONNECT`; `ready` after `AT+RST`) or
since `resetStates()`. -/
theorem C80_espressif_idle (p : Platform) (rx tx : List Byte) (sched : List (List Hw))
    (rmem wmem : List Byte) (t : ConnType) (line mac : List Byte)
    (ssid passwd : CPtr) (hl : line.length = 61)
    (ops : List Op) :
    let d := exec (Espressif.step p) (Espressif.init (Ser.init rx tx sched) rmem wmem t line mac ssid passwd) ops
    d.isIdle = true → signsEsp.phase.after d.trace = .shut := by
  intro d hi
  have h : Espressif.Ended d := Espressif.exec_stages (Espressif.ended_sections p) Espressif.ended_calls Espressif.ended_own
    (Espressif.inv_init rx tx sched rmem wmem t mac ssid passwd hl)
    ⟨by simp [Espressif.init, Espressif.resetStates, Espressif.began, Espressif.Snd.idx], Or.inl rfl⟩ ops
  rcases h.ended with h | h
  · exact h
  · exact absurd (by simpa [Dev.isIdle] using hi) h.cs

/-- **C80**, Espressif: once the command that opens a connection was sent the driver is not idle, as long as no line begins
with one of these texts and `resetStates()` is not called. -/
theorem C80_espressif_since (p : Platform) (rx tx : List Byte) (sched : List (List Hw))
    (rmem wmem : List Byte) (t : ConnType) (line mac : List Byte)
    (ssid passwd : CPtr) (hl : line.length = 61)
    (ops : List Op) (before after : List Ev) (g : List Byte) :
    let d := exec (Espressif.step p) (Espressif.init (Ser.init rx tx sched) rmem wmem t line mac ssid passwd) ops
    d.trace = before ++ .cmd signsEsp.opens g :: after → Ev.apiReset ∉ after →
    (∀ l, Ev.line l ∈ after → beginsAny (signsEsp.always ++ signsEsp.closed ++ signsEsp.restarted) l = false) →
    d.isIdle = false := by
  intro d ht hr hn
  have h := C80_espressif_idle p rx tx sched rmem wmem t line mac ssid passwd hl ops
  cases hi : d.isIdle with
  | false => rfl
  | true => exact absurd (h hi) (phase_since ht hr hn)

/-- A connection is opened and closed. -/
example :
    let d := exec (Espressif.step Sess.arm) Sess.espressif (Sess.upEsp .tcp)
    let e := exec (Espressif.step Sess.arm) d ([.disconnect, .run true, .run true] ++ Sess.talk b!"OK\r\n" ++ Sess.talk b!"WIFI DISCONNECT\r\n" ++ [.run true])
    signsEsp.phase.after d.trace = .opened ∧ d.isIdle = false ∧ signsEsp.phase.after e.trace = .shut ∧ e.isIdle = true := by
  decide +kernel

/-! ## CC1352P7 -/

/-- **C80**, CC1352P7: the driver is idle only if no connection was opened since the modem last reported an end (`CLOSED`; `OK` after `AT+CIPCLOSE`) or
since `resetStates()`. -/
theorem C80_cc1352p7_idle (p : Platform) (rx tx : List Byte) (sched : List (List Hw))
    (rmem wmem : List Byte) (t : ConnType) (line mac : List Byte) (hl : line.length = 61)
    (ops : List Op) :
    let d := exec (CC1352P7.step p) (CC1352P7.init (Ser.init rx tx sched) rmem wmem t line mac) ops
    d.isIdle = true → signsCC.phase.after d.trace = .shut := by
  intro d hi
  have h : CC1352P7.Ended d := CC1352P7.exec_stages (CC1352P7.ended_sections p) CC1352P7.ended_calls CC1352P7.ended_own
    (CC1352P7.inv_init rx tx sched rmem wmem t mac hl)
    ⟨by simp [CC1352P7.init, CC1352P7.resetStates, CC1352P7.began, CC1352P7.Snd.idx], Or.inl rfl⟩ ops
  rcases h.ended with h | h
  · exact h
  · exact absurd (by simpa [Dev.isIdle] using hi) h.cs

/-- **C80**, CC1352P7: once the command that opens a connection was sent the driver is not idle, as long as no line begins
with one of these texts and `resetStates()` is not called. -/
theorem C80_cc1352p7_since (p : Platform) (rx tx : List Byte) (sched : List (List Hw))
    (rmem wmem : List Byte) (t : ConnType) (line mac : List Byte) (hl : line.length = 61)
    (ops : List Op) (before after : List Ev) (g : List Byte) :
    let d := exec (CC1352P7.step p) (CC1352P7.init (Ser.init rx tx sched) rmem wmem t line mac) ops
    d.trace = before ++ .cmd signsCC.opens g :: after → Ev.apiReset ∉ after →
    (∀ l, Ev.line l ∈ after → beginsAny (signsCC.always ++ signsCC.closed ++ signsCC.restarted) l = false) →
    d.isIdle = false := by
  intro d ht hr hn
  have h := C80_cc1352p7_idle p rx tx sched rmem wmem t line mac hl ops
  cases hi : d.isIdle with
  | false => rfl
  | true => exact absurd (h hi) (phase_since ht hr hn)

/-- A connection is opened and closed. -/
example :
    let d := exec (CC1352P7.step Sess.arm) Sess.cc1352p7 (Sess.upCC .tcp)
    let e := exec (CC1352P7.step Sess.arm) d ([.disconnect, .run true, .run true] ++ Sess.talk b!"OK\r\n" ++ [.run true])
    signsCC.phase.after d.trace = .opened ∧ d.isIdle = false ∧ signsCC.phase.after e.trace = .shut ∧ e.isIdle = true := by
  decide +kernel

/-- **C80**, CC1352P7: an error in answer to `AT+CIPCLOSE` makes the driver send the command again, every time. -/
theorem C80_cc1352p7_again :
    let again : List Op := Sess.talk b!"ERROR\r\n" ++ [.run true]
    let d := exec (CC1352P7.step Sess.arm) Sess.cc1352p7 (Sess.upCC .tcp ++ [.disconnect, .run true, .run true])
    let e := exec (CC1352P7.step Sess.arm) d (again ++ again ++ again)
    (openings b!"AT+CIPCLOSE" d.trace, openings b!"AT+CIPCLOSE" e.trace, e.isIdle) = (1, 4, false) := by
  decide +kernel

end Verif.Props.Ended
