import Verif.Lemmas.Confirmed800
import Verif.Lemmas.ConfirmedCC
import Verif.Lemmas.ConfirmedEsp
import Verif.Spec.Sessions

/-!
# C99: `writeBufferProcessed()` waits for the confirmation of the modem
-/

namespace Verif.Props.Confirmed

open Verif Dev Spec

/-- C99, SIM7x00: in all histories, while a block of payload was sent and the modem has not answered `OK` or `ERROR`, nor
reported the end of the connection, `writeBufferProcessed()` is false and `write()` accepts nothing. -/
theorem C99_sim7x00 (p : Platform) (rx tx : List Byte) (sched : List (List Hw))
    (rmem wmem : List Byte) (t : ConnType) (line ip id : List Byte) (hl : line.length = 61) (ops : List Op) :
    let d := exec (Sim7x00.step p) (Sim7x00.init (Ser.init rx tx sched) rmem wmem t line ip id) ops
    unconfirmed7x00.after d.trace = true →
      d.writeBufferProcessed = false ∧ d.isConnected = true ∧ ∀ bs, d.write bs = (d, 0) := by
  intro d hu
  have h : Sim7x00.Conf d := Sim7x00.exec_stages (Sim7x00.conf_sections p) Sim7x00.conf_calls Sim7x00.conf_own
    (Sim7x00.inv_init rx tx sched rmem wmem t ip id hl)
    ⟨(nomatch ·), (nomatch ·)⟩ ops
  have hc := (h.sent hu).1
  refine ⟨?_, ?_, fun bs => ?_⟩
  · unfold Dev.writeBufferProcessed; rw [hc]; exact Bool.and_false _
  · unfold Dev.isConnected; rw [hc]; rfl
  · unfold Dev.write; rw [if_pos (by rw [hc]; exact ConnState.noConfusion)]

/-- C99, SIM800: the same; the modem answers `0, SEND OK` or one of its errors. -/
theorem C99_sim800 (p : Platform) (rx tx : List Byte) (sched : List (List Hw))
    (rmem wmem : List Byte) (t : ConnType) (line ip id : List Byte) (hl : line.length = 61) (ops : List Op) :
    let d := exec (Sim800.step p) (Sim800.init (Ser.init rx tx sched) rmem wmem t line ip id) ops
    unconfirmed800.after d.trace = true →
      d.writeBufferProcessed = false ∧ d.isConnected = true ∧ ∀ bs, d.write bs = (d, 0) := by
  intro d hu
  have h : Sim800.Conf d := Sim800.exec_stages (Sim800.conf_sections p) Sim800.conf_calls Sim800.conf_own
    (Sim800.inv_init rx tx sched rmem wmem t ip id hl)
    ⟨(nomatch ·), (nomatch ·)⟩ ops
  have hc := (h.sent hu).1
  refine ⟨?_, ?_, fun bs => ?_⟩
  · unfold Dev.writeBufferProcessed; rw [hc]; exact Bool.and_false _
  · unfold Dev.isConnected; rw [hc]; rfl
  · unfold Dev.write; rw [if_pos (by rw [hc]; exact ConnState.noConfusion)]

/-- C99, Espressif: the same; the modem answers `SEND OK` or one of its errors. -/
theorem C99_espressif (p : Platform) (rx tx : List Byte) (sched : List (List Hw))
    (rmem wmem : List Byte) (t : ConnType) (line mac : List Byte) (ssid passwd : CPtr) (hl : line.length = 61) (ops : List Op) :
    let d := exec (Espressif.step p) (Espressif.init (Ser.init rx tx sched) rmem wmem t line mac ssid passwd) ops
    unconfirmedEsp.after d.trace = true →
      d.writeBufferProcessed = false ∧ d.isConnected = true ∧ ∀ bs, d.write bs = (d, 0) := by
  intro d hu
  have h : Espressif.Conf d := Espressif.exec_stages (Espressif.conf_sections p) Espressif.conf_calls Espressif.conf_own
    (Espressif.inv_init rx tx sched rmem wmem t mac ssid passwd hl)
    ⟨(nomatch ·), (nomatch ·)⟩ ops
  have hc := (h.sent hu).1
  refine ⟨?_, ?_, fun bs => ?_⟩
  · unfold Dev.writeBufferProcessed; rw [hc]; exact Bool.and_false _
  · unfold Dev.isConnected; rw [hc]; rfl
  · unfold Dev.write; rw [if_pos (by rw [hc]; exact ConnState.noConfusion)]

/-- C99, CC1352P7: the same; the modem answers `OK` or one of its errors. -/
theorem C99_cc1352p7 (p : Platform) (rx tx : List Byte) (sched : List (List Hw))
    (rmem wmem : List Byte) (t : ConnType) (line mac : List Byte) (hl : line.length = 61) (ops : List Op) :
    let d := exec (CC1352P7.step p) (CC1352P7.init (Ser.init rx tx sched) rmem wmem t line mac) ops
    unconfirmedCC.after d.trace = true →
      d.writeBufferProcessed = false ∧ d.isConnected = true ∧ ∀ bs, d.write bs = (d, 0) := by
  intro d hu
  have h : CC1352P7.Conf d := CC1352P7.exec_stages (CC1352P7.conf_sections p) CC1352P7.conf_calls CC1352P7.conf_own
    (CC1352P7.inv_init rx tx sched rmem wmem t mac hl)
    ⟨(nomatch ·), (nomatch ·)⟩ ops
  have hc := (h.sent hu).1
  refine ⟨?_, ?_, fun bs => ?_⟩
  · unfold Dev.writeBufferProcessed; rw [hc]; exact Bool.and_false _
  · unfold Dev.isConnected; rw [hc]; rfl
  · unfold Dev.write; rw [if_pos (by rw [hc]; exact ConnState.noConfusion)]

/-- Three bytes are written and sent. -/
def sending (up : List Op) : List Op := up ++ [.run true, .write [1, 2, 3], .run true, .run true] ++ Sess.talk b!">"

/-- The hypothesis is met after that, until the modem answers. -/
example :
    let d := exec (Sim7x00.step Sess.arm) Sess.sim7x00 (sending (Sess.up7x00 .tcp))
    let e := exec (Sim7x00.step Sess.arm) d (Sess.talk b!"OK\r\n")
    unconfirmed7x00.after d.trace = true ∧ d.wbuf.bytesAvailable = 0 ∧ d.writeBufferProcessed = false ∧
    unconfirmed7x00.after e.trace = false ∧ e.writeBufferProcessed = true := by
  decide +kernel

example :
    let d := exec (Sim800.step Sess.arm) Sess.sim800 (sending (Sess.up800 .tcp))
    let e := exec (Sim800.step Sess.arm) d (Sess.talk b!"0, SEND OK\r\n")
    unconfirmed800.after d.trace = true ∧ d.wbuf.bytesAvailable = 0 ∧ d.writeBufferProcessed = false ∧
    unconfirmed800.after e.trace = false ∧ e.writeBufferProcessed = true := by
  decide +kernel

example :
    let d := exec (Espressif.step Sess.arm) Sess.espressif (sending (Sess.upEsp .tcp))
    let e := exec (Espressif.step Sess.arm) d (Sess.talk b!"SEND OK\r\n")
    unconfirmedEsp.after d.trace = true ∧ d.wbuf.bytesAvailable = 0 ∧ d.writeBufferProcessed = false ∧
    unconfirmedEsp.after e.trace = false ∧ e.writeBufferProcessed = true := by
  decide +kernel

example :
    let d := exec (CC1352P7.step Sess.arm) Sess.cc1352p7 (sending (Sess.upCC .tcp))
    let e := exec (CC1352P7.step Sess.arm) d (Sess.talk b!"OK\r\n")
    unconfirmedCC.after d.trace = true ∧ d.wbuf.bytesAvailable = 0 ∧ d.writeBufferProcessed = false ∧
    unconfirmedCC.after e.trace = false ∧ e.writeBufferProcessed = true := by
  decide +kernel

/-- "`writeBufferProcessed()` means that the data were sent" is false: the modem answers `ERROR`, and it is true. -/
theorem C99_sim7x00_failed :
    let d := exec (Sim7x00.step Sess.arm) Sess.sim7x00 (sending (Sess.up7x00 .tcp))
    let e := exec (Sim7x00.step Sess.arm) d (Sess.say b!"ERROR\r\n" ++ [.run true])
    d.writeBufferProcessed = false ∧ e.writeBufferProcessed = true ∧ e.isConnected = false ∧
    e.trace.all (fun v => match v with | .line l => (!begins b!"OK" l) || d.trace.contains v | _ => true) = true := by
  decide +kernel

end Verif.Props.Confirmed
