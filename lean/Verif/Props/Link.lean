import Verif.Lemmas.LinkSim7x00
import Verif.Lemmas.LinkSim800
import Verif.Lemmas.LinkEspressif
import Verif.Lemmas.LinkCC1352P7
import Verif.Spec.Sessions

/-!
# C30: connected means that the modem confirmed

For every history of a driver from its constructor: arbitrary calls of the application, arbitrary bytes
from the modem at arbitrary times, arbitrary sizes of all buffers.
-/

namespace Verif.Props.Link

open Verif Dev

/-- In the trace there is the open command, accepted completely by the serial device, later a line that
starts with the success reply; between them and afterwards no command of the list `clear` was sent and
the application did not call `resetStates()`; after the reply no open command was sent. -/
def Confirmed (open_ success : List Byte) (clear : List (List Byte)) (t : List Ev) : Prop :=
  ∃ pre mid l post, t = pre ++ .cmd open_ open_ :: mid ++ .line l :: post ∧ success <+: l ∧
    (∀ e ∈ mid ++ post, e ≠ .apiReset ∧ ∀ w g, e = .cmd w g → w ∉ clear) ∧
    (∀ e ∈ post, e ≠ .cmd open_ open_)

theorem confirmed_of_up {o s : List Byte} {c : List (List Byte)} {t : List Ev}
    (h : (Spec.link o s c).after t = .up) : Confirmed o s c t := by
  obtain ⟨pre, mid, l, post, h1, h2, h3, h4⟩ := Spec.link_up_iff t h
  have hc : ∀ e, Spec.isClear c e = false → e ≠ .apiReset ∧ ∀ w g, e = .cmd w g → w ∉ c := by
    intro e he
    constructor
    · rintro rfl; simp [Spec.isClear] at he
    · rintro w g rfl; simpa [Spec.isClear] using he
  refine ⟨pre, mid, l, post, h1, h2, ?_, fun e he => (h4 e he).2⟩
  intro e he
  rcases List.mem_append.mp he with he | he
  · exact hc e (h3 e he)
  · exact hc e (h4 e he).1

theorem C30_sim7x00 (p : Platform) (rx tx : List Byte) (sched : List (List Hw))
    (rmem wmem : List Byte) (t : ConnType) (line ip id : List Byte) (hl : line.length = 61)
    (ops : List Op) :
    let d := exec (Sim7x00.step p) (Sim7x00.init (Ser.init rx tx sched) rmem wmem t line ip id) ops
    d.isConnected = true →
      Confirmed b!"AT+CIPOPEN" b!"+CIPOPEN: 0,0" [b!"ATE0", b!"AT+CRESET", b!"AT+NETCLOSE"] d.trace := by
  intro d h
  have hi : Sim7x00.LinkInv d := Sim7x00.exec_stages (Sim7x00.linkInv_sections p)
    Sim7x00.linkInv_calls Sim7x00.linkInv_own (Sim7x00.inv_init rx tx sched rmem wmem t ip id hl)
    (.of_down rfl rfl (by simp [Sim7x00.init, SimDev.init, SimDev.resetStates])
      (by simp [Sim7x00.init, SimDev.init, SimDev.resetStates])) ops
  exact confirmed_of_up (hi.conn h)

theorem C30_sim800 (p : Platform) (rx tx : List Byte) (sched : List (List Hw))
    (rmem wmem : List Byte) (t : ConnType) (line ip id : List Byte) (hl : line.length = 61)
    (ops : List Op) :
    let d := exec (Sim800.step p) (Sim800.init (Ser.init rx tx sched) rmem wmem t line ip id) ops
    d.isConnected = true →
      Confirmed b!"AT+CIPSTART" b!"0, CONNECT OK" [b!"ATE0", b!"AT+CIPCLOSE=0", b!"AT+CIPSHUT"]
        d.trace := by
  intro d h
  have hi : Sim800.LinkInv d := Sim800.exec_stages (Sim800.linkInv_sections p)
    Sim800.linkInv_calls Sim800.linkInv_own (Sim800.inv_init rx tx sched rmem wmem t ip id hl)
    (.of_down rfl rfl (by simp [Sim800.init, SimDev.init, SimDev.resetStates])
      (by simp [Sim800.init, SimDev.init, SimDev.resetStates])) ops
  exact confirmed_of_up (hi.conn h)

theorem C30_espressif (p : Platform) (rx tx : List Byte) (sched : List (List Hw))
    (rmem wmem : List Byte) (t : ConnType) (line mac : List Byte) (ssid passwd : CPtr)
    (hl : line.length = 61) (ops : List Op) :
    let d := exec (Espressif.step p)
      (Espressif.init (Ser.init rx tx sched) rmem wmem t line mac ssid passwd) ops
    d.isConnected = true →
      Confirmed b!"AT+CIPSTART" b!"OK" [b!"ATE0", b!"AT+RST", b!"AT+CIPCLOSE", b!"AT+CWQAP"]
        d.trace := by
  intro d h
  have hi : Espressif.LinkInv d := Espressif.exec_stages (Espressif.linkInv_sections p)
    Espressif.linkInv_calls Espressif.linkInv_own
    (Espressif.inv_init rx tx sched rmem wmem t mac ssid passwd hl)
    (.of_down rfl rfl (by simp [Espressif.init, Espressif.resetStates])
      (by simp [Espressif.init, Espressif.resetStates])
      (by simp [Espressif.init, Espressif.resetStates])) ops
  exact confirmed_of_up (hi.conn h)

theorem C30_cc1352p7 (p : Platform) (rx tx : List Byte) (sched : List (List Hw))
    (rmem wmem : List Byte) (t : ConnType) (line mac : List Byte) (hl : line.length = 61)
    (ops : List Op) :
    let d := exec (CC1352P7.step p) (CC1352P7.init (Ser.init rx tx sched) rmem wmem t line mac) ops
    d.isConnected = true →
      Confirmed b!"AT+CIPSTART" b!"OK" [b!"ATE0", b!"AT+CIPCLOSE"] d.trace := by
  intro d h
  have hi : CC1352P7.LinkInv d := CC1352P7.exec_stages (CC1352P7.linkInv_sections p)
    CC1352P7.linkInv_calls CC1352P7.linkInv_own (CC1352P7.inv_init rx tx sched rmem wmem t mac hl)
    (.of_down rfl rfl (by simp [CC1352P7.init, CC1352P7.resetStates])
      (by simp [CC1352P7.init, CC1352P7.resetStates])) ops
  exact confirmed_of_up (hi.conn h)

/-! ## Non-vacuity: histories that lead to the connected state -/

example : (exec (Sim7x00.step Sess.arm) Sess.sim7x00 (Sess.up7x00 .tcp)).isConnected = true := by
  decide +kernel

example : (exec (Sim800.step Sess.arm) Sess.sim800 (Sess.up800 .tcp)).isConnected = true := by
  decide +kernel

example : (exec (Espressif.step Sess.arm) Sess.espressif (Sess.upEsp .tcp)).isConnected = true := by
  decide +kernel

example : (exec (CC1352P7.step Sess.arm) Sess.cc1352p7 (Sess.upCC .tcp)).isConnected = true := by
  decide +kernel

end Verif.Props.Link
