import Verif.Lemmas.Hollow
import Verif.Spec.Sessions

/-!
# C49, WiFi and WiSUN driver: an empty data block is the end

A data request is outstanding and the next line is a header for zero bytes. Unless the application calls `disconnect()`, the driver
takes nothing from the serial line any more, sends no payload and at most one command, until `resetStates()`.
-/

namespace Verif.Props.Hollow

open Verif Dev Spec

theorem C49_espressif_deaf (p : Platform) (rx tx : List Byte) (sched : List (List Hw)) (rmem wmem : List Byte)
    (line mac : List Byte) (ssid passwd : CPtr) (hl : line.length = 61) (pre : List Op)
    (ht : ∀ op ∈ pre, ∀ h q t, op = .setHostPort h q t → t = .tcp) :
    let d := exec (Espressif.step p) (Espressif.init (Ser.init rx tx sched) rmem wmem .tcp line mac ssid passwd) pre
    ∀ ok l rest, (Espressif.run p d ok).trace = d.trace ++ .line l :: rest →
    ((Spec.rx requestWifi (headerEsp p)).after d.trace).req ≠ none → headerEsp p l = some 0 →
    d.disconnectPending = false → d.resetPending = false →
    ∀ post, .resetStates ∉ post → .disconnect ∉ post →
      Deaf (d.trace ++ [.line l]) (exec (Espressif.step p) (Espressif.run p d ok) post).trace := by
  intro d ok l rest htr hreq hz hd hr post h1 h2
  have hv : Espressif.Inv d := exec_inv (ok := fun _ => True) (fun _ op _ h => Espressif.step_inv p op h)
    (Espressif.inv_init rx tx sched rmem wmem .tcp mac ssid passwd hl) pre fun _ _ => trivial
  have hi : Espressif.RxI p d := Espressif.exec_stages_tcp (Espressif.rxI_sections p) (Espressif.rxI_calls p)
    (Espressif.rxI_host p) (Espressif.rxI_own p) ⟨Espressif.inv_init rx tx sched rmem wmem .tcp mac ssid passwd hl, .of_zero rfl, rfl⟩
    ⟨rx_init rmem (by simp [Espressif.init, Espressif.resetStates]) rfl (by simp [Espressif.init, Espressif.resetStates]) rfl, rfl, by simp [Espressif.init, Espressif.resetStates]⟩ pre ht
  exact Espressif.hollow_header p hv.line hi hr hd htr hreq hz post fun op hop => ⟨fun e => h1 (e ▸ hop), fun e => h2 (e ▸ hop)⟩

/-- Such a history. -/
example :
    let d := exec (Espressif.step Sess.arm) Sess.espressif (Sess.upEsp .tcp ++ Sess.talk b!"+IPD,5\r\n" ++ [.run true] ++ Sess.say b!"+CIPRECVDATA,0:")
    (Espressif.run Sess.arm d true).trace = d.trace ++ [.line b!"+CIPRECVDATA,0:"] ∧
    ((rx requestWifi (headerEsp Sess.arm)).after d.trace).req ≠ none ∧
    headerEsp Sess.arm b!"+CIPRECVDATA,0:" = some 0 ∧ d.disconnectPending = false ∧ d.resetPending = false := by decide +kernel

/-- What happens then: data are announced and requested, the answer has length zero. One more command is sent, then nothing happens
any more, whatever follows. -/
theorem C49_espressif_reachable : ∃ pre, ∀ post, .resetStates ∉ post →
    let d := exec (Espressif.step Sess.arm) Sess.espressif pre
    [.cmd b!"AT+CIPRECVDATA=" b!"AT+CIPRECVDATA=", .arg b!"5" b!"5",
      .arg b!"\r\n" b!"\r\n", .line b!"+CIPRECVDATA,0:", .cmd b!"AT+CIPRECVDATA=" b!"AT+CIPRECVDATA=",
      .arg b!"5" b!"5", .arg b!"\r\n" b!"\r\n"] <:+ d.trace ∧
    Silent d.trace (exec (Espressif.step Sess.arm) d post).trace :=
  ⟨Sess.upEsp .tcp ++ Sess.talk b!"+IPD,5\r\n" ++ [.run true] ++ Sess.talk b!"+CIPRECVDATA,0:" ++ [.run true, .run true], fun post hpost =>
    ⟨by decide +kernel,
      Espressif.stuck_exec _ ⟨by decide +kernel, by decide +kernel, by decide +kernel, by decide +kernel⟩
        post hpost⟩⟩

/-- WiSUN driver: if the modem has not reported the end of the connection. -/
theorem C49_cc1352p7_deaf (p : Platform) (rx tx : List Byte) (sched : List (List Hw)) (rmem wmem : List Byte) (t : ConnType)
    (line mac : List Byte) (hl : line.length = 61) (pre : List Op) :
    let d := exec (CC1352P7.step p) (CC1352P7.init (Ser.init rx tx sched) rmem wmem t line mac) pre
    ∀ ok l rest, (CC1352P7.run p d ok).trace = d.trace ++ .line l :: rest →
    ((Spec.rx requestWifi (headerCC p)).after d.trace).req ≠ none → headerCC p l = some 0 →
    d.disconnectPending = false → d.resetPending = false → d.ipConnected = true →
    ∀ post, .resetStates ∉ post → .disconnect ∉ post →
      Deaf (d.trace ++ [.line l]) (exec (CC1352P7.step p) (CC1352P7.run p d ok) post).trace := by
  intro d ok l rest htr hreq hz hd hr hip post h1 h2
  have hv : CC1352P7.Inv d := exec_inv (ok := fun _ => True) (fun _ op _ h => CC1352P7.step_inv p op h)
    (CC1352P7.inv_init rx tx sched rmem wmem t mac hl) pre fun _ _ => trivial
  have hi : CC1352P7.RxI p d := CC1352P7.exec_stages (CC1352P7.rxI_sections p) (rx_calls)
    (CC1352P7.rxI_own p) (CC1352P7.inv_init rx tx sched rmem wmem t mac hl)
    (rx_init rmem (by simp [CC1352P7.init, CC1352P7.resetStates]) rfl (by simp [CC1352P7.init, CC1352P7.resetStates]) rfl) pre
  exact CC1352P7.hollow_header p hv.1.line hi hr hd hip htr hreq hz post fun op hop => ⟨fun e => h1 (e ▸ hop), fun e => h2 (e ▸ hop)⟩

/-- Such a history. -/
example :
    let d := exec (CC1352P7.step Sess.arm) Sess.cc1352p7 (Sess.upCC .tcp ++ Sess.talk b!"+IPD,5\r\n" ++ [.run true] ++ Sess.say b!"+CIPRECVDATA:0,\n")
    (CC1352P7.run Sess.arm d true).trace = d.trace ++ [.line b!"+CIPRECVDATA:0,\n"] ∧
    ((rx requestWifi (headerCC Sess.arm)).after d.trace).req ≠ none ∧
    headerCC Sess.arm b!"+CIPRECVDATA:0,\n" = some 0 ∧ d.disconnectPending = false ∧ d.resetPending = false ∧ d.ipConnected = true := by
  decide +kernel

theorem C49_cc1352p7_reachable : ∃ pre, ∀ post, .resetStates ∉ post →
    let d := exec (CC1352P7.step Sess.arm) Sess.cc1352p7 pre
    [.cmd b!"AT+CIPRECVDATA=" b!"AT+CIPRECVDATA=", .arg b!"5" b!"5",
      .arg b!"\r\n" b!"\r\n", .line b!"+CIPRECVDATA:0,\n", .cmd b!"AT+CIPRECVDATA=" b!"AT+CIPRECVDATA=",
      .arg b!"5" b!"5", .arg b!"\r\n" b!"\r\n"] <:+ d.trace ∧
    Silent d.trace (exec (CC1352P7.step Sess.arm) d post).trace :=
  ⟨Sess.upCC .tcp ++ Sess.talk b!"+IPD,5\r\n" ++ [.run true] ++ Sess.talk b!"+CIPRECVDATA:0,\n" ++ [.run true, .run true], fun post hpost =>
    ⟨by decide +kernel,
      CC1352P7.stuck_exec _ ⟨by decide +kernel, by decide +kernel, by decide +kernel, by decide +kernel⟩
        post hpost⟩⟩

end Verif.Props.Hollow
