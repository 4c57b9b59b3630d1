import Verif.Lemmas.Datagram
import Verif.Spec.Sessions
import Verif.Props.Receive

/-!
# C76: data blocks that are bigger than the receive buffer of the serial device

The drivers wait until a block of payload is complete in the receive buffer of the serial device. A block
that is bigger never is. `due`: the bytes of payload that the last header announced and that have been neither
taken nor thrown away.

For every history of a driver from its constructor: arbitrary calls of the application, arbitrary bytes
from the modem at arbitrary times, arbitrary sizes of all buffers.
-/

namespace Verif.Props.Large

open Verif Dev Spec

/-- 78 bytes arrive at the `k`-th access of the driver to the serial buffers. -/
def burst (k : Nat) : Ser :=
  Ser.init (List.replicate 80 0) (List.replicate 80 0)
    (List.replicate k [] ++ [(List.replicate 13 b!"RING\r\n").flatten.map fun c => ⟨some c, false⟩])

/-- Calls of `run()`. -/
def runs (n : Nat) : List Op := List.replicate n (.run true)

/-- 150 bytes are announced and requested. -/
def askSim : List Op :=
  Sess.talk b!"+CIPRXGET: 1,0\r\n" ++ Sess.say b!"+CIPRXGET: 4,0,150\r\nOK\r\n" ++ runs 2

/-- 150 bytes are announced and requested. -/
def askWifi : List Op := Sess.say b!"+IPD,150\r\n" ++ runs 2

/-! ## Sim7x00 -/

/-- Once more payload is due than the receive buffer of the serial device can hold, nothing happens on the
serial line any more, whatever is called and received, until `disconnect()` or `resetStates()`. -/
theorem C76_sim7x00_never (p : Platform) (rx tx : List Byte) (sched : List (List Hw)) (rmem wmem : List Byte) (t : ConnType)
    (line : List Byte) (ip id : List Byte) (hl : line.length = 61) (pre : List Op) :
    let d := exec (Sim7x00.step p) (Sim7x00.init (Ser.init rx tx sched) rmem wmem t line ip id) pre
    rx.length < ((Spec.rx requestSim (headerSim p)).after d.trace).due →
    d.disconnectPending = false → d.resetPending = false →
    ∀ post, .resetStates ∉ post → .disconnect ∉ post →
      Silent d.trace (exec (Sim7x00.step p) d post).trace := by
  intro d hb hd hr post h1 h2
  have hv : Sim7x00.Inv d := exec_inv (ok := fun _ => True) (fun _ op _ h => Sim7x00.step_inv p op h)
    (Sim7x00.inv_init rx tx sched rmem wmem t ip id hl) pre fun _ _ => trivial
  have hi : Sim7x00.RxI p d := Sim7x00.exec_stages (Sim7x00.rxI_sections p) (rx_calls)
    (Sim7x00.rxI_own p) (Sim7x00.inv_init rx tx sched rmem wmem t ip id hl)
    (rx_init rmem (by simp [Sim7x00.init, SimDev.init, SimDev.resetStates]) rfl
      (by simp [Sim7x00.init, SimDev.init, SimDev.resetStates]) rfl) pre
  have hz : d.ser.rx.ring.size = rx.length := by
    have h := (Sim7x00.later_exec p (Sim7x00.init (Ser.init rx tx sched) rmem wmem t line ip id) pre).rxSize
    exact h.trans (Ser.later_flush (Ser.init rx tx sched)).rxSize
  rw [hi.due] at hb
  obtain ⟨h3, h4⟩ := hi.held (by omega)
  exact Sim7x00.large_exec p ⟨hv, h3, hr, h4, by rw [hz]; exact hb, hd⟩ post h1 h2

/-- If the modem never sends more than it was asked for and no byte arrives while the driver runs, the
driver never asks for so much: the payload that is due always leaves 8 places in the receive buffer. -/
theorem C76_sim7x00_room (p : Platform) (rx tx : List Byte) (sched : List (List Hw)) (rmem wmem : List Byte) (t : ConnType)
    (line : List Byte) (ip id : List Byte) (pre : List Op)
    (hq : ∀ b ∈ sched, ∀ h ∈ b, h.rx = none) (hz : rx.length < 2 ^ 64) :
    let d := exec (Sim7x00.step p) (Sim7x00.init (Ser.init rx tx sched) rmem wmem t line ip id) pre
    Honours requestSim (headerSim p) d.trace →
    ((Spec.rx requestSim (headerSim p)).after d.trace).due ≤ rx.length - 8 := by
  intro d ho
  have h0 : (Sim7x00.init (Ser.init rx tx sched) rmem wmem t line ip id).ser.readBufferSize = rx.length :=
    (Ser.later_flush (Ser.init rx tx sched)).rxSize
  exact (Sim7x00.roomy_exec p (n := rx.length - 8) (Sim7x00.init (Ser.init rx tx sched) rmem wmem t line ip id) (RxQuiet.later (s := Ser.init rx tx sched) hq (Ser.later_flush (Ser.init rx tx sched))) (by show 0 < 1500; decide) (by rw [h0]; exact hz) (by rw [h0]) (roomy_reset rfl) pre ho).due

/-- Payload is requested and delivered. -/
example : let d := exec (Sim7x00.step Sess.arm) Sess.sim7x00 (Sess.up7x00 .tcp ++ Sess.talk b!"+CIPRXGET: 1,0\r\n" ++ Sess.talk b!"+CIPRXGET: 4,0,5\r\nOK\r\n" ++ Sess.talk b!"+CIPRXGET: 2,0,5,0\r\n")
    Honours requestSim (headerSim Sess.arm) d.trace ∧ ((Spec.rx requestSim (headerSim Sess.arm)).after d.trace).due = 5 :=
  ⟨honours_of (by decide +kernel), by decide +kernel⟩

/-- If bytes arrive between the two looks at the fill level of the receive buffer, the driver asks for 150
bytes although the receive buffer has 80 places. A modem that does what it is asked for is the end. -/
theorem C76_sim7x00_reachable : ∃ ser pre, Honours requestSim (headerSim Sess.arm)
      (exec (Sim7x00.step Sess.arm) (Sim7x00.init ser (List.replicate 200 0) (List.replicate 8 0) .tcp
      (List.replicate 61 0) (List.replicate 16 0) (List.replicate 24 0)) pre).trace ∧ ∀ post, .resetStates ∉ post → .disconnect ∉ post →
    let d := exec (Sim7x00.step Sess.arm) (Sim7x00.init ser (List.replicate 200 0) (List.replicate 8 0) .tcp
      (List.replicate 61 0) (List.replicate 16 0) (List.replicate 24 0)) pre
    (.cmd requestSim requestSim ∈ d.trace ∧ .arg b!"150" b!"150" ∈ d.trace ∧ d.ser.readBufferSize = 80 ∧
      .line b!"+CIPRXGET: 2,0,150,0\r\n" ∈ d.trace) ∧
    Silent d.trace (exec (Sim7x00.step Sess.arm) d post).trace :=
  ⟨burst 447, Sess.up7x00 .tcp ++ askSim ++ runs 14 ++ Sess.say b!"+CIPRXGET: 2,0,150,0\r\n" ++ runs 2,
    honours_of (by decide +kernel), fun post h1 h2 => ⟨by decide +kernel,
      C76_sim7x00_never Sess.arm _ _ _ _ _ _ _ _ _ (by decide) _ (by decide +kernel)
        (by decide +kernel) (by decide +kernel) post h1 h2⟩⟩

/-- After `disconnect()` every call of `run()` throws away what has arrived of the payload that is due, at
most all of it (C36); once nothing is due any more lines are read again. -/
theorem C76_sim7x00_rescue (p : Platform) (rx tx : List Byte) (sched : List (List Hw)) (rmem wmem : List Byte) (t : ConnType)
    (line : List Byte) (ip id : List Byte) (hl : line.length = 61) (pre : List Op) :
    let d := exec (Sim7x00.step p) (Sim7x00.init (Ser.init rx tx sched) rmem wmem t line ip id) pre
    ∀ ok, 0 < ((Spec.rx requestSim (headerSim p)).after d.trace).due → d.isOpen = true → d.serialLocked = false → d.snd ≠ .serialError →
    d.disconnectPending = true → d.resetPending = false →
    ∃ bs rest, (Sim7x00.run p d ok).trace = d.trace ++ .drop bs :: rest ∧
      min ((Spec.rx requestSim (headerSim p)).after d.trace).due d.ser.rx.ring.bytesAvailable ≤ bs.length := by
  intro d ok hb ho hk hs hd hr
  have hv : Sim7x00.Inv d := exec_inv (ok := fun _ => True) (fun _ op _ h => Sim7x00.step_inv p op h)
    (Sim7x00.inv_init rx tx sched rmem wmem t ip id hl) pre fun _ _ => trivial
  have hi : Sim7x00.RxI p d := Sim7x00.exec_stages (Sim7x00.rxI_sections p) (rx_calls)
    (Sim7x00.rxI_own p) (Sim7x00.inv_init rx tx sched rmem wmem t ip id hl)
    (rx_init rmem (by simp [Sim7x00.init, SimDev.init, SimDev.resetStates]) rfl
      (by simp [Sim7x00.init, SimDev.init, SimDev.resetStates]) rfl) pre
  rw [hi.due] at hb ⊢
  obtain ⟨h3, h4⟩ := hi.held (by omega)
  exact Sim7x00.rescue_run p ok hv.1.rx ho hk hr h3 (h4.resolve_right hs) hd

/-- The block of 150 bytes again: after `disconnect()` the driver throws it away, piece by piece, and closes the
connection. -/
example :
    let d := exec (Sim7x00.step Sess.arm) (Sim7x00.init (burst 447) (List.replicate 200 0) (List.replicate 8 0) .tcp
      (List.replicate 61 0) (List.replicate 16 0) (List.replicate 24 0))
      (Sess.up7x00 .tcp ++ askSim ++ runs 14 ++ Sess.say b!"+CIPRXGET: 2,0,150,0\r\n" ++ runs 2 ++ [Op.disconnect])
    let e := exec (Sim7x00.step Sess.arm) d
      (Sess.say (List.replicate 75 120) ++ runs 1 ++ Sess.say (List.replicate 75 120) ++ runs 1 ++
       Sess.talk b!"\r\nOK\r\n" ++ runs 3 ++ Sess.talk b!"+CIPRXGET: 4,0,0\r\nOK\r\n" ++ runs 4)
    (0 < ((Spec.rx requestSim (headerSim Sess.arm)).after d.trace).due ∧ d.isOpen = true ∧ d.serialLocked = false ∧ d.snd ≠ .serialError ∧
      d.disconnectPending = true ∧ d.resetPending = false) ∧
    .drop (List.replicate 75 120) ∈ e.trace ∧ ((Spec.rx requestSim (headerSim Sess.arm)).after e.trace).due = 0 ∧
    .cmd b!"AT+NETCLOSE" b!"AT+NETCLOSE" ∈ e.trace := by
  decide +kernel

/-! ## Sim800 -/

/-- Once more payload is due than the receive buffer of the serial device can hold, nothing happens on the
serial line any more, whatever is called and received, until `disconnect()` or `resetStates()`. -/
theorem C76_sim800_never (p : Platform) (rx tx : List Byte) (sched : List (List Hw)) (rmem wmem : List Byte) (t : ConnType)
    (line : List Byte) (ip id : List Byte) (hl : line.length = 61) (pre : List Op) :
    let d := exec (Sim800.step p) (Sim800.init (Ser.init rx tx sched) rmem wmem t line ip id) pre
    rx.length < ((Spec.rx requestSim (headerSim p)).after d.trace).due →
    d.disconnectPending = false → d.resetPending = false →
    ∀ post, .resetStates ∉ post → .disconnect ∉ post →
      Silent d.trace (exec (Sim800.step p) d post).trace := by
  intro d hb hd hr post h1 h2
  have hv : Sim800.Inv d := exec_inv (ok := fun _ => True) (fun _ op _ h => Sim800.step_inv p op h)
    (Sim800.inv_init rx tx sched rmem wmem t ip id hl) pre fun _ _ => trivial
  have hi : Sim800.RxI p d := Sim800.exec_stages (Sim800.rxI_sections p) (rx_calls)
    (Sim800.rxI_own p) (Sim800.inv_init rx tx sched rmem wmem t ip id hl)
    (rx_init rmem (by simp [Sim800.init, SimDev.init, SimDev.resetStates]) rfl
      (by simp [Sim800.init, SimDev.init, SimDev.resetStates]) rfl) pre
  have hz : d.ser.rx.ring.size = rx.length := by
    have h := (Sim800.later_exec p (Sim800.init (Ser.init rx tx sched) rmem wmem t line ip id) pre).rxSize
    exact h.trans (Ser.later_flush (Ser.init rx tx sched)).rxSize
  rw [hi.due] at hb
  obtain ⟨h3, h4⟩ := hi.held (by omega)
  exact Sim800.large_exec p ⟨hv, h3, hr, h4, by rw [hz]; exact hb, hd⟩ post h1 h2

/-- If the modem never sends more than it was asked for and no byte arrives while the driver runs, the
driver never asks for so much: the payload that is due always leaves 8 places in the receive buffer. -/
theorem C76_sim800_room (p : Platform) (rx tx : List Byte) (sched : List (List Hw)) (rmem wmem : List Byte) (t : ConnType)
    (line : List Byte) (ip id : List Byte) (pre : List Op)
    (hq : ∀ b ∈ sched, ∀ h ∈ b, h.rx = none) (hz : rx.length < 2 ^ 64) :
    let d := exec (Sim800.step p) (Sim800.init (Ser.init rx tx sched) rmem wmem t line ip id) pre
    Honours requestSim (headerSim p) d.trace →
    ((Spec.rx requestSim (headerSim p)).after d.trace).due ≤ rx.length - 8 := by
  intro d ho
  have h0 : (Sim800.init (Ser.init rx tx sched) rmem wmem t line ip id).ser.readBufferSize = rx.length :=
    (Ser.later_flush (Ser.init rx tx sched)).rxSize
  exact (Sim800.roomy_exec p (n := rx.length - 8) (Sim800.init (Ser.init rx tx sched) rmem wmem t line ip id) (RxQuiet.later (s := Ser.init rx tx sched) hq (Ser.later_flush (Ser.init rx tx sched))) (by show 0 < 1460; decide) (by rw [h0]; exact hz) (by rw [h0]) (roomy_reset rfl) pre ho).due

/-- Payload is requested and delivered. -/
example : let d := exec (Sim800.step Sess.arm) Sess.sim800 (Sess.up800 .tcp ++ Sess.talk b!"+CIPRXGET: 1,0\r\n" ++ Sess.talk b!"+CIPRXGET: 4,0,5\r\nOK\r\n" ++ Sess.talk b!"+CIPRXGET: 2,0,5,0\r\n")
    Honours requestSim (headerSim Sess.arm) d.trace ∧ ((Spec.rx requestSim (headerSim Sess.arm)).after d.trace).due = 5 :=
  ⟨honours_of (by decide +kernel), by decide +kernel⟩

/-- If bytes arrive between the two looks at the fill level of the receive buffer, the driver asks for 150
bytes although the receive buffer has 80 places. A modem that does what it is asked for is the end. -/
theorem C76_sim800_reachable : ∃ ser pre, Honours requestSim (headerSim Sess.arm)
      (exec (Sim800.step Sess.arm) (Sim800.init ser (List.replicate 200 0) (List.replicate 8 0) .tcp
      (List.replicate 61 0) (List.replicate 16 0) (List.replicate 24 0)) pre).trace ∧ ∀ post, .resetStates ∉ post → .disconnect ∉ post →
    let d := exec (Sim800.step Sess.arm) (Sim800.init ser (List.replicate 200 0) (List.replicate 8 0) .tcp
      (List.replicate 61 0) (List.replicate 16 0) (List.replicate 24 0)) pre
    (.cmd requestSim requestSim ∈ d.trace ∧ .arg b!"150" b!"150" ∈ d.trace ∧ d.ser.readBufferSize = 80 ∧
      .line b!"+CIPRXGET: 2,0,150,0\r\n" ∈ d.trace) ∧
    Silent d.trace (exec (Sim800.step Sess.arm) d post).trace :=
  ⟨burst 417, Sess.up800 .tcp ++ askSim ++ runs 14 ++ Sess.say b!"+CIPRXGET: 2,0,150,0\r\n" ++ runs 2,
    honours_of (by decide +kernel), fun post h1 h2 => ⟨by decide +kernel,
      C76_sim800_never Sess.arm _ _ _ _ _ _ _ _ _ (by decide) _ (by decide +kernel)
        (by decide +kernel) (by decide +kernel) post h1 h2⟩⟩

/-- After `disconnect()` every call of `run()` throws away what has arrived of the payload that is due, at
most all of it (C36); once nothing is due any more lines are read again. -/
theorem C76_sim800_rescue (p : Platform) (rx tx : List Byte) (sched : List (List Hw)) (rmem wmem : List Byte) (t : ConnType)
    (line : List Byte) (ip id : List Byte) (hl : line.length = 61) (pre : List Op) :
    let d := exec (Sim800.step p) (Sim800.init (Ser.init rx tx sched) rmem wmem t line ip id) pre
    ∀ ok, 0 < ((Spec.rx requestSim (headerSim p)).after d.trace).due → d.isOpen = true → d.serialLocked = false → d.snd ≠ .serialError →
    d.disconnectPending = true → d.resetPending = false →
    ∃ bs rest, (Sim800.run p d ok).trace = d.trace ++ .drop bs :: rest ∧
      min ((Spec.rx requestSim (headerSim p)).after d.trace).due d.ser.rx.ring.bytesAvailable ≤ bs.length := by
  intro d ok hb ho hk hs hd hr
  have hv : Sim800.Inv d := exec_inv (ok := fun _ => True) (fun _ op _ h => Sim800.step_inv p op h)
    (Sim800.inv_init rx tx sched rmem wmem t ip id hl) pre fun _ _ => trivial
  have hi : Sim800.RxI p d := Sim800.exec_stages (Sim800.rxI_sections p) (rx_calls)
    (Sim800.rxI_own p) (Sim800.inv_init rx tx sched rmem wmem t ip id hl)
    (rx_init rmem (by simp [Sim800.init, SimDev.init, SimDev.resetStates]) rfl
      (by simp [Sim800.init, SimDev.init, SimDev.resetStates]) rfl) pre
  rw [hi.due] at hb ⊢
  obtain ⟨h3, h4⟩ := hi.held (by omega)
  exact Sim800.rescue_run p ok hv.1.rx ho hk hr h3 (h4.resolve_right hs) hd

/-- The block of 150 bytes again: after `disconnect()` the driver throws it away, piece by piece, and closes the
connection. -/
example :
    let d := exec (Sim800.step Sess.arm) (Sim800.init (burst 417) (List.replicate 200 0) (List.replicate 8 0) .tcp
      (List.replicate 61 0) (List.replicate 16 0) (List.replicate 24 0))
      (Sess.up800 .tcp ++ askSim ++ runs 14 ++ Sess.say b!"+CIPRXGET: 2,0,150,0\r\n" ++ runs 2 ++ [Op.disconnect])
    let e := exec (Sim800.step Sess.arm) d
      (Sess.say (List.replicate 75 120) ++ runs 1 ++ Sess.say (List.replicate 75 120) ++ runs 1 ++
       Sess.talk b!"\r\nOK\r\n" ++ runs 3 ++ Sess.talk b!"+CIPRXGET: 4,0,0\r\nOK\r\n" ++ runs 4)
    (0 < ((Spec.rx requestSim (headerSim Sess.arm)).after d.trace).due ∧ d.isOpen = true ∧ d.serialLocked = false ∧ d.snd ≠ .serialError ∧
      d.disconnectPending = true ∧ d.resetPending = false) ∧
    .drop (List.replicate 75 120) ∈ e.trace ∧ ((Spec.rx requestSim (headerSim Sess.arm)).after e.trace).due = 0 ∧
    .cmd b!"AT+CIPCLOSE=0" b!"AT+CIPCLOSE=0" ∈ e.trace := by
  decide +kernel

/-! ## Espressif -/

/-- Once more payload is due than the receive buffer of the serial device can hold, nothing happens on the
serial line any more, whatever is called and received, until `disconnect()` or `resetStates()`. -/
theorem C76_espressif_never (p : Platform) (rx tx : List Byte) (sched : List (List Hw)) (rmem wmem : List Byte)
    (line : List Byte) (mac : List Byte) (ssid passwd : CPtr) (hl : line.length = 61) (pre : List Op)
    (ht : ∀ op ∈ pre, ∀ h q t, op = .setHostPort h q t → t = .tcp) :
    let d := exec (Espressif.step p) (Espressif.init (Ser.init rx tx sched) rmem wmem .tcp line mac ssid passwd) pre
    rx.length < ((Spec.rx requestWifi (headerEsp p)).after d.trace).due →
    d.disconnectPending = false → d.resetPending = false →
    ∀ post, .resetStates ∉ post → .disconnect ∉ post →
      Silent d.trace (exec (Espressif.step p) d post).trace := by
  intro d hb hd hr post h1 h2
  have hv : Espressif.Inv d := exec_inv (ok := fun _ => True) (fun _ op _ h => Espressif.step_inv p op h)
    (Espressif.inv_init rx tx sched rmem wmem .tcp mac ssid passwd hl) pre fun _ _ => trivial
  have hi : Espressif.RxI p d := Espressif.exec_stages_tcp (Espressif.rxI_sections p) (Espressif.rxI_calls p)
    (Espressif.rxI_host p) (Espressif.rxI_own p) ⟨Espressif.inv_init rx tx sched rmem wmem .tcp mac ssid passwd hl, .of_zero rfl, rfl⟩
    ⟨rx_init rmem (by simp [Espressif.init, Espressif.resetStates]) rfl (by simp [Espressif.init, Espressif.resetStates]) rfl, rfl, by simp [Espressif.init, Espressif.resetStates]⟩ pre ht
  replace hi := hi.rx
  have hz : d.ser.rx.ring.size = rx.length := by
    have h := (Espressif.later_exec p (Espressif.init (Ser.init rx tx sched) rmem wmem .tcp line mac ssid passwd) pre).rxSize
    exact h.trans (Ser.later_flush (Ser.init rx tx sched)).rxSize
  rw [hi.due] at hb
  obtain ⟨h3, h4⟩ := hi.held (by omega)
  exact Espressif.large_exec p ⟨hv, h3, hr, h4, by rw [hz]; exact hb, hd⟩ post h1 h2

/-- If the modem never sends more than it was asked for and no byte arrives while the driver runs, the
driver never asks for so much: the payload that is due always leaves 30 places in the receive buffer. -/
theorem C76_espressif_room (p : Platform) (rx tx : List Byte) (sched : List (List Hw)) (rmem wmem : List Byte) (t : ConnType)
    (line : List Byte) (mac : List Byte) (ssid passwd : CPtr) (pre : List Op)
    (hq : ∀ b ∈ sched, ∀ h ∈ b, h.rx = none) (hz : rx.length < 2 ^ 64) :
    let d := exec (Espressif.step p) (Espressif.init (Ser.init rx tx sched) rmem wmem t line mac ssid passwd) pre
    Honours requestWifi (headerEsp p) d.trace →
    ((Spec.rx requestWifi (headerEsp p)).after d.trace).due ≤ rx.length - 30 := by
  intro d ho
  have h0 : (Espressif.init (Ser.init rx tx sched) rmem wmem t line mac ssid passwd).ser.readBufferSize = rx.length :=
    (Ser.later_flush (Ser.init rx tx sched)).rxSize
  exact (Espressif.roomy_exec p (n := rx.length - 30) (Espressif.init (Ser.init rx tx sched) rmem wmem t line mac ssid passwd) (RxQuiet.later (s := Ser.init rx tx sched) hq (Ser.later_flush (Ser.init rx tx sched))) (by rw [h0]; exact hz) (by rw [h0]) (roomy_reset rfl) pre ho).due

/-- Payload is requested and delivered. -/
example : let d := exec (Espressif.step Sess.arm) Sess.espressif (Sess.upEsp .tcp ++ Sess.talk b!"+IPD,5\r\n" ++ Sess.talk b!"+CIPRECVDATA,5:")
    Honours requestWifi (headerEsp Sess.arm) d.trace ∧ ((Spec.rx requestWifi (headerEsp Sess.arm)).after d.trace).due = 5 :=
  ⟨honours_of (by decide +kernel), by decide +kernel⟩

/-- If bytes arrive between the two looks at the fill level of the receive buffer, the driver asks for 150
bytes although the receive buffer has 80 places. A modem that does what it is asked for is the end. -/
theorem C76_espressif_reachable : ∃ ser pre, Honours requestWifi (headerEsp Sess.arm)
      (exec (Espressif.step Sess.arm) (Espressif.init ser (List.replicate 200 0) (List.replicate 8 0) .tcp
      (List.replicate 61 0) (List.replicate 18 0) .uninit .uninit) pre).trace ∧ ∀ post, .resetStates ∉ post → .disconnect ∉ post →
    let d := exec (Espressif.step Sess.arm) (Espressif.init ser (List.replicate 200 0) (List.replicate 8 0) .tcp
      (List.replicate 61 0) (List.replicate 18 0) .uninit .uninit) pre
    (.cmd requestWifi requestWifi ∈ d.trace ∧ .arg b!"150" b!"150" ∈ d.trace ∧ d.ser.readBufferSize = 80 ∧
      .line b!"+CIPRECVDATA,150:" ∈ d.trace) ∧
    Silent d.trace (exec (Espressif.step Sess.arm) d post).trace :=
  ⟨burst 229, Sess.upEsp .tcp ++ askWifi ++ runs 14 ++ Sess.say b!"+CIPRECVDATA,150:" ++ runs 2,
    honours_of (by decide +kernel), fun post h1 h2 => ⟨by decide +kernel,
      C76_espressif_never Sess.arm _ _ _ _ _ _ _ _ _ (by decide) _ (by simp [Sess.upEsp, askWifi, runs, Sess.talk, Sess.say]) (by decide +kernel)
        (by decide +kernel) (by decide +kernel) post h1 h2⟩⟩

/-- After `disconnect()` every call of `run()` throws away what has arrived of the payload that is due, at
most all of it (C36); once nothing is due any more lines are read again. -/
theorem C76_espressif_rescue (p : Platform) (rx tx : List Byte) (sched : List (List Hw)) (rmem wmem : List Byte)
    (line : List Byte) (mac : List Byte) (ssid passwd : CPtr) (hl : line.length = 61) (pre : List Op)
    (ht : ∀ op ∈ pre, ∀ h q t, op = .setHostPort h q t → t = .tcp) :
    let d := exec (Espressif.step p) (Espressif.init (Ser.init rx tx sched) rmem wmem .tcp line mac ssid passwd) pre
    ∀ ok, 0 < ((Spec.rx requestWifi (headerEsp p)).after d.trace).due → d.isOpen = true → d.snd ≠ .serialError →
    d.disconnectPending = true → d.resetPending = false →
    ∃ bs rest, (Espressif.run p d ok).trace = d.trace ++ .drop bs :: rest ∧
      min ((Spec.rx requestWifi (headerEsp p)).after d.trace).due d.ser.rx.ring.bytesAvailable ≤ bs.length := by
  intro d ok hb ho hs hd hr
  have hv : Espressif.Inv d := exec_inv (ok := fun _ => True) (fun _ op _ h => Espressif.step_inv p op h)
    (Espressif.inv_init rx tx sched rmem wmem .tcp mac ssid passwd hl) pre fun _ _ => trivial
  have hi : Espressif.RxI p d := Espressif.exec_stages_tcp (Espressif.rxI_sections p) (Espressif.rxI_calls p)
    (Espressif.rxI_host p) (Espressif.rxI_own p) ⟨Espressif.inv_init rx tx sched rmem wmem .tcp mac ssid passwd hl, .of_zero rfl, rfl⟩
    ⟨rx_init rmem (by simp [Espressif.init, Espressif.resetStates]) rfl (by simp [Espressif.init, Espressif.resetStates]) rfl, rfl, by simp [Espressif.init, Espressif.resetStates]⟩ pre ht
  replace hi := hi.rx
  rw [hi.due] at hb ⊢
  obtain ⟨h3, h4⟩ := hi.held (by omega)
  exact Espressif.rescue_run p ok hv.rx ho hr h3 (h4.resolve_right hs) hd

/-- The block of 150 bytes again: after `disconnect()` the driver throws it away, piece by piece, and closes the
connection. -/
example :
    let d := exec (Espressif.step Sess.arm) (Espressif.init (burst 229) (List.replicate 200 0) (List.replicate 8 0) .tcp
      (List.replicate 61 0) (List.replicate 18 0) .uninit .uninit)
      (Sess.upEsp .tcp ++ askWifi ++ runs 14 ++ Sess.say b!"+CIPRECVDATA,150:" ++ runs 2 ++ [Op.disconnect])
    let e := exec (Espressif.step Sess.arm) d
      (Sess.say (List.replicate 75 120) ++ runs 1 ++ Sess.say (List.replicate 75 120) ++ runs 1 ++
       Sess.talk b!"\r\nOK\r\n" ++ runs 3 ++ runs 4)
    (0 < ((Spec.rx requestWifi (headerEsp Sess.arm)).after d.trace).due ∧ d.isOpen = true ∧ d.snd ≠ .serialError ∧
      d.disconnectPending = true ∧ d.resetPending = false) ∧
    .drop (List.replicate 75 120) ∈ e.trace ∧ ((Spec.rx requestWifi (headerEsp Sess.arm)).after e.trace).due = 0 ∧
    .cmd b!"AT+CIPCLOSE" b!"AT+CIPCLOSE" ∈ e.trace := by
  decide +kernel

/-! ## CC1352P7 -/

/-- Once more payload is due than the receive buffer of the serial device can hold, nothing happens on the
serial line any more, whatever is called and received, until `disconnect()` or `resetStates()`. -/
theorem C76_cc1352p7_never (p : Platform) (rx tx : List Byte) (sched : List (List Hw)) (rmem wmem : List Byte) (t : ConnType)
    (line : List Byte) (mac : List Byte) (hl : line.length = 61) (pre : List Op) :
    let d := exec (CC1352P7.step p) (CC1352P7.init (Ser.init rx tx sched) rmem wmem t line mac) pre
    rx.length < ((Spec.rx requestWifi (headerCC p)).after d.trace).due →
    d.disconnectPending = false → d.resetPending = false →
    ∀ post, .resetStates ∉ post → .disconnect ∉ post →
      Silent d.trace (exec (CC1352P7.step p) d post).trace := by
  intro d hb hd hr post h1 h2
  have hv : CC1352P7.Inv d := exec_inv (ok := fun _ => True) (fun _ op _ h => CC1352P7.step_inv p op h)
    (CC1352P7.inv_init rx tx sched rmem wmem t mac hl) pre fun _ _ => trivial
  have hi : CC1352P7.RxI p d := CC1352P7.exec_stages (CC1352P7.rxI_sections p) (rx_calls)
    (CC1352P7.rxI_own p) (CC1352P7.inv_init rx tx sched rmem wmem t mac hl)
    (rx_init rmem (by simp [CC1352P7.init, CC1352P7.resetStates]) rfl
      (by simp [CC1352P7.init, CC1352P7.resetStates]) rfl) pre
  have hz : d.ser.rx.ring.size = rx.length := by
    have h := (CC1352P7.later_exec p (CC1352P7.init (Ser.init rx tx sched) rmem wmem t line mac) pre).rxSize
    exact h.trans (Ser.later_flush (Ser.init rx tx sched)).rxSize
  rw [hi.due] at hb
  obtain ⟨h3, h4⟩ := hi.held (by omega)
  exact CC1352P7.large_exec p ⟨hv, h3, hr, h4, by rw [hz]; exact hb, hd⟩ post h1 h2

/-- If the modem never sends more than it was asked for and no byte arrives while the driver runs, the
driver never asks for so much: the payload that is due always leaves 30 places in the receive buffer. -/
theorem C76_cc1352p7_room (p : Platform) (rx tx : List Byte) (sched : List (List Hw)) (rmem wmem : List Byte) (t : ConnType)
    (line : List Byte) (mac : List Byte) (pre : List Op)
    (hq : ∀ b ∈ sched, ∀ h ∈ b, h.rx = none) (hz : rx.length < 2 ^ 64) :
    let d := exec (CC1352P7.step p) (CC1352P7.init (Ser.init rx tx sched) rmem wmem t line mac) pre
    Honours requestWifi (headerCC p) d.trace →
    ((Spec.rx requestWifi (headerCC p)).after d.trace).due ≤ rx.length - 30 := by
  intro d ho
  have h0 : (CC1352P7.init (Ser.init rx tx sched) rmem wmem t line mac).ser.readBufferSize = rx.length :=
    (Ser.later_flush (Ser.init rx tx sched)).rxSize
  exact (CC1352P7.roomy_exec p (n := rx.length - 30) (CC1352P7.init (Ser.init rx tx sched) rmem wmem t line mac) (RxQuiet.later (s := Ser.init rx tx sched) hq (Ser.later_flush (Ser.init rx tx sched))) (by rw [h0]; exact hz) (by rw [h0]) (roomy_reset rfl) pre ho).due

/-- Payload is requested and delivered. -/
example : let d := exec (CC1352P7.step Sess.arm) Sess.cc1352p7 (Sess.upCC .tcp ++ Sess.talk b!"+IPD,5\r\n" ++ Sess.talk b!"+CIPRECVDATA,5\r\n")
    Honours requestWifi (headerCC Sess.arm) d.trace ∧ ((Spec.rx requestWifi (headerCC Sess.arm)).after d.trace).due = 5 :=
  ⟨honours_of (by decide +kernel), by decide +kernel⟩

/-- If bytes arrive between the two looks at the fill level of the receive buffer, the driver asks for 150
bytes although the receive buffer has 80 places. A modem that does what it is asked for is the end. -/
theorem C76_cc1352p7_reachable : ∃ ser pre, Honours requestWifi (headerCC Sess.arm)
      (exec (CC1352P7.step Sess.arm) (CC1352P7.init ser (List.replicate 200 0) (List.replicate 8 0) .tcp
      (List.replicate 61 0) (List.replicate 24 0)) pre).trace ∧ ∀ post, .resetStates ∉ post → .disconnect ∉ post →
    let d := exec (CC1352P7.step Sess.arm) (CC1352P7.init ser (List.replicate 200 0) (List.replicate 8 0) .tcp
      (List.replicate 61 0) (List.replicate 24 0)) pre
    (.cmd requestWifi requestWifi ∈ d.trace ∧ .arg b!"150" b!"150" ∈ d.trace ∧ d.ser.readBufferSize = 80 ∧
      .line b!"+CIPRECVDATA:150\r\n" ∈ d.trace) ∧
    Silent d.trace (exec (CC1352P7.step Sess.arm) d post).trace :=
  ⟨burst 90, Sess.upCC .tcp ++ askWifi ++ runs 14 ++ Sess.say b!"+CIPRECVDATA:150\r\n" ++ runs 2,
    honours_of (by decide +kernel), fun post h1 h2 => ⟨by decide +kernel,
      C76_cc1352p7_never Sess.arm _ _ _ _ _ _ _ _ (by decide) _ (by decide +kernel)
        (by decide +kernel) (by decide +kernel) post h1 h2⟩⟩

/-- After `disconnect()` every call of `run()` throws away what has arrived of the payload that is due, at
most all of it (C36); once nothing is due any more lines are read again. -/
theorem C76_cc1352p7_rescue (p : Platform) (rx tx : List Byte) (sched : List (List Hw)) (rmem wmem : List Byte) (t : ConnType)
    (line : List Byte) (mac : List Byte) (hl : line.length = 61) (pre : List Op) :
    let d := exec (CC1352P7.step p) (CC1352P7.init (Ser.init rx tx sched) rmem wmem t line mac) pre
    ∀ ok, 0 < ((Spec.rx requestWifi (headerCC p)).after d.trace).due → d.isOpen = true → d.snd ≠ .serialError →
    d.disconnectPending = true → d.resetPending = false →
    ∃ bs rest, (CC1352P7.run p d ok).trace = d.trace ++ .drop bs :: rest ∧
      min ((Spec.rx requestWifi (headerCC p)).after d.trace).due d.ser.rx.ring.bytesAvailable ≤ bs.length := by
  intro d ok hb ho hs hd hr
  have hv : CC1352P7.Inv d := exec_inv (ok := fun _ => True) (fun _ op _ h => CC1352P7.step_inv p op h)
    (CC1352P7.inv_init rx tx sched rmem wmem t mac hl) pre fun _ _ => trivial
  have hi : CC1352P7.RxI p d := CC1352P7.exec_stages (CC1352P7.rxI_sections p) (rx_calls)
    (CC1352P7.rxI_own p) (CC1352P7.inv_init rx tx sched rmem wmem t mac hl)
    (rx_init rmem (by simp [CC1352P7.init, CC1352P7.resetStates]) rfl
      (by simp [CC1352P7.init, CC1352P7.resetStates]) rfl) pre
  rw [hi.due] at hb ⊢
  obtain ⟨h3, h4⟩ := hi.held (by omega)
  exact CC1352P7.rescue_run p ok hv.1.rx ho hr h3 (h4.resolve_right hs) hd

/-- The block of 150 bytes again: after `disconnect()` the driver throws it away, piece by piece, and closes the
connection. -/
example :
    let d := exec (CC1352P7.step Sess.arm) (CC1352P7.init (burst 90) (List.replicate 200 0) (List.replicate 8 0) .tcp
      (List.replicate 61 0) (List.replicate 24 0))
      (Sess.upCC .tcp ++ askWifi ++ runs 14 ++ Sess.say b!"+CIPRECVDATA:150\r\n" ++ runs 2 ++ [Op.disconnect])
    let e := exec (CC1352P7.step Sess.arm) d
      (Sess.say (List.replicate 75 120) ++ runs 1 ++ Sess.say (List.replicate 75 120) ++ runs 1 ++
       Sess.talk b!"\r\nOK\r\n" ++ runs 3 ++ runs 4)
    (0 < ((Spec.rx requestWifi (headerCC Sess.arm)).after d.trace).due ∧ d.isOpen = true ∧ d.snd ≠ .serialError ∧
      d.disconnectPending = true ∧ d.resetPending = false) ∧
    .drop (List.replicate 75 120) ∈ e.trace ∧ ((Spec.rx requestWifi (headerCC Sess.arm)).after e.trace).due = 0 ∧
    .cmd b!"AT+CIPCLOSE" b!"AT+CIPCLOSE" ∈ e.trace := by
  decide +kernel

/-! ## Datagrams

With UDP (or SSL) the WiFi driver does not ask for payload: the modem sends it with its announcement. -/

/-- The driver has nothing else to do and the next line is the announcement of a datagram that the receive
buffer of the serial device cannot hold. From then on it takes nothing from the serial line, sends no payload
and at most one command, whatever is called and received, until `disconnect()`, `resetStates()` or a change
to TCP. -/
theorem C76_espressif_datagram (p : Platform) (rx tx : List Byte) (sched : List (List Hw))
    (rmem wmem : List Byte) (t : ConnType) (line mac : List Byte) (ssid passwd : CPtr)
    (hl : line.length = 61) (pre : List Op) :
    let d := exec (Espressif.step p) (Espressif.init (Ser.init rx tx sched) rmem wmem t line mac ssid passwd) pre
    ∀ ok l rest, (Espressif.run p d ok).trace = d.trace ++ .line l :: rest → b!"+IPD" <+: l → 5 ≤ l.length →
    rx.length < numberAt p l 5 → d.typ ≠ .tcp → d.snd = .connected → d.wait = none → d.rep = .okReply →
    d.bytesToRead = 0 → d.disconnectPending = false → d.resetPending = false →
    ∀ post, .resetStates ∉ post → .disconnect ∉ post → (∀ h q, .setHostPort h q .tcp ∉ post) →
      Deaf (d.trace ++ [.line l]) (exec (Espressif.step p) (Espressif.run p d ok) post).trace := by
  intro d ok l rest ht hp h5 hn htyp hs hw hrp hb hd hr post h1 h2 h3
  have hv : Espressif.Inv d := exec_inv (ok := fun _ => True) (fun _ op _ h => Espressif.step_inv p op h)
    (Espressif.inv_init rx tx sched rmem wmem t mac ssid passwd hl) pre fun _ _ => trivial
  have hz : d.ser.rx.ring.size = rx.length := by
    have h := (Espressif.later_exec p (Espressif.init (Ser.init rx tx sched) rmem wmem t line mac ssid passwd) pre).rxSize
    exact h.trans (Ser.later_flush (Ser.init rx tx sched)).rxSize
  exact Espressif.looming_header_exec p hv hr hd htyp hs hw hrp hb ht hp h5 (by rw [hz]; exact hn) post
    fun op hop => ⟨⟨fun e => h1 (e ▸ hop), fun e => h2 (e ▸ hop)⟩, fun h q e => h3 h q (e ▸ hop)⟩

/-- Such a history. -/
example :
    let d := exec (Espressif.step Sess.arm) Sess.espressif (Sess.upEsp .udp ++ Sess.say b!"+IPD,100:")
    (Espressif.run Sess.arm d true).trace = d.trace ++ [.line b!"+IPD,100:"] ∧
    d.ser.readBufferSize < numberAt Sess.arm b!"+IPD,100:" 5 ∧ d.typ ≠ .tcp ∧ d.snd = .connected ∧
    d.wait = none ∧ d.rep = .okReply ∧ d.bytesToRead = 0 ∧ d.disconnectPending = false ∧
    d.resetPending = false := by
  decide +kernel

/-- A datagram of 100 bytes and a receive buffer with 80 places: nothing happens any more. -/
theorem C76_espressif_lost : ∃ pre, ∀ post, .resetStates ∉ post → .disconnect ∉ post →
    let d := exec (Espressif.step Sess.arm) Sess.espressif pre
    (d.ser.readBufferSize = 80 ∧ [.line b!"+IPD,100:"] <:+ d.trace) ∧
    Silent d.trace (exec (Espressif.step Sess.arm) d post).trace := by
  refine ⟨Sess.upEsp .udp ++ Sess.talk b!"+IPD,100:", fun post h1 h2 => ⟨by decide +kernel, ?_⟩⟩
  refine Espressif.large_exec _ ⟨?_, by decide +kernel, by decide +kernel, by decide +kernel, by decide +kernel,
    by decide +kernel⟩ post h1 h2
  exact exec_inv (step := Espressif.step Sess.arm) (ok := fun _ => True) (I := Espressif.Inv)
    (fun _ op _ h => Espressif.step_inv _ op h)
    (Espressif.inv_init _ _ _ _ _ _ _ _ _ (by decide)) _ fun _ _ => trivial

end Verif.Props.Large
