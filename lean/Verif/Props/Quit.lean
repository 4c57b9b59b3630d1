import Verif.Lemmas.Quit
import Verif.Spec.Sessions

/-!
# Property C46: a requested disconnect is not forgotten

The history is cut at a call of `disconnect()` on a driver that is not idle. `times w l` is the number of
commands beginning with `w` among the events `l`.
-/

namespace Verif.Props.Quit

open Spec Sess

theorem anyOf_cmd {ws : List (List Byte)} {l : List Ev} (h : anyOf ws l = true) : ∃ w ∈ ws, ∃ g, .cmd w g ∈ l := by
  simp only [anyOf, List.any_eq_true] at h
  obtain ⟨e, he, w, hw, h⟩ := h
  cases e <;> simp [isCmdOf] at h
  exact ⟨w, hw, _, h ▸ he⟩

/-- C46, SIM800: from a request to disconnect until the driver is idle, a second command to open a connection
is not sent before a command to close one, whatever the modem says. -/
theorem C46_sim800 (p : Platform) (rx tx : List Byte) (sched : List (List Hw)) (rmem wmem : List Byte)
    (t : ConnType) (line ip id : List Byte) (hl : line.length = lineMax + 1) (before after : List Op)
    (ho : Op.resetStates ∉ after) :
    let d0 := Sim800.init (Ser.init rx tx sched) rmem wmem t line ip id
    let d1 := exec (Sim800.step p) d0 before
    let d2 := exec (Sim800.step p) d0 (before ++ .disconnect :: after)
    d1.isIdle = false →
    (∀ a b, after = a ++ b → (exec (Sim800.step p) d0 (before ++ .disconnect :: a)).isIdle = false) →
      ∃ new, d2.trace = d1.trace ++ .apiDisconnect :: new ∧
        (2 ≤ times b!"AT+CIPSTART" new → ∃ w ∈ [b!"AT+CIPCLOSE=0", b!"AT+CIPSHUT"], ∃ g, .cmd w g ∈ new) := by
  intro d0 d1 d2 h1 h2
  have hv : Sim800.Inv d0 := Sim800.inv_init rx tx sched rmem wmem t ip id hl
  have hs : Sim800.step p d1 .disconnect =
      ({ d1 with disconnectPending := true } : Sim800.D).log .apiDisconnect := by
    simp [Sim800.step, Dev.common, Dev.disconnect, h1]
  have e : ∀ a, exec (Sim800.step p) d0 (before ++ .disconnect :: a) =
      exec (Sim800.step p) (Sim800.step p d1 .disconnect) a := fun a => by rw [exec_append]; rfl
  have h3 := Sim800.quit_exec p (d1.trace ++ [.apiDisconnect]) after (d := Sim800.step p d1 .disconnect)
    (Sim800.step_inv p .disconnect (Sim800.inv_exec p hv before))
    (by rw [hs]; exact Quits.start rfl) ho fun a b hab _ => by rw [← e]; exact h2 a b hab
  rw [← e] at h3
  obtain ⟨new, h4, h5⟩ := h3.result
  refine ⟨new, by rw [h4]; simp, fun h => anyOf_cmd (h5 h)⟩

/-- C46, Espressif: from a request to disconnect until the driver is idle, a second command to open a connection
is not sent before a command to close one, whatever the modem says. -/
theorem C46_espressif (p : Platform) (rx tx : List Byte) (sched : List (List Hw)) (rmem wmem : List Byte)
    (t : ConnType) (line mac : List Byte) (ssid passwd : CPtr) (hl : line.length = lineMax + 1) (before after : List Op)
    (ho : Op.resetStates ∉ after) :
    let d0 := Espressif.init (Ser.init rx tx sched) rmem wmem t line mac ssid passwd
    let d1 := exec (Espressif.step p) d0 before
    let d2 := exec (Espressif.step p) d0 (before ++ .disconnect :: after)
    d1.isIdle = false →
    (∀ a b, after = a ++ b → (exec (Espressif.step p) d0 (before ++ .disconnect :: a)).isIdle = false) →
      ∃ new, d2.trace = d1.trace ++ .apiDisconnect :: new ∧
        (2 ≤ times b!"AT+CIPSTART" new → ∃ w ∈ [b!"AT+CIPCLOSE", b!"AT+CWQAP"], ∃ g, .cmd w g ∈ new) := by
  intro d0 d1 d2 h1 h2
  have hv : Espressif.Inv d0 := Espressif.inv_init rx tx sched rmem wmem t mac ssid passwd hl
  have hs : Espressif.step p d1 .disconnect =
      ({ d1 with disconnectPending := true } : Espressif.D).log .apiDisconnect := by
    simp [Espressif.step, Dev.common, Dev.disconnect, h1]
  have e : ∀ a, exec (Espressif.step p) d0 (before ++ .disconnect :: a) =
      exec (Espressif.step p) (Espressif.step p d1 .disconnect) a := fun a => by rw [exec_append]; rfl
  have h3 := Espressif.quit_exec p (d1.trace ++ [.apiDisconnect]) after (d := Espressif.step p d1 .disconnect)
    (Espressif.step_inv p .disconnect (Espressif.inv_exec p hv before))
    (by rw [hs]; exact Quits.start rfl) ho fun a b hab _ => by rw [← e]; exact h2 a b hab
  rw [← e] at h3
  obtain ⟨new, h4, h5⟩ := h3.result
  refine ⟨new, by rw [h4]; simp, fun h => anyOf_cmd (h5 h)⟩

/-- C46, CC1352P7: from a request to disconnect until the driver is idle, a second command to open a connection
is not sent before a command to close one, whatever the modem says. -/
theorem C46_cc1352p7 (p : Platform) (rx tx : List Byte) (sched : List (List Hw)) (rmem wmem : List Byte)
    (t : ConnType) (line mac : List Byte) (hl : line.length = lineMax + 1) (before after : List Op)
    (ho : Op.resetStates ∉ after) :
    let d0 := CC1352P7.init (Ser.init rx tx sched) rmem wmem t line mac
    let d1 := exec (CC1352P7.step p) d0 before
    let d2 := exec (CC1352P7.step p) d0 (before ++ .disconnect :: after)
    d1.isIdle = false →
    (∀ a b, after = a ++ b → (exec (CC1352P7.step p) d0 (before ++ .disconnect :: a)).isIdle = false) →
      ∃ new, d2.trace = d1.trace ++ .apiDisconnect :: new ∧
        (2 ≤ times b!"AT+CIPSTART" new → ∃ w ∈ [b!"AT+CIPCLOSE"], ∃ g, .cmd w g ∈ new) := by
  intro d0 d1 d2 h1 h2
  have hv : CC1352P7.Inv d0 := CC1352P7.inv_init rx tx sched rmem wmem t mac hl
  have hs : CC1352P7.step p d1 .disconnect =
      ({ d1 with disconnectPending := true } : CC1352P7.D).log .apiDisconnect := by
    simp [CC1352P7.step, Dev.common, Dev.disconnect, h1]
  have e : ∀ a, exec (CC1352P7.step p) d0 (before ++ .disconnect :: a) =
      exec (CC1352P7.step p) (CC1352P7.step p d1 .disconnect) a := fun a => by rw [exec_append]; rfl
  have h3 := CC1352P7.quit_exec p (d1.trace ++ [.apiDisconnect]) after (d := CC1352P7.step p d1 .disconnect)
    (CC1352P7.step_inv p .disconnect (CC1352P7.inv_exec p hv before))
    (by rw [hs]; exact Quits.start rfl) ho fun a b hab _ => by rw [← e]; exact h2 a b hab
  rw [← e] at h3
  obtain ⟨new, h4, h5⟩ := h3.result
  refine ⟨new, by rw [h4]; simp, fun h => anyOf_cmd (h5 h)⟩

/-- C46, Espressif: if no connection is asked for after the request to disconnect, and none was asked for
in advance, then at most one more connection is opened, ever. -/
theorem C46_espressif_stays (p : Platform) (rx tx : List Byte) (sched : List (List Hw)) (rmem wmem : List Byte)
    (t : ConnType) (line mac : List Byte) (ssid passwd : CPtr) (hl : line.length = lineMax + 1)
    (before after : List Op) (ho : Op.connect ∉ after) :
    let d0 := Espressif.init (Ser.init rx tx sched) rmem wmem t line mac ssid passwd
    let d1 := exec (Espressif.step p) d0 before
    let d2 := exec (Espressif.step p) d0 (before ++ .disconnect :: after)
    d1.isIdle = false → d1.connectPending = false →
      ∃ new, d2.trace = d1.trace ++ .apiDisconnect :: new ∧ times b!"AT+CIPSTART" new ≤ 1 := by
  intro d0 d1 d2 h1 h2
  have hv : Espressif.Inv d0 := Espressif.inv_init rx tx sched rmem wmem t mac ssid passwd hl
  have hs : Espressif.step p d1 .disconnect =
      ({ d1 with disconnectPending := true } : Espressif.D).log .apiDisconnect := by
    simp [Espressif.step, Dev.common, Dev.disconnect, h1]
  have e : d2 = exec (Espressif.step p) (Espressif.step p d1 .disconnect) after := by
    show exec _ _ _ = _
    rw [exec_append]; rfl
  have h3 := Espressif.stay_exec p (d1.trace ++ [.apiDisconnect]) (d := Espressif.step p d1 .disconnect)
    (Espressif.step_inv p .disconnect (Espressif.inv_exec p hv before))
    (by rw [hs]; exact ⟨h2, Quits.start rfl⟩) after ho
  rw [← e] at h3
  obtain ⟨new, h4, h5⟩ := h3.2.result
  refine ⟨new, by rw [h4]; simp, ?_⟩
  refine Classical.byContradiction fun hx => ?_
  have := h5 (by omega)
  simp [anyOf] at this

/-- The premises are met: a disconnect is asked for while the modem opens the connection. The command to
open it is the only one. -/
def early800 : List Op := (up800 .tcp).take 34

example : (exec (Sim800.step arm) sim800 early800).isIdle = false := by decide +kernel

/-- The driver is never idle, and closes after it has opened the connection. -/
example : let after := (up800 .tcp).drop 34
    (∀ k < after.length + 1,
      (exec (Sim800.step arm) sim800 (early800 ++ .disconnect :: after.take k)).isIdle = false) ∧
    times b!"AT+CIPSTART" (exec (Sim800.step arm) sim800 (early800 ++ .disconnect :: after)).trace = 1 ∧
    times b!"AT+CIPSHUT" (exec (Sim800.step arm) sim800 (early800 ++ .disconnect :: after)).trace = 1 := by
  decide +kernel

example : let before := (upEsp .tcp).take 11
    let after := (upEsp .tcp).drop 11 ++ [.run true, .run true] ++ talk b!"OK\r\n"
    (exec (Espressif.step arm) espressif before).isIdle = false ∧
    (exec (Espressif.step arm) espressif before).connectPending = false ∧
    (∀ k < after.length + 1,
      (exec (Espressif.step arm) espressif (before ++ .disconnect :: after.take k)).isIdle = false) ∧
    times b!"AT+CIPSTART" (exec (Espressif.step arm) espressif (before ++ .disconnect :: after)).trace = 1 ∧
    times b!"AT+CIPCLOSE" (exec (Espressif.step arm) espressif (before ++ .disconnect :: after)).trace = 1 := by
  decide +kernel

example : let before := (upCC .tcp).take 6
    let after := (upCC .tcp).drop 6 ++ [.run true, .run true]
    (exec (CC1352P7.step arm) cc1352p7 before).isIdle = false ∧
    (∀ k < after.length + 1,
      (exec (CC1352P7.step arm) cc1352p7 (before ++ .disconnect :: after.take k)).isIdle = false) ∧
    times b!"AT+CIPSTART" (exec (CC1352P7.step arm) cc1352p7 (before ++ .disconnect :: after)).trace = 1 ∧
    times b!"AT+CIPCLOSE" (exec (CC1352P7.step arm) cc1352p7 (before ++ .disconnect :: after)).trace = 1 := by
  decide +kernel

/-- The SIM7x00 driver has sent the command to open a connection. -/
def opening7x00 : List Op := (up7x00 .tcp).take ((up7x00 .tcp).length - 4)

/-- The modem answers with an error, restarts and answers normally. -/
def afterError7x00 : List Op := talk b!"ERROR\r\n" ++ talk b!"RDY\r\n" ++ (up7x00 .tcp).drop 6

/-- C46 is violated by the SIM7x00 driver: an error message erases the request. The driver opens a second
connection, ends up connected, was never idle and never closed anything. -/
theorem C46_sim7x00_forgotten : ∃ (before after : List Op) (new : List Ev),
    let d1 := exec (Sim7x00.step arm) sim7x00 before
    let d2 := exec (Sim7x00.step arm) sim7x00 (before ++ .disconnect :: after)
    d1.isIdle = false ∧ Op.connect ∉ after ∧ Op.resetStates ∉ after ∧
    (∀ a b, after = a ++ b → (exec (Sim7x00.step arm) sim7x00 (before ++ .disconnect :: a)).isIdle = false) ∧
    d2.trace = d1.trace ++ .apiDisconnect :: new ∧ times b!"AT+CIPOPEN" d1.trace = 1 ∧
    times b!"AT+CIPOPEN" new = 1 ∧ times b!"AT+NETCLOSE" new = 0 ∧ d2.isConnected = true := by
  have hk : ∀ k < afterError7x00.length + 1, (exec (Sim7x00.step arm) sim7x00
      (opening7x00 ++ .disconnect :: afterError7x00.take k)).isIdle = false := by decide +kernel
  refine ⟨opening7x00, afterError7x00, (exec (Sim7x00.step arm) sim7x00
    (opening7x00 ++ .disconnect :: afterError7x00)).trace.drop
      ((exec (Sim7x00.step arm) sim7x00 opening7x00).trace.length + 1), ?_⟩
  refine ⟨by decide +kernel, by decide +kernel, by decide +kernel, fun a b hab => ?_, by decide +kernel,
    by decide +kernel, by decide +kernel, by decide +kernel, by decide +kernel⟩
  have := hk a.length (by rw [hab]; simp; omega)
  rw [show afterError7x00.take a.length = a by rw [hab]; simp] at this
  exact this

/-- An error while the SIM800 driver closes makes it connect again, without a call of `connect()`. -/
theorem C46_sim800_again : ∃ before after : List Op,
    let d1 := exec (Sim800.step arm) sim800 before
    let d2 := exec (Sim800.step arm) sim800 (before ++ .disconnect :: after)
    d1.isConnected = true ∧ Op.connect ∉ after ∧ d1.connectPending = false ∧
    times b!"AT+CIPSTART" d1.trace = 1 ∧ times b!"AT+CIPSTART" d2.trace = 2 ∧ d2.isConnected = true :=
  ⟨up800 .tcp, [.run true, .run true] ++ talk b!"ERROR\r\n" ++ talk b!"SHUT OK\r\n" ++ [.run true, .run true] ++
    (up800 .tcp).drop 6, by decide +kernel⟩

/-- The same for the CC1352P7 driver. -/
theorem C46_cc1352p7_again : ∃ before after : List Op,
    let d1 := exec (CC1352P7.step arm) cc1352p7 before
    let d2 := exec (CC1352P7.step arm) cc1352p7 (before ++ .disconnect :: after)
    d1.isConnected = true ∧ Op.connect ∉ after ∧ d1.connectPending = false ∧
    times b!"AT+CIPSTART" d1.trace = 1 ∧ times b!"AT+CIPSTART" d2.trace = 2 ∧ d2.isConnected = true :=
  ⟨upCC .tcp, [.run true, .run true] ++ talk b!"ERROR\r\n" ++ talk b!"OK\r\n" ++ [.run true, .run true] ++
    (upCC .tcp).drop 5, by decide +kernel⟩

end Verif.Props.Quit
