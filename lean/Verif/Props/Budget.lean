import Verif.Lemmas.BudgetSim7x00
import Verif.Lemmas.BudgetSim800
import Verif.Lemmas.BudgetEspressif
import Verif.Lemmas.BudgetCC1352P7
import Verif.Spec.Sessions

/-!
# C79: no more connections are opened than were asked for

`openings`, `requests` and `refusals` (`Spec/Budget.lean`) count events in the trace of a history: commands that open a
connection, successful calls of `connect()`, lines by which the modem reports a failure.
-/

namespace Verif.Props.Budget

open Verif.Spec

/-! ## SIM7x00 -/

/-- **C79**, SIM7x00: a command that opens a connection is sent at most once for every successful call of `connect()` and
every failure the modem reports. -/
theorem C79_sim7x00_openings (p : Platform) (rx tx : List Byte) (sched : List (List Hw))
    (rmem wmem : List Byte) (t : ConnType) (line ip id : List Byte) (hl : line.length = 61)
    (ops : List Op) :
    let d := exec (Sim7x00.step p) (Sim7x00.init (Ser.init rx tx sched) rmem wmem t line ip id) ops
    openings b!"AT+CIPOPEN" d.trace ≤ requests d.trace + refusals bad7x00 d.trace := by
  intro d
  have h : Sim7x00.Budget d := Sim7x00.exec_stages (Sim7x00.budget_sections p) Sim7x00.budget_calls Sim7x00.budget_own
    (Sim7x00.inv_init rx tx sched rmem wmem t ip id hl) ⟨Int.le_refl 0, by intro hx; simp [Sim7x00.init, SimDev.init, SimDev.resetStates] at hx⟩ ops
  have h1 := Sim7x00.due_nonneg d
  have h2 : Sim7x00.due d ≤ Sim7x00.balance.after d.trace := h.le
  rw [tally_eq] at h2
  omega

/-- One connection after one call; two after the server refuses the connection. -/
example :
    let d := exec (Sim7x00.step Sess.arm) Sess.sim7x00 (Sess.up7x00 .tcp)
    let e := exec (Sim7x00.step Sess.arm) Sess.sim7x00 ((Sess.up7x00 .tcp).take 38 ++ Sess.say b!"+CIPOPEN: 0,1\r\n" ++ [.run true, .run true] ++ Sess.talk b!"RDY\r\n" ++ (Sess.up7x00 .tcp).drop 4)
    (openings b!"AT+CIPOPEN" d.trace, requests d.trace, refusals bad7x00 d.trace, d.isConnected) = (1, 1, 0, true) ∧
    (openings b!"AT+CIPOPEN" e.trace, requests e.trace, refusals bad7x00 e.trace, e.isConnected) = (2, 1, 1, true) := by
  decide +kernel

/-- **C79**, SIM7x00: `connect()` while connected is a request for another connection. After `connect()` and
`disconnect()` the driver closes the connection and then opens another one. -/
theorem C79_sim7x00_twice :
    let e := exec (Sim7x00.step Sess.arm) Sess.sim7x00 (Sess.up7x00 .tcp ++ [.connect, .disconnect, .run true, .run true] ++
      Sess.talk b!"+NETCLOSE: 0\r\n" ++ (Sess.up7x00 .tcp).drop 4)
    (exec (Sim7x00.step Sess.arm) Sess.sim7x00 (Sess.up7x00 .tcp)).isConnected = true ∧
    openings b!"AT+CIPOPEN" e.trace = 2 ∧ e.isConnected = true := by
  decide +kernel

/-- **C79**, SIM7x00: `disconnect()` right after the first `connect()` has no effect, the connection is opened. -/
theorem C79_sim7x00_revoked :
    let e := exec (Sim7x00.step Sess.arm) Sess.sim7x00 ((Sess.up7x00 .tcp).take 4 ++ [.disconnect] ++ (Sess.up7x00 .tcp).drop 4)
    openings b!"AT+CIPOPEN" e.trace = 1 ∧ e.isConnected = true := by
  decide +kernel

/-! ## SIM800 -/

/-- **C79**, SIM800: a command that opens a connection is sent at most once for every successful call of `connect()` and
every failure the modem reports. -/
theorem C79_sim800_openings (p : Platform) (rx tx : List Byte) (sched : List (List Hw))
    (rmem wmem : List Byte) (t : ConnType) (line ip id : List Byte) (hl : line.length = 61)
    (ops : List Op) :
    let d := exec (Sim800.step p) (Sim800.init (Ser.init rx tx sched) rmem wmem t line ip id) ops
    openings b!"AT+CIPSTART" d.trace ≤ requests d.trace + refusals bad800 d.trace := by
  intro d
  have h : Sim800.Budget d := Sim800.exec_stages (Sim800.budget_sections p) Sim800.budget_calls Sim800.budget_own
    (Sim800.inv_init rx tx sched rmem wmem t ip id hl) (Int.le_refl 0) ops
  have h1 := Sim800.due_nonneg d
  have h2 : Sim800.due d ≤ Sim800.balance.after d.trace := h
  rw [tally_eq] at h2
  omega

/-- One connection after one call; two after the modem reports an error. -/
example :
    let d := exec (Sim800.step Sess.arm) Sess.sim800 (Sess.up800 .tcp)
    let e := exec (Sim800.step Sess.arm) Sess.sim800 (Sess.up800 .tcp ++ Sess.say b!"ERROR\r\n" ++ [.run true, .run true] ++ Sess.talk b!"SHUT OK\r\n" ++ (Sess.up800 .tcp).drop 4)
    (openings b!"AT+CIPSTART" d.trace, requests d.trace, refusals bad800 d.trace, d.isConnected) = (1, 1, 0, true) ∧
    (openings b!"AT+CIPSTART" e.trace, requests e.trace, refusals bad800 e.trace, e.isConnected) = (2, 1, 1, true) := by
  decide +kernel

/-- **C79**, SIM800: `connect()` while connected is a request for another connection. After `connect()` and
`disconnect()` the driver closes the connection and then opens another one. -/
theorem C79_sim800_twice :
    let e := exec (Sim800.step Sess.arm) Sess.sim800 (Sess.up800 .tcp ++ [.connect, .disconnect, .run true, .run true] ++
      Sess.talk b!"0, CLOSE OK\r\n" ++ Sess.talk b!"SHUT OK\r\n" ++ (Sess.up800 .tcp).drop 4)
    (exec (Sim800.step Sess.arm) Sess.sim800 (Sess.up800 .tcp)).isConnected = true ∧
    openings b!"AT+CIPSTART" e.trace = 2 ∧ e.isConnected = true := by
  decide +kernel

/-- **C79**, SIM800: `disconnect()` right after the first `connect()` has no effect, the connection is opened. -/
theorem C79_sim800_revoked :
    let e := exec (Sim800.step Sess.arm) Sess.sim800 ((Sess.up800 .tcp).take 4 ++ [.disconnect] ++ (Sess.up800 .tcp).drop 4)
    openings b!"AT+CIPSTART" e.trace = 1 ∧ e.isConnected = true := by
  decide +kernel

/-! ## Espressif -/

/-- **C79**, Espressif: a command that opens a connection is sent at most once for every successful call of `connect()` and
every failure the modem reports. -/
theorem C79_espressif_openings (p : Platform) (rx tx : List Byte) (sched : List (List Hw))
    (rmem wmem : List Byte) (t : ConnType) (line mac : List Byte)
    (ssid passwd : CPtr) (hl : line.length = 61)
    (ops : List Op) :
    let d := exec (Espressif.step p) (Espressif.init (Ser.init rx tx sched) rmem wmem t line mac ssid passwd) ops
    openings b!"AT+CIPSTART" d.trace ≤ requests d.trace + refusals badEsp d.trace := by
  intro d
  have h : Espressif.Budget d := Espressif.exec_stages (Espressif.budget_sections p) Espressif.budget_calls Espressif.budget_own
    (Espressif.inv_init rx tx sched rmem wmem t mac ssid passwd hl) (Int.le_refl 0) ops
  have h1 := Espressif.due_nonneg d
  have h2 : Espressif.due d ≤ Espressif.balance.after d.trace := h
  rw [tally_eq] at h2
  omega

/-- One connection after one call; two after the modem reports an error. -/
example :
    let d := exec (Espressif.step Sess.arm) Sess.espressif (Sess.upEsp .tcp)
    let e := exec (Espressif.step Sess.arm) Sess.espressif (Sess.upEsp .tcp ++ Sess.say b!"ERROR\r\n" ++ [.run true, .run true] ++ Sess.talk b!"ready\r\n" ++ (Sess.upEsp .tcp).drop 5)
    (openings b!"AT+CIPSTART" d.trace, requests d.trace, refusals badEsp d.trace, d.isConnected) = (1, 1, 0, true) ∧
    (openings b!"AT+CIPSTART" e.trace, requests e.trace, refusals badEsp e.trace, e.isConnected) = (2, 1, 1, true) := by
  decide +kernel

/-- **C79**, Espressif: `connect()` while connected is a request for another connection. After `connect()` and
`disconnect()` the driver closes the connection and then opens another one. -/
theorem C79_espressif_twice :
    let e := exec (Espressif.step Sess.arm) Sess.espressif (Sess.upEsp .tcp ++ [.connect, .disconnect, .run true, .run true] ++
      Sess.talk b!"OK\r\n" ++ Sess.talk b!"WIFI DISCONNECT\r\n" ++ (Sess.upEsp .tcp).drop 5)
    (exec (Espressif.step Sess.arm) Sess.espressif (Sess.upEsp .tcp)).isConnected = true ∧
    openings b!"AT+CIPSTART" e.trace = 2 ∧ e.isConnected = true := by
  decide +kernel

/-- **C79**, Espressif: `disconnect()` right after the first `connect()` has no effect, the connection is opened. -/
theorem C79_espressif_revoked :
    let e := exec (Espressif.step Sess.arm) Sess.espressif ((Sess.upEsp .tcp).take 5 ++ [.disconnect] ++ (Sess.upEsp .tcp).drop 5)
    openings b!"AT+CIPSTART" e.trace = 1 ∧ e.isConnected = true := by
  decide +kernel

/-! ## CC1352P7 -/

/-- **C79**, CC1352P7: a command that opens a connection is sent at most once for every successful call of `connect()` and
every failure the modem reports. -/
theorem C79_cc1352p7_openings (p : Platform) (rx tx : List Byte) (sched : List (List Hw))
    (rmem wmem : List Byte) (t : ConnType) (line mac : List Byte) (hl : line.length = 61)
    (ops : List Op) :
    let d := exec (CC1352P7.step p) (CC1352P7.init (Ser.init rx tx sched) rmem wmem t line mac) ops
    openings b!"AT+CIPSTART" d.trace ≤ requests d.trace + refusals badCC d.trace := by
  intro d
  have h : CC1352P7.Budget d := CC1352P7.exec_stages (CC1352P7.budget_sections p) CC1352P7.budget_calls CC1352P7.budget_own
    (CC1352P7.inv_init rx tx sched rmem wmem t mac hl) (Int.le_refl 0) ops
  have h1 := CC1352P7.due_nonneg d
  have h2 : CC1352P7.due d ≤ CC1352P7.balance.after d.trace := h
  rw [tally_eq] at h2
  omega

/-- One connection after one call; two after the modem reports an error. -/
example :
    let d := exec (CC1352P7.step Sess.arm) Sess.cc1352p7 (Sess.upCC .tcp)
    let e := exec (CC1352P7.step Sess.arm) Sess.cc1352p7 (Sess.upCC .tcp ++ Sess.say b!"ERROR\r\n" ++ [.run true, .run true] ++ Sess.talk b!"OK\r\n" ++ (Sess.upCC .tcp).drop 3)
    (openings b!"AT+CIPSTART" d.trace, requests d.trace, refusals badCC d.trace, d.isConnected) = (1, 1, 0, true) ∧
    (openings b!"AT+CIPSTART" e.trace, requests e.trace, refusals badCC e.trace, e.isConnected) = (2, 1, 1, true) := by
  decide +kernel

/-- **C79**, CC1352P7: `connect()` while connected is a request for another connection. After `connect()` and
`disconnect()` the driver closes the connection and then opens another one. -/
theorem C79_cc1352p7_twice :
    let e := exec (CC1352P7.step Sess.arm) Sess.cc1352p7 (Sess.upCC .tcp ++ [.connect, .disconnect, .run true, .run true] ++
      Sess.talk b!"OK\r\n" ++ (Sess.upCC .tcp).drop 3)
    (exec (CC1352P7.step Sess.arm) Sess.cc1352p7 (Sess.upCC .tcp)).isConnected = true ∧
    openings b!"AT+CIPSTART" e.trace = 2 ∧ e.isConnected = true := by
  decide +kernel

/-- **C79**, CC1352P7: `disconnect()` right after the first `connect()` has no effect, the connection is opened. -/
theorem C79_cc1352p7_revoked :
    let e := exec (CC1352P7.step Sess.arm) Sess.cc1352p7 ((Sess.upCC .tcp).take 3 ++ [.disconnect] ++ (Sess.upCC .tcp).drop 3)
    openings b!"AT+CIPSTART" e.trace = 1 ∧ e.isConnected = true := by
  decide +kernel

end Verif.Props.Budget
