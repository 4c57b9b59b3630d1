import Verif.Spec.Sessions
import Verif.Spec.Receiving

/-!
# C57, C58: what a connection leaves behind

Neither the count of announced bytes nor a pending request to disconnect is cleared when a connection ends.
-/

namespace Verif.Props.Stale

open Verif Dev Spec

/-- The trace `t` ends with a connect request, then events `mid`, then a request `w` for the number of bytes
with the digits `n`. -/
def AskedAfter (w n : List Byte) (mid t : List Ev) : Prop :=
  ∃ pre, t = pre ++ .apiConnect :: (mid ++ [.cmd w w, .arg n n, .arg b!"\r\n" b!"\r\n"])

/-- Lines in `t` that start with `s`. -/
def linesWith (s : List Byte) (t : List Ev) : List (List Byte) :=
  t.filterMap fun e => match e with
    | .line l => if s.isPrefixOf l then some l else none
    | _ => none

/-- Position of the last connect request. -/
def lastConnect (t : List Ev) : Nat := t.length - 1 - t.reverse.idxOf .apiConnect

/-! ## C57: the driver asks for data that were announced on an earlier connection -/

/-- Five bytes are announced, the application disconnects, the modem confirms; on the next connection two
bytes are announced. -/
def staleSim (up down : List Op) : List Op :=
  up ++ Sess.talk b!"+CIPRXGET: 1,0\r\n" ++ [.disconnect] ++ Sess.talk b!"+CIPRXGET: 4,0,5\r\nOK\r\n" ++
  down.drop 1 ++ up ++ Sess.talk b!"+CIPRXGET: 1,0\r\n" ++ Sess.talk b!"+CIPRXGET: 4,0,2\r\nOK\r\n"

/-- Five bytes are announced while the connection is being closed; on the next connection nothing is
announced. -/
def staleWifi (up down : List Op) : List Op :=
  up ++ [.disconnect, .run true, .run true] ++ Sess.say b!"+IPD,5\r\n" ++ down.drop 3 ++ up ++ [.run true]

/-- Two bytes are announced on the connection, the driver asks for seven. -/
theorem C57_sim7x00_stale : ∃ ops mid,
    let t := (exec (Sim7x00.step Sess.arm) Sess.sim7x00 ops).trace
    AskedAfter requestSim b!"7" mid t ∧ linesWith b!"+CIPRXGET: 4,0," mid = [b!"+CIPRXGET: 4,0,2\r\n"] ∧ .apiDisconnect ∉ mid :=
  let t := (exec (Sim7x00.step Sess.arm) Sess.sim7x00 (staleSim (Sess.up7x00 .tcp) Sess.down7x00)).trace
  ⟨staleSim (Sess.up7x00 .tcp) Sess.down7x00, (t.take (t.length - 3)).drop (lastConnect t + 1),
    ⟨t.take (lastConnect t), by decide +kernel⟩, by decide +kernel, by decide +kernel⟩

/-- Two bytes are announced on the connection, the driver asks for seven. -/
theorem C57_sim800_stale : ∃ ops mid,
    let t := (exec (Sim800.step Sess.arm) Sess.sim800 ops).trace
    AskedAfter requestSim b!"7" mid t ∧ linesWith b!"+CIPRXGET: 4,0," mid = [b!"+CIPRXGET: 4,0,2\r\n"] ∧ .apiDisconnect ∉ mid :=
  let t := (exec (Sim800.step Sess.arm) Sess.sim800 (staleSim (Sess.up800 .tcp) Sess.down800)).trace
  ⟨staleSim (Sess.up800 .tcp) Sess.down800, (t.take (t.length - 3)).drop (lastConnect t + 1),
    ⟨t.take (lastConnect t), by decide +kernel⟩, by decide +kernel, by decide +kernel⟩

/-- Nothing is announced on the connection, the driver asks for five bytes. -/
theorem C57_espressif_stale : ∃ ops mid,
    let t := (exec (Espressif.step Sess.arm) Sess.espressif ops).trace
    AskedAfter requestWifi b!"5" mid t ∧ linesWith b!"+IPD" mid = [] ∧ .apiDisconnect ∉ mid :=
  let t := (exec (Espressif.step Sess.arm) Sess.espressif (staleWifi (Sess.upEsp .tcp) Sess.downEsp)).trace
  ⟨staleWifi (Sess.upEsp .tcp) Sess.downEsp, (t.take (t.length - 3)).drop (lastConnect t + 1),
    ⟨t.take (lastConnect t), by decide +kernel⟩, by decide +kernel, by decide +kernel⟩

/-- Nothing is announced on the connection, the driver asks for five bytes. -/
theorem C57_cc1352p7_stale : ∃ ops mid,
    let t := (exec (CC1352P7.step Sess.arm) Sess.cc1352p7 ops).trace
    AskedAfter requestWifi b!"5" mid t ∧ linesWith b!"+IPD" mid = [] ∧ .apiDisconnect ∉ mid :=
  let t := (exec (CC1352P7.step Sess.arm) Sess.cc1352p7 (staleWifi (Sess.upCC .tcp) Sess.downCC)).trace
  ⟨staleWifi (Sess.upCC .tcp) Sess.downCC, (t.take (t.length - 3)).drop (lastConnect t + 1),
    ⟨t.take (lastConnect t), by decide +kernel⟩, by decide +kernel, by decide +kernel⟩

/-! ## C58: a repeated disconnect() aborts the next connection -/

/-- The application disconnects, calls `disconnect()` again while the connection is being closed, and connects
again. -/
def again (up down : List Op) : List Op := up ++ [.disconnect, .run true] ++ down ++ up ++ [.run true]

/-- All answers are positive, but the driver does not even try to open the connection and is idle again. -/
theorem C58_sim7x00_aborted : ∃ ops pre post,
    let d := exec (Sim7x00.step Sess.arm) Sess.sim7x00 ops
    d.trace = pre ++ .apiConnect :: post ∧ .apiDisconnect ∉ post ∧ linesWith b!"ERROR" post = [] ∧
    linesWith b!"OK" post ≠ [] ∧ .cmd b!"AT+CIPOPEN" b!"AT+CIPOPEN" ∉ post ∧ d.isIdle = true :=
  let t := (exec (Sim7x00.step Sess.arm) Sess.sim7x00 (again (Sess.up7x00 .tcp) Sess.down7x00)).trace
  ⟨again (Sess.up7x00 .tcp) Sess.down7x00, t.take (lastConnect t), t.drop (lastConnect t + 1),
    by decide +kernel, by decide +kernel, by decide +kernel, by decide +kernel, by decide +kernel, by decide +kernel⟩

/-- All answers are positive and the application does not disconnect, but the driver closes the connection. -/
theorem C58_sim800_aborted : ∃ ops pre post,
    let d := exec (Sim800.step Sess.arm) Sess.sim800 ops
    d.trace = pre ++ .apiConnect :: post ∧ .apiDisconnect ∉ post ∧ linesWith b!"ERROR" post = [] ∧
    linesWith b!"OK" post ≠ [] ∧ .cmd b!"AT+CIPSHUT" b!"AT+CIPSHUT" ∈ post :=
  let t := (exec (Sim800.step Sess.arm) Sess.sim800 (again (Sess.up800 .tcp) Sess.down800)).trace
  ⟨again (Sess.up800 .tcp) Sess.down800, t.take (lastConnect t), t.drop (lastConnect t + 1),
    by decide +kernel, by decide +kernel, by decide +kernel, by decide +kernel, by decide +kernel⟩

/-- All answers are positive and the application does not disconnect, but the driver closes the connection. -/
theorem C58_espressif_aborted : ∃ ops pre post,
    let d := exec (Espressif.step Sess.arm) Sess.espressif ops
    d.trace = pre ++ .apiConnect :: post ∧ .apiDisconnect ∉ post ∧ linesWith b!"ERROR" post = [] ∧
    linesWith b!"OK" post ≠ [] ∧ .cmd b!"AT+CIPCLOSE" b!"AT+CIPCLOSE" ∈ post :=
  let t := (exec (Espressif.step Sess.arm) Sess.espressif (again (Sess.upEsp .tcp) Sess.downEsp)).trace
  ⟨again (Sess.upEsp .tcp) Sess.downEsp, t.take (lastConnect t), t.drop (lastConnect t + 1),
    by decide +kernel, by decide +kernel, by decide +kernel, by decide +kernel, by decide +kernel⟩

/-- All answers are positive and the application does not disconnect, but the driver closes the connection. -/
theorem C58_cc1352p7_aborted : ∃ ops pre post,
    let d := exec (CC1352P7.step Sess.arm) Sess.cc1352p7 ops
    d.trace = pre ++ .apiConnect :: post ∧ .apiDisconnect ∉ post ∧ linesWith b!"ERROR" post = [] ∧
    linesWith b!"OK" post ≠ [] ∧ .cmd b!"AT+CIPCLOSE" b!"AT+CIPCLOSE" ∈ post :=
  let t := (exec (CC1352P7.step Sess.arm) Sess.cc1352p7 (again (Sess.upCC .tcp) Sess.downCC)).trace
  ⟨again (Sess.upCC .tcp) Sess.downCC, t.take (lastConnect t), t.drop (lastConnect t + 1),
    by decide +kernel, by decide +kernel, by decide +kernel, by decide +kernel, by decide +kernel⟩

end Verif.Props.Stale
