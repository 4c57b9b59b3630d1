import Verif.Spec.Closing
import Verif.Spec.Sessions
import Verif.Lemmas.Dry
import Verif.Props.Payload

/-!
# C65, C66: what becomes of data that are not sent when the connection ends
-/

namespace Verif.Props.Closing

open Verif Dev Spec

/-! ## C65: a request to disconnect waits until the accepted data are sent -/

/-- In all histories of the Sim7x00 driver: a call of `run()` which takes up a request to disconnect, made while the
connection is open, finds the write buffer empty. -/
theorem C65_sim7x00 (p : Platform) (rx tx : List Byte) (sched : List (List Hw))
    (rmem wmem : List Byte) (t : ConnType) (line ip id : List Byte) (hl : line.length = 61)
    (ops : List Op) (ok : Bool) :
    let d := exec (Sim7x00.step p) (Sim7x00.init (Ser.init rx tx sched) rmem wmem t line ip id) ops
    d.isConnected = true → d.disconnectPending = true → (Sim7x00.run p d ok).disconnectPending = false →
    d.wbuf.bytesAvailable = 0 := by
  intro d hc h1 h2
  have hl' : Sim7x00.LinkInv d := Sim7x00.exec_stages (Sim7x00.linkInv_sections p) Sim7x00.linkInv_calls Sim7x00.linkInv_own
    (Sim7x00.inv_init rx tx sched rmem wmem t ip id hl) (.of_down rfl rfl (by simp [Sim7x00.init, SimDev.init, SimDev.resetStates]) (by simp [Sim7x00.init, SimDev.init, SimDev.resetStates])) ops
  have hd : Sim7x00.Dry d := Sim7x00.exec_stages (Sim7x00.dry_sections p) dry_calls Sim7x00.dry_own
    (Sim7x00.inv_init rx tx sched rmem wmem t ip id hl) (.leave rfl rfl) ops
  exact Sim7x00.taken p hl' hd ok hc h1 h2

/-- If at most one byte leaves the transmit buffer between two accesses of the driver to it, everything that `write()`
accepted was sent by then. -/
theorem C65_sim7x00_sent (p : Platform) (rx tx : List Byte) (sched : List (List Hw))
    (hs : ∀ b ∈ sched, (b.filter (·.txOk)).length ≤ 1)
    (rmem wmem : List Byte) (t : ConnType) (line ip id : List Byte) (hl : line.length = 61)
    (ops : List Op) (ok : Bool) :
    let d := exec (Sim7x00.step p) (Sim7x00.init (Ser.init rx tx sched) rmem wmem t line ip id) ops
    d.isConnected = true → d.disconnectPending = true → (Sim7x00.run p d ok).disconnectPending = false →
    paid.after d.trace = written.after d.trace := by
  intro d hc h1 h2
  have ha := C65_sim7x00 p rx tx sched rmem wmem t line ip id hl ops ok hc h1 h2
  obtain ⟨q, hq, he⟩ := Payload.C34_sim7x00 p rx tx sched hs rmem wmem t line ip id hl ops
  have h0 : q.length = 0 := hq.bytesAvailable.symm.trans ha
  rw [List.length_eq_zero_iff] at h0
  subst h0
  exact (he.trans (List.append_nil _)).symm

/-- In all histories of the Sim800 driver: a call of `run()` which takes up a request to disconnect, made while the
connection is open, finds the write buffer empty. -/
theorem C65_sim800 (p : Platform) (rx tx : List Byte) (sched : List (List Hw))
    (rmem wmem : List Byte) (t : ConnType) (line ip id : List Byte) (hl : line.length = 61)
    (ops : List Op) (ok : Bool) :
    let d := exec (Sim800.step p) (Sim800.init (Ser.init rx tx sched) rmem wmem t line ip id) ops
    d.isConnected = true → d.disconnectPending = true → (Sim800.run p d ok).disconnectPending = false →
    d.wbuf.bytesAvailable = 0 := by
  intro d hc h1 h2
  have hl' : Sim800.LinkInv d := Sim800.exec_stages (Sim800.linkInv_sections p) Sim800.linkInv_calls Sim800.linkInv_own
    (Sim800.inv_init rx tx sched rmem wmem t ip id hl) (.of_down rfl rfl (by simp [Sim800.init, SimDev.init, SimDev.resetStates]) (by simp [Sim800.init, SimDev.init, SimDev.resetStates])) ops
  have hd : Sim800.Dry d := Sim800.exec_stages (Sim800.dry_sections p) dry_calls Sim800.dry_own
    (Sim800.inv_init rx tx sched rmem wmem t ip id hl) (.leave rfl rfl) ops
  exact Sim800.taken p hl' hd ok hc h1 h2

/-- If at most one byte leaves the transmit buffer between two accesses of the driver to it, everything that `write()`
accepted was sent by then. -/
theorem C65_sim800_sent (p : Platform) (rx tx : List Byte) (sched : List (List Hw))
    (hs : ∀ b ∈ sched, (b.filter (·.txOk)).length ≤ 1)
    (rmem wmem : List Byte) (t : ConnType) (line ip id : List Byte) (hl : line.length = 61)
    (ops : List Op) (ok : Bool) :
    let d := exec (Sim800.step p) (Sim800.init (Ser.init rx tx sched) rmem wmem t line ip id) ops
    d.isConnected = true → d.disconnectPending = true → (Sim800.run p d ok).disconnectPending = false →
    paid.after d.trace = written.after d.trace := by
  intro d hc h1 h2
  have ha := C65_sim800 p rx tx sched rmem wmem t line ip id hl ops ok hc h1 h2
  obtain ⟨q, hq, he⟩ := Payload.C34_sim800 p rx tx sched hs rmem wmem t line ip id hl ops
  have h0 : q.length = 0 := hq.bytesAvailable.symm.trans ha
  rw [List.length_eq_zero_iff] at h0
  subst h0
  exact (he.trans (List.append_nil _)).symm

/-- In all histories of the Espressif driver: a call of `run()` which takes up a request to disconnect, made while the
connection is open, finds the write buffer empty. -/
theorem C65_espressif (p : Platform) (rx tx : List Byte) (sched : List (List Hw))
    (rmem wmem : List Byte) (t : ConnType) (line mac : List Byte) (ssid passwd : CPtr)
    (hl : line.length = 61)
    (ops : List Op) (ok : Bool) :
    let d := exec (Espressif.step p) (Espressif.init (Ser.init rx tx sched) rmem wmem t line mac ssid passwd) ops
    d.isConnected = true → d.disconnectPending = true → (Espressif.run p d ok).disconnectPending = false →
    d.wbuf.bytesAvailable = 0 := by
  intro d hc h1 h2
  have hl' : Espressif.LinkInv d := Espressif.exec_stages (Espressif.linkInv_sections p) Espressif.linkInv_calls Espressif.linkInv_own
    (Espressif.inv_init rx tx sched rmem wmem t mac ssid passwd hl) (.of_down rfl rfl (by simp [Espressif.init, Espressif.resetStates]) (by simp [Espressif.init, Espressif.resetStates]) (by simp [Espressif.init, Espressif.resetStates])) ops
  have hd : Espressif.Dry d := Espressif.exec_stages (Espressif.dry_sections p) dry_calls Espressif.dry_own
    (Espressif.inv_init rx tx sched rmem wmem t mac ssid passwd hl) (.leave rfl rfl) ops
  exact Espressif.taken p hl' hd ok hc h1 h2

/-- If at most one byte leaves the transmit buffer between two accesses of the driver to it, everything that `write()`
accepted was sent by then. -/
theorem C65_espressif_sent (p : Platform) (rx tx : List Byte) (sched : List (List Hw))
    (hs : ∀ b ∈ sched, (b.filter (·.txOk)).length ≤ 1)
    (rmem wmem : List Byte) (t : ConnType) (line mac : List Byte) (ssid passwd : CPtr)
    (hl : line.length = 61)
    (ops : List Op) (ok : Bool) :
    let d := exec (Espressif.step p) (Espressif.init (Ser.init rx tx sched) rmem wmem t line mac ssid passwd) ops
    d.isConnected = true → d.disconnectPending = true → (Espressif.run p d ok).disconnectPending = false →
    paid.after d.trace = written.after d.trace := by
  intro d hc h1 h2
  have ha := C65_espressif p rx tx sched rmem wmem t line mac ssid passwd hl ops ok hc h1 h2
  obtain ⟨q, hq, he⟩ := Payload.C34_espressif p rx tx sched hs rmem wmem t line mac ssid passwd hl ops
  have h0 : q.length = 0 := hq.bytesAvailable.symm.trans ha
  rw [List.length_eq_zero_iff] at h0
  subst h0
  exact (he.trans (List.append_nil _)).symm

/-- In all histories of the CC1352P7 driver: a call of `run()` which takes up a request to disconnect, made while the
connection is open, finds the write buffer empty. -/
theorem C65_cc1352p7 (p : Platform) (rx tx : List Byte) (sched : List (List Hw))
    (rmem wmem : List Byte) (t : ConnType) (line mac : List Byte) (hl : line.length = 61)
    (ops : List Op) (ok : Bool) :
    let d := exec (CC1352P7.step p) (CC1352P7.init (Ser.init rx tx sched) rmem wmem t line mac) ops
    d.isConnected = true → d.disconnectPending = true → (CC1352P7.run p d ok).disconnectPending = false →
    d.wbuf.bytesAvailable = 0 := by
  intro d hc h1 h2
  have hl' : CC1352P7.LinkInv d := CC1352P7.exec_stages (CC1352P7.linkInv_sections p) CC1352P7.linkInv_calls CC1352P7.linkInv_own
    (CC1352P7.inv_init rx tx sched rmem wmem t mac hl) (.of_down rfl rfl (by simp [CC1352P7.init, CC1352P7.resetStates]) (by simp [CC1352P7.init, CC1352P7.resetStates])) ops
  have hd : CC1352P7.Dry d := CC1352P7.exec_stages (CC1352P7.dry_sections p) dry_calls CC1352P7.dry_own
    (CC1352P7.inv_init rx tx sched rmem wmem t mac hl) (.leave rfl rfl) ops
  exact CC1352P7.taken p hl' hd ok hc h1 h2

/-- If at most one byte leaves the transmit buffer between two accesses of the driver to it, everything that `write()`
accepted was sent by then. -/
theorem C65_cc1352p7_sent (p : Platform) (rx tx : List Byte) (sched : List (List Hw))
    (hs : ∀ b ∈ sched, (b.filter (·.txOk)).length ≤ 1)
    (rmem wmem : List Byte) (t : ConnType) (line mac : List Byte) (hl : line.length = 61)
    (ops : List Op) (ok : Bool) :
    let d := exec (CC1352P7.step p) (CC1352P7.init (Ser.init rx tx sched) rmem wmem t line mac) ops
    d.isConnected = true → d.disconnectPending = true → (CC1352P7.run p d ok).disconnectPending = false →
    paid.after d.trace = written.after d.trace := by
  intro d hc h1 h2
  have ha := C65_cc1352p7 p rx tx sched rmem wmem t line mac hl ops ok hc h1 h2
  obtain ⟨q, hq, he⟩ := Payload.C34_cc1352p7 p rx tx sched hs rmem wmem t line mac hl ops
  have h0 : q.length = 0 := hq.bytesAvailable.symm.trans ha
  rw [List.length_eq_zero_iff] at h0
  subst h0
  exact (he.trans (List.append_nil _)).symm

/-! ### Examples: `write()` and `disconnect()` in a row; the data are sent, then the connection is closed -/

/-- `disconnect()` right after `write()`. -/
def writeThenClose (up : List Op) (ok : List Byte) : List Op :=
  up ++ [.write [1, 2, 3], .disconnect, .run true] ++ Sess.talk b!">" ++ Sess.say ok

example :
    let d := exec (Sim7x00.step Sess.arm) Sess.sim7x00 (Sess.up7x00 .tcp ++ [.write [1, 2, 3], .disconnect])
    let e := exec (Sim7x00.step Sess.arm) Sess.sim7x00 (writeThenClose (Sess.up7x00 .tcp) b!"OK\r\n")
    d.isConnected = true ∧ d.disconnectPending = true ∧ (Sim7x00.run Sess.arm d true).disconnectPending = true ∧
    e.isConnected = true ∧ e.disconnectPending = true ∧ (Sim7x00.run Sess.arm e true).disconnectPending = false ∧
    paid.after e.trace = [1, 2, 3] := by
  decide +kernel

example :
    let d := exec (Sim800.step Sess.arm) Sess.sim800 (Sess.up800 .tcp ++ [.write [1, 2, 3], .disconnect])
    let e := exec (Sim800.step Sess.arm) Sess.sim800 (writeThenClose (Sess.up800 .tcp) b!"0, SEND OK\r\n")
    d.isConnected = true ∧ d.disconnectPending = true ∧ (Sim800.run Sess.arm d true).disconnectPending = true ∧
    e.isConnected = true ∧ e.disconnectPending = true ∧ (Sim800.run Sess.arm e true).disconnectPending = false ∧
    paid.after e.trace = [1, 2, 3] := by
  decide +kernel

example :
    let d := exec (Espressif.step Sess.arm) Sess.espressif (Sess.upEsp .tcp ++ [.write [1, 2, 3], .disconnect])
    let e := exec (Espressif.step Sess.arm) Sess.espressif (writeThenClose (Sess.upEsp .tcp) b!"SEND OK\r\n")
    d.isConnected = true ∧ d.disconnectPending = true ∧ (Espressif.run Sess.arm d true).disconnectPending = true ∧
    e.isConnected = true ∧ e.disconnectPending = true ∧ (Espressif.run Sess.arm e true).disconnectPending = false ∧
    paid.after e.trace = [1, 2, 3] := by
  decide +kernel

example :
    let d := exec (CC1352P7.step Sess.arm) Sess.cc1352p7 (Sess.upCC .tcp ++ [.write [1, 2, 3], .disconnect])
    let e := exec (CC1352P7.step Sess.arm) Sess.cc1352p7 (writeThenClose (Sess.upCC .tcp) b!"OK\r\n")
    d.isConnected = true ∧ d.disconnectPending = true ∧ (CC1352P7.run Sess.arm d true).disconnectPending = true ∧
    e.isConnected = true ∧ e.disconnectPending = true ∧ (CC1352P7.run Sess.arm e true).disconnectPending = false ∧
    paid.after e.trace = [1, 2, 3] := by
  decide +kernel

/-! ### Data accepted after that are not sent

`run()` takes up the request, but leaves the connection state as it is; until the next call of `run()` the device
claims to be connected and `write()` accepts data. -/

/-- `write()` after the request was taken up. -/
def lateWrite (up down : List Op) : List Op := up ++ [.disconnect, .run true, .write [1, 2, 3]] ++ down.drop 2

/-- The device is connected and accepts three bytes; at the end it is idle and nothing was sent. -/
theorem C65_sim7x00_late : ∃ pre post,
    let d := exec (Sim7x00.step Sess.arm) Sess.sim7x00 pre
    let e := exec (Sim7x00.step Sess.arm) Sess.sim7x00 (pre ++ [.write [1, 2, 3]] ++ post)
    d.isConnected = true ∧ (d.write [1, 2, 3]).2 = 3 ∧ e.isIdle = true ∧ written.after e.trace = [1, 2, 3] ∧ paid.after e.trace = [] ∧
    e.trace.drop d.trace.length ≠ [] ∧ .apiReset ∉ e.trace.drop d.trace.length :=
  ⟨Sess.up7x00 .tcp ++ [.disconnect, .run true], Sess.down7x00.drop 2, by decide +kernel⟩

/-- The device is connected and accepts three bytes; at the end it is idle and nothing was sent. -/
theorem C65_sim800_late : ∃ pre post,
    let d := exec (Sim800.step Sess.arm) Sess.sim800 pre
    let e := exec (Sim800.step Sess.arm) Sess.sim800 (pre ++ [.write [1, 2, 3]] ++ post)
    d.isConnected = true ∧ (d.write [1, 2, 3]).2 = 3 ∧ e.isIdle = true ∧ written.after e.trace = [1, 2, 3] ∧ paid.after e.trace = [] ∧
    e.trace.drop d.trace.length ≠ [] ∧ .apiReset ∉ e.trace.drop d.trace.length :=
  ⟨Sess.up800 .tcp ++ [.disconnect, .run true], Sess.down800.drop 2, by decide +kernel⟩

/-- The device is connected and accepts three bytes; at the end it is idle and nothing was sent. -/
theorem C65_espressif_late : ∃ pre post,
    let d := exec (Espressif.step Sess.arm) Sess.espressif pre
    let e := exec (Espressif.step Sess.arm) Sess.espressif (pre ++ [.write [1, 2, 3]] ++ post)
    d.isConnected = true ∧ (d.write [1, 2, 3]).2 = 3 ∧ e.isIdle = true ∧ written.after e.trace = [1, 2, 3] ∧ paid.after e.trace = [] ∧
    e.trace.drop d.trace.length ≠ [] ∧ .apiReset ∉ e.trace.drop d.trace.length :=
  ⟨Sess.upEsp .tcp ++ [.disconnect, .run true], Sess.downEsp.drop 2, by decide +kernel⟩

/-- The device is connected and accepts three bytes; at the end it is idle and nothing was sent. -/
theorem C65_cc1352p7_late : ∃ pre post,
    let d := exec (CC1352P7.step Sess.arm) Sess.cc1352p7 pre
    let e := exec (CC1352P7.step Sess.arm) Sess.cc1352p7 (pre ++ [.write [1, 2, 3]] ++ post)
    d.isConnected = true ∧ (d.write [1, 2, 3]).2 = 3 ∧ e.isIdle = true ∧ written.after e.trace = [1, 2, 3] ∧ paid.after e.trace = [] ∧
    e.trace.drop d.trace.length ≠ [] ∧ .apiReset ∉ e.trace.drop d.trace.length :=
  ⟨Sess.upCC .tcp ++ [.disconnect, .run true], Sess.downCC.drop 2, by decide +kernel⟩

/-! ## C66: unsent data go to the peer of the next connection -/

/-- The same with another host. -/
def other (up : List Op) : List Op := up.map fun o => match o with
  | .setHostPort _ q t => .setHostPort (some b!"x") q t
  | o => o

/-- Unsent data, another connection. -/
def leak (up down : List Op) : List Op := lateWrite up down ++ other up ++ [.run true] ++ Sess.talk b!">"

/-- Position of the last connect request. -/
def lastConnect (t : List Ev) : Nat := t.length - 1 - t.reverse.idxOf .apiConnect

/-- Data written while connected to the host `h`, and nothing else, are sent to the host `x` after the next
`connect()`. -/
theorem C66_sim7x00_leak : ∃ ops pre post,
    let d := exec (Sim7x00.step Sess.arm) Sess.sim7x00 ops
    d.trace = pre ++ .apiConnect :: post ∧ .arg b!"h" b!"h" ∈ pre ∧ .arg b!"x" b!"x" ∉ pre ∧ written.after pre = [1, 2, 3] ∧
    .arg b!"h" b!"h" ∉ post ∧ .arg b!"x" b!"x" ∈ post ∧ acceptedIn post = [] ∧ payloadIn post = [1, 2, 3] :=
  let t := (exec (Sim7x00.step Sess.arm) Sess.sim7x00 (leak (Sess.up7x00 .tcp) Sess.down7x00)).trace
  ⟨leak (Sess.up7x00 .tcp) Sess.down7x00, t.take (lastConnect t), t.drop (lastConnect t + 1),
    by decide +kernel⟩

/-- Data written while connected to the host `h`, and nothing else, are sent to the host `x` after the next
`connect()`. -/
theorem C66_sim800_leak : ∃ ops pre post,
    let d := exec (Sim800.step Sess.arm) Sess.sim800 ops
    d.trace = pre ++ .apiConnect :: post ∧ .arg b!"h" b!"h" ∈ pre ∧ .arg b!"x" b!"x" ∉ pre ∧ written.after pre = [1, 2, 3] ∧
    .arg b!"h" b!"h" ∉ post ∧ .arg b!"x" b!"x" ∈ post ∧ acceptedIn post = [] ∧ payloadIn post = [1, 2, 3] :=
  let t := (exec (Sim800.step Sess.arm) Sess.sim800 (leak (Sess.up800 .tcp) Sess.down800)).trace
  ⟨leak (Sess.up800 .tcp) Sess.down800, t.take (lastConnect t), t.drop (lastConnect t + 1),
    by decide +kernel⟩

/-- Data written while connected to the host `h`, and nothing else, are sent to the host `x` after the next
`connect()`. -/
theorem C66_espressif_leak : ∃ ops pre post,
    let d := exec (Espressif.step Sess.arm) Sess.espressif ops
    d.trace = pre ++ .apiConnect :: post ∧ .arg b!"h" b!"h" ∈ pre ∧ .arg b!"x" b!"x" ∉ pre ∧ written.after pre = [1, 2, 3] ∧
    .arg b!"h" b!"h" ∉ post ∧ .arg b!"x" b!"x" ∈ post ∧ acceptedIn post = [] ∧ payloadIn post = [1, 2, 3] :=
  let t := (exec (Espressif.step Sess.arm) Sess.espressif (leak (Sess.upEsp .tcp) Sess.downEsp)).trace
  ⟨leak (Sess.upEsp .tcp) Sess.downEsp, t.take (lastConnect t), t.drop (lastConnect t + 1),
    by decide +kernel⟩

/-- Data written while connected to the host `h`, and nothing else, are sent to the host `x` after the next
`connect()`. -/
theorem C66_cc1352p7_leak : ∃ ops pre post,
    let d := exec (CC1352P7.step Sess.arm) Sess.cc1352p7 ops
    d.trace = pre ++ .apiConnect :: post ∧ .arg b!"h" b!"h" ∈ pre ∧ .arg b!"x" b!"x" ∉ pre ∧ written.after pre = [1, 2, 3] ∧
    .arg b!"h" b!"h" ∉ post ∧ .arg b!"x" b!"x" ∈ post ∧ acceptedIn post = [] ∧ payloadIn post = [1, 2, 3] :=
  let t := (exec (CC1352P7.step Sess.arm) Sess.cc1352p7 (leak (Sess.upCC .tcp) Sess.downCC)).trace
  ⟨leak (Sess.upCC .tcp) Sess.downCC, t.take (lastConnect t), t.drop (lastConnect t + 1),
    by decide +kernel⟩

/-! ### `resetStates()` prevents this -/

theorem paid_from (t : List Ev) (h : .apiReset ∉ t) (s : List Byte) : t.foldl paid.step s = s ++ payloadIn t := by
  induction t generalizing s with
  | nil => simp [payloadIn]
  | cons e t ih =>
    rw [List.mem_cons, not_or] at h
    rw [List.foldl_cons, ih h.2]
    cases e <;> simp [paid, payloadIn] at h ⊢

theorem written_from (t : List Ev) (h : .apiReset ∉ t) (s : List Byte) : t.foldl written.step s = s ++ acceptedIn t := by
  induction t generalizing s with
  | nil => simp [acceptedIn]
  | cons e t ih =>
    rw [List.mem_cons, not_or] at h
    rw [List.foldl_cons, ih h.2]
    cases e <;> simp [written, acceptedIn] at h ⊢

theorem since_reset {t pre post : List Ev} {q : List Byte} (h : written.after t = paid.after t ++ q)
    (ht : t = pre ++ .apiReset :: post) (hp : .apiReset ∉ post) : payloadIn post <+: acceptedIn post := by
  subst ht
  have e1 : written.after (pre ++ .apiReset :: post) = acceptedIn post := by
    unfold Observer.after
    rw [List.foldl_append, List.foldl_cons, written_from _ hp]
    simp [written]
  have e2 : paid.after (pre ++ .apiReset :: post) = payloadIn post := by
    unfold Observer.after
    rw [List.foldl_append, List.foldl_cons, paid_from _ hp]
    simp [paid]
  rw [e1, e2] at h
  exact ⟨q, h.symm⟩

/-- In all histories: what is sent after a call of `resetStates()` was accepted after it, and is sent in order. -/
theorem C66_sim7x00 (p : Platform) (rx tx : List Byte) (sched : List (List Hw))
    (hs : ∀ b ∈ sched, (b.filter (·.txOk)).length ≤ 1)
    (rmem wmem : List Byte) (t : ConnType) (line ip id : List Byte) (hl : line.length = 61)
    (ops : List Op) (pre post : List Ev) :
    let d := exec (Sim7x00.step p) (Sim7x00.init (Ser.init rx tx sched) rmem wmem t line ip id) ops
    d.trace = pre ++ .apiReset :: post → .apiReset ∉ post → payloadIn post <+: acceptedIn post := by
  intro d ht hp
  obtain ⟨q, _, he⟩ := Payload.C34_sim7x00 p rx tx sched hs rmem wmem t line ip id hl ops
  exact since_reset he ht hp

/-- `resetStates()` between the two connections: nothing of the first is sent on the second. -/
example :
    let t := (exec (Sim7x00.step Sess.arm) Sess.sim7x00 (lateWrite (Sess.up7x00 .tcp) Sess.down7x00 ++ [.resetStates] ++ other (Sess.up7x00 .tcp) ++
      [.write [4], .run true] ++ Sess.talk b!">")).trace
    let i := t.length - 1 - t.reverse.idxOf .apiReset
    t = t.take i ++ .apiReset :: t.drop (i + 1) ∧ .apiReset ∉ t.drop (i + 1) ∧ written.after (t.take i) = [1, 2, 3] ∧ paid.after (t.take i) = [] ∧
    payloadIn (t.drop (i + 1)) = [4] := by
  decide +kernel

/-- In all histories: what is sent after a call of `resetStates()` was accepted after it, and is sent in order. -/
theorem C66_sim800 (p : Platform) (rx tx : List Byte) (sched : List (List Hw))
    (hs : ∀ b ∈ sched, (b.filter (·.txOk)).length ≤ 1)
    (rmem wmem : List Byte) (t : ConnType) (line ip id : List Byte) (hl : line.length = 61)
    (ops : List Op) (pre post : List Ev) :
    let d := exec (Sim800.step p) (Sim800.init (Ser.init rx tx sched) rmem wmem t line ip id) ops
    d.trace = pre ++ .apiReset :: post → .apiReset ∉ post → payloadIn post <+: acceptedIn post := by
  intro d ht hp
  obtain ⟨q, _, he⟩ := Payload.C34_sim800 p rx tx sched hs rmem wmem t line ip id hl ops
  exact since_reset he ht hp

/-- `resetStates()` between the two connections: nothing of the first is sent on the second. -/
example :
    let t := (exec (Sim800.step Sess.arm) Sess.sim800 (lateWrite (Sess.up800 .tcp) Sess.down800 ++ [.resetStates] ++ other (Sess.up800 .tcp) ++
      [.write [4], .run true] ++ Sess.talk b!">")).trace
    let i := t.length - 1 - t.reverse.idxOf .apiReset
    t = t.take i ++ .apiReset :: t.drop (i + 1) ∧ .apiReset ∉ t.drop (i + 1) ∧ written.after (t.take i) = [1, 2, 3] ∧ paid.after (t.take i) = [] ∧
    payloadIn (t.drop (i + 1)) = [4] := by
  decide +kernel

/-- In all histories: what is sent after a call of `resetStates()` was accepted after it, and is sent in order. -/
theorem C66_espressif (p : Platform) (rx tx : List Byte) (sched : List (List Hw))
    (hs : ∀ b ∈ sched, (b.filter (·.txOk)).length ≤ 1)
    (rmem wmem : List Byte) (t : ConnType) (line mac : List Byte) (ssid passwd : CPtr)
    (hl : line.length = 61)
    (ops : List Op) (pre post : List Ev) :
    let d := exec (Espressif.step p) (Espressif.init (Ser.init rx tx sched) rmem wmem t line mac ssid passwd) ops
    d.trace = pre ++ .apiReset :: post → .apiReset ∉ post → payloadIn post <+: acceptedIn post := by
  intro d ht hp
  obtain ⟨q, _, he⟩ := Payload.C34_espressif p rx tx sched hs rmem wmem t line mac ssid passwd hl ops
  exact since_reset he ht hp

/-- `resetStates()` between the two connections: nothing of the first is sent on the second. -/
example :
    let t := (exec (Espressif.step Sess.arm) Sess.espressif (lateWrite (Sess.upEsp .tcp) Sess.downEsp ++ [.resetStates] ++ other (Sess.upEsp .tcp) ++
      [.write [4], .run true] ++ Sess.talk b!">")).trace
    let i := t.length - 1 - t.reverse.idxOf .apiReset
    t = t.take i ++ .apiReset :: t.drop (i + 1) ∧ .apiReset ∉ t.drop (i + 1) ∧ written.after (t.take i) = [1, 2, 3] ∧ paid.after (t.take i) = [] ∧
    payloadIn (t.drop (i + 1)) = [4] := by
  decide +kernel

/-- In all histories: what is sent after a call of `resetStates()` was accepted after it, and is sent in order. -/
theorem C66_cc1352p7 (p : Platform) (rx tx : List Byte) (sched : List (List Hw))
    (hs : ∀ b ∈ sched, (b.filter (·.txOk)).length ≤ 1)
    (rmem wmem : List Byte) (t : ConnType) (line mac : List Byte) (hl : line.length = 61)
    (ops : List Op) (pre post : List Ev) :
    let d := exec (CC1352P7.step p) (CC1352P7.init (Ser.init rx tx sched) rmem wmem t line mac) ops
    d.trace = pre ++ .apiReset :: post → .apiReset ∉ post → payloadIn post <+: acceptedIn post := by
  intro d ht hp
  obtain ⟨q, _, he⟩ := Payload.C34_cc1352p7 p rx tx sched hs rmem wmem t line mac hl ops
  exact since_reset he ht hp

/-- `resetStates()` between the two connections: nothing of the first is sent on the second. -/
example :
    let t := (exec (CC1352P7.step Sess.arm) Sess.cc1352p7 (lateWrite (Sess.upCC .tcp) Sess.downCC ++ [.resetStates] ++ other (Sess.upCC .tcp) ++
      [.write [4], .run true] ++ Sess.talk b!">")).trace
    let i := t.length - 1 - t.reverse.idxOf .apiReset
    t = t.take i ++ .apiReset :: t.drop (i + 1) ∧ .apiReset ∉ t.drop (i + 1) ∧ written.after (t.take i) = [1, 2, 3] ∧ paid.after (t.take i) = [] ∧
    payloadIn (t.drop (i + 1)) = [4] := by
  decide +kernel

end Verif.Props.Closing
