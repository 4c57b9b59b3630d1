import Verif.Lemmas.Request
import Verif.Lemmas.Limit
import Verif.Spec.Sessions

/-!
# C36, C37: data from the modem

For every history of a driver from its constructor: arbitrary calls of the application, arbitrary bytes
from the modem at arbitrary times, arbitrary sizes of all buffers.
-/

namespace Verif.Props.Receive

open Verif Dev Spec

/-! ## C36

`Framed`: a line is taken only when no payload is due, and a block that is handed to the application has
the length that the header announced. `Honours`: the modem answers no request with more bytes than asked
for. `received`: all payload taken from the serial line, `delivered`: all bytes handed out by `read()`, both
since the last `resetStates()`. That lines and payload together are the bytes received is C38. -/

theorem read_all {S R X : Type} {d : Dev S R X} {a b q : List Byte} (h : Ring.Rep d.rbuf q)
    (e : a = b ++ q) : b ++ (d.read d.bytesAvailable).2 = a := by
  show b ++ (d.rbuf.pullN d.rbuf.bytesAvailable).2 = a
  rw [(Ring.rep_pullN h _).2, h.bytesAvailable, List.take_length, e]

/-- Lines and payload are never mixed. The bytes the application has read and can read are exactly the
payload taken from the serial line, if the modem honours the requested amount. -/
theorem C36_sim7x00 (p : Platform) (rx tx : List Byte) (sched : List (List Hw))
    (rmem wmem : List Byte) (t : ConnType) (line ip id : List Byte) (hl : line.length = 61)
    (ops : List Op) :
    let d := exec (Sim7x00.step p) (Sim7x00.init (Ser.init rx tx sched) rmem wmem t line ip id) ops
    Framed requestSim (headerSim p) d.trace ∧
    (Honours requestSim (headerSim p) d.trace →
      delivered.after d.trace ++ (d.read d.bytesAvailable).2 = received.after d.trace) := by
  intro d
  have hi : Sim7x00.RxI p d := Sim7x00.exec_stages (Sim7x00.rxI_sections p) (rx_calls)
    (Sim7x00.rxI_own p) (Sim7x00.inv_init rx tx sched rmem wmem t ip id hl)
    (rx_init rmem (by simp [Sim7x00.init, SimDev.init, SimDev.resetStates]) rfl (by simp [Sim7x00.init, SimDev.init, SimDev.resetStates]) rfl) ops
  refine ⟨hi.frame, fun ho => ?_⟩
  obtain ⟨⟨q, h1, h2⟩, _⟩ := hi.fits ho
  exact read_all h1 h2

/-- Lines and payload are never mixed. The bytes the application has read and can read are exactly the
payload taken from the serial line, if the modem honours the requested amount. -/
theorem C36_sim800 (p : Platform) (rx tx : List Byte) (sched : List (List Hw))
    (rmem wmem : List Byte) (t : ConnType) (line ip id : List Byte) (hl : line.length = 61)
    (ops : List Op) :
    let d := exec (Sim800.step p) (Sim800.init (Ser.init rx tx sched) rmem wmem t line ip id) ops
    Framed requestSim (headerSim p) d.trace ∧
    (Honours requestSim (headerSim p) d.trace →
      delivered.after d.trace ++ (d.read d.bytesAvailable).2 = received.after d.trace) := by
  intro d
  have hi : Sim800.RxI p d := Sim800.exec_stages (Sim800.rxI_sections p) (rx_calls)
    (Sim800.rxI_own p) (Sim800.inv_init rx tx sched rmem wmem t ip id hl)
    (rx_init rmem (by simp [Sim800.init, SimDev.init, SimDev.resetStates]) rfl (by simp [Sim800.init, SimDev.init, SimDev.resetStates]) rfl) ops
  refine ⟨hi.frame, fun ho => ?_⟩
  obtain ⟨⟨q, h1, h2⟩, _⟩ := hi.fits ho
  exact read_all h1 h2

/-- Lines and payload are never mixed. The bytes the application has read and can read are exactly the
payload taken from the serial line, if the modem honours the requested amount. For TCP connections (see C48 for UDP). -/
theorem C36_espressif (p : Platform) (rx tx : List Byte) (sched : List (List Hw))
    (rmem wmem : List Byte) (line mac : List Byte) (ssid passwd : CPtr) (hl : line.length = 61)
    (ops : List Op) (ht : ∀ op ∈ ops, ∀ h q t, op = .setHostPort h q t → t = .tcp) :
    let d := exec (Espressif.step p) (Espressif.init (Ser.init rx tx sched) rmem wmem .tcp line mac ssid passwd) ops
    Framed requestWifi (headerEsp p) d.trace ∧
    (Honours requestWifi (headerEsp p) d.trace →
      delivered.after d.trace ++ (d.read d.bytesAvailable).2 = received.after d.trace) := by
  intro d
  have hi : Espressif.RxI p d := Espressif.exec_stages_tcp (Espressif.rxI_sections p) (Espressif.rxI_calls p)
    (Espressif.rxI_host p) (Espressif.rxI_own p) ⟨Espressif.inv_init rx tx sched rmem wmem .tcp mac ssid passwd hl, .of_zero rfl, rfl⟩
    ⟨rx_init rmem (by simp [Espressif.init, Espressif.resetStates]) rfl (by simp [Espressif.init, Espressif.resetStates]) rfl, rfl, by simp [Espressif.init, Espressif.resetStates]⟩ ops ht
  replace hi := hi.rx
  refine ⟨hi.frame, fun ho => ?_⟩
  obtain ⟨⟨q, h1, h2⟩, _⟩ := hi.fits ho
  exact read_all h1 h2

/-- Lines and payload are never mixed. The bytes the application has read and can read are exactly the
payload taken from the serial line, if the modem honours the requested amount. -/
theorem C36_cc1352p7 (p : Platform) (rx tx : List Byte) (sched : List (List Hw))
    (rmem wmem : List Byte) (t : ConnType) (line mac : List Byte) (hl : line.length = 61)
    (ops : List Op) :
    let d := exec (CC1352P7.step p) (CC1352P7.init (Ser.init rx tx sched) rmem wmem t line mac) ops
    Framed requestWifi (headerCC p) d.trace ∧
    (Honours requestWifi (headerCC p) d.trace →
      delivered.after d.trace ++ (d.read d.bytesAvailable).2 = received.after d.trace) := by
  intro d
  have hi : CC1352P7.RxI p d := CC1352P7.exec_stages (CC1352P7.rxI_sections p) (rx_calls)
    (CC1352P7.rxI_own p) (CC1352P7.inv_init rx tx sched rmem wmem t mac hl)
    (rx_init rmem (by simp [CC1352P7.init, CC1352P7.resetStates]) rfl (by simp [CC1352P7.init, CC1352P7.resetStates]) rfl) ops
  refine ⟨hi.frame, fun ho => ?_⟩
  obtain ⟨⟨q, h1, h2⟩, _⟩ := hi.fits ho
  exact read_all h1 h2

/-! ### Non-vacuity: five bytes are received, three of them read -/

/-- The modem announces five bytes, is asked for them and delivers the bytes `x`, with their number `n`. -/
def recvSim (n x : List Byte) : List Op :=
  Sess.talk b!"+CIPRXGET: 1,0\r\n" ++ Sess.talk b!"+CIPRXGET: 4,0,5\r\nOK\r\n" ++
  Sess.talk (b!"+CIPRXGET: 2,0," ++ n ++ b!",0\r\n") ++ Sess.talk x ++ Sess.talk b!"\r\nOK\r\n" ++ [.read 3]

/-- The same for the WiFi and WiSUN driver; `e`: end of the header. -/
def recvWifi (e n x : List Byte) : List Op :=
  Sess.talk b!"+IPD,5\r\n" ++ Sess.talk (b!"+CIPRECVDATA," ++ n ++ e) ++ Sess.talk x ++
  Sess.talk b!"\r\nOK\r\n" ++ [.read 3]

example : let d := exec (Sim7x00.step Sess.arm) Sess.sim7x00 (Sess.up7x00 .tcp ++ recvSim b!"5" b!"hello")
    Honours requestSim (headerSim Sess.arm) d.trace ∧ received.after d.trace = b!"hello" ∧
    delivered.after d.trace = b!"hel" ∧ (d.read d.bytesAvailable).2 = b!"lo" :=
  ⟨honours_of (by decide +kernel), by decide +kernel, by decide +kernel, by decide +kernel⟩

example : let d := exec (Sim800.step Sess.arm) Sess.sim800 (Sess.up800 .tcp ++ recvSim b!"5" b!"hello")
    Honours requestSim (headerSim Sess.arm) d.trace ∧ received.after d.trace = b!"hello" ∧
    delivered.after d.trace = b!"hel" ∧ (d.read d.bytesAvailable).2 = b!"lo" :=
  ⟨honours_of (by decide +kernel), by decide +kernel, by decide +kernel, by decide +kernel⟩

example : let d := exec (Espressif.step Sess.arm) Sess.espressif (Sess.upEsp .tcp ++ recvWifi b!":" b!"5" b!"hello")
    Honours requestWifi (headerEsp Sess.arm) d.trace ∧ received.after d.trace = b!"hello" ∧
    delivered.after d.trace = b!"hel" ∧ (d.read d.bytesAvailable).2 = b!"lo" :=
  ⟨honours_of (by decide +kernel), by decide +kernel, by decide +kernel, by decide +kernel⟩

example : let d := exec (CC1352P7.step Sess.arm) Sess.cc1352p7 (Sess.upCC .tcp ++ recvWifi b!"\r\n" b!"5" b!"hello")
    Honours requestWifi (headerCC Sess.arm) d.trace ∧ received.after d.trace = b!"hello" ∧
    delivered.after d.trace = b!"hel" ∧ (d.read d.bytesAvailable).2 = b!"lo" :=
  ⟨honours_of (by decide +kernel), by decide +kernel, by decide +kernel, by decide +kernel⟩

/-! ### Without the condition: a modem that delivers more than asked for overwrites data

The read buffer has 8 places; the modem was asked for five bytes and delivers twelve. -/

/-- The application gets something else than the payload on the serial line. -/
theorem C36_sim7x00_overwritten : ∃ ops,
    let d := exec (Sim7x00.step Sess.arm) Sess.sim7x00 ops
    Framed requestSim (headerSim Sess.arm) d.trace ∧
    delivered.after d.trace ++ (d.read d.bytesAvailable).2 ≠ received.after d.trace ∧
    (received.after d.trace).length = 12 :=
  ⟨Sess.up7x00 .tcp ++ recvSim b!"12" b!"hello, world", (C36_sim7x00 Sess.arm _ _ _ _ _ _ _ _ _ (by decide) _).1,
    by decide +kernel, by decide +kernel⟩

/-- The application gets something else than the payload on the serial line. -/
theorem C36_sim800_overwritten : ∃ ops,
    let d := exec (Sim800.step Sess.arm) Sess.sim800 ops
    Framed requestSim (headerSim Sess.arm) d.trace ∧
    delivered.after d.trace ++ (d.read d.bytesAvailable).2 ≠ received.after d.trace ∧
    (received.after d.trace).length = 12 :=
  ⟨Sess.up800 .tcp ++ recvSim b!"12" b!"hello, world", (C36_sim800 Sess.arm _ _ _ _ _ _ _ _ _ (by decide) _).1,
    by decide +kernel, by decide +kernel⟩

/-- The application gets something else than the payload on the serial line. -/
theorem C36_espressif_overwritten : ∃ ops,
    let d := exec (Espressif.step Sess.arm) Sess.espressif ops
    Framed requestWifi (headerEsp Sess.arm) d.trace ∧
    delivered.after d.trace ++ (d.read d.bytesAvailable).2 ≠ received.after d.trace ∧
    (received.after d.trace).length = 12 :=
  ⟨Sess.upEsp .tcp ++ recvWifi b!":" b!"12" b!"hello, world", (C36_espressif Sess.arm _ _ _ _ _ _ _ _ _ (by decide) _ (by simp [Sess.upEsp, recvWifi, Sess.talk, Sess.say])).1,
    by decide +kernel, by decide +kernel⟩

/-- The application gets something else than the payload on the serial line. -/
theorem C36_cc1352p7_overwritten : ∃ ops,
    let d := exec (CC1352P7.step Sess.arm) Sess.cc1352p7 ops
    Framed requestWifi (headerCC Sess.arm) d.trace ∧
    delivered.after d.trace ++ (d.read d.bytesAvailable).2 ≠ received.after d.trace ∧
    (received.after d.trace).length = 12 :=
  ⟨Sess.upCC .tcp ++ recvWifi b!"\r\n" b!"12" b!"hello, world", (C36_cc1352p7 Sess.arm _ _ _ _ _ _ _ _ (by decide) _).1,
    by decide +kernel, by decide +kernel⟩

/-! ## C37

Every call of `run()`, in every state. A call sends at most one data request, as its last transmission; `n` is
the number in it, `k` the number of its digits that the serial device accepted. -/

/-- The modem announces five bytes. -/
def announceSim : List Op :=
  Sess.talk b!"+CIPRXGET: 1,0\r\n" ++ Sess.say b!"+CIPRXGET: 4,0,5\r\nOK\r\n" ++ [.run true]

/-- The modem announces five bytes. -/
def announceWifi : List Op := Sess.say b!"+IPD,5\r\n" ++ [.run true]

/-- The driver asks for at most as many bytes as the read buffer has free places, as it counts as announced,
and as the modem can deliver. If no byte arrives during the call, it asks for at least one byte, and
8 places of the serial buffer remain free. -/
theorem C37_sim7x00 (p : Platform) (d : Sim7x00.D) (ok : Bool) (hm : d.ext.maxRx = 1500) :
    let e := Sim7x00.run p d ok
    ∃ new, e.trace = d.trace ++ new ∧ ((∀ g, .cmd requestSim g ∉ new) ∨
      ∃ pre n k g g', new = pre ++ [.cmd requestSim g, .arg (dec n) ((dec n).take k), .arg b!"\r\n" g'] ∧
        (∀ g, .cmd requestSim g ∉ pre) ∧
        n ≤ e.rbuf.spaceAvailable ∧ n ≤ e.bytesToReceive ∧ n ≤ 1500 ∧
        ((∀ b ∈ d.ser.sched, ∀ h ∈ b, h.rx = none) → e.ser.readBufferSize < 2 ^ 64 →
          1 ≤ n ∧ n + 8 ≤ e.ser.readBufferSize - e.ser.rx.ring.bytesAvailable)) := by
  intro e
  obtain ⟨new, h1, h2⟩ := Sim7x00.asks_run p d ok
  refine ⟨new, h1, h2.imp id ?_⟩
  rintro ⟨pre, n, k, g, g', a1, a2, a3, a4, a5, a6⟩
  have hm' : (Sim7x00.run p d ok).ext.maxRx = 1500 := (Sim7x00.run_maxRx p d ok).trans hm
  dsimp only at a5 a6
  rw [hm'] at a5 a6
  exact ⟨pre, n, k, g, g', a1, a2, a3, a4, a5, fun q h64 => a6 q h64 (by decide)⟩

/-- The modem limit never changes. -/
theorem C37_sim7x00_limit (p : Platform) (s : Ser) (rmem wmem : List Byte) (t : ConnType)
    (line ip id : List Byte) (ops : List Op) :
    (exec (Sim7x00.step p) (Sim7x00.init s rmem wmem t line ip id) ops).ext.maxRx = 1500 :=
  (Sim7x00.exec_maxRx p _ ops).trans rfl

/-- A request does occur. -/
example : let d := exec (Sim7x00.step Sess.arm) Sess.sim7x00 (Sess.up7x00 .tcp ++ announceSim)
    let e := Sim7x00.run Sess.arm d true
    e.trace = d.trace ++ [.line b!"OK\r\n", .cmd requestSim requestSim, .arg (dec 5) b!"5", .arg b!"\r\n" b!"\r\n"] ∧
    (∀ b ∈ d.ser.sched, ∀ h ∈ b, h.rx = none) ∧ e.ser.readBufferSize < 2 ^ 64 := by
  decide +kernel

/-- The driver asks for at most as many bytes as the read buffer has free places, as it counts as announced,
and as the modem can deliver. If no byte arrives during the call, it asks for at least one byte, and
8 places of the serial buffer remain free. -/
theorem C37_sim800 (p : Platform) (d : Sim800.D) (ok : Bool) (hm : d.ext.maxRx = 1460) :
    let e := Sim800.run p d ok
    ∃ new, e.trace = d.trace ++ new ∧ ((∀ g, .cmd requestSim g ∉ new) ∨
      ∃ pre n k g g', new = pre ++ [.cmd requestSim g, .arg (dec n) ((dec n).take k), .arg b!"\r\n" g'] ∧
        (∀ g, .cmd requestSim g ∉ pre) ∧
        n ≤ e.rbuf.spaceAvailable ∧ n ≤ e.bytesToReceive ∧ n ≤ 1460 ∧
        ((∀ b ∈ d.ser.sched, ∀ h ∈ b, h.rx = none) → e.ser.readBufferSize < 2 ^ 64 →
          1 ≤ n ∧ n + 8 ≤ e.ser.readBufferSize - e.ser.rx.ring.bytesAvailable)) := by
  intro e
  obtain ⟨new, h1, h2⟩ := Sim800.asks_run p d ok
  refine ⟨new, h1, h2.imp id ?_⟩
  rintro ⟨pre, n, k, g, g', a1, a2, a3, a4, a5, a6⟩
  have hm' : (Sim800.run p d ok).ext.maxRx = 1460 := (Sim800.run_maxRx p d ok).trans hm
  dsimp only at a5 a6
  rw [hm'] at a5 a6
  exact ⟨pre, n, k, g, g', a1, a2, a3, a4, a5, fun q h64 => a6 q h64 (by decide)⟩

/-- The modem limit never changes. -/
theorem C37_sim800_limit (p : Platform) (s : Ser) (rmem wmem : List Byte) (t : ConnType)
    (line ip id : List Byte) (ops : List Op) :
    (exec (Sim800.step p) (Sim800.init s rmem wmem t line ip id) ops).ext.maxRx = 1460 :=
  (Sim800.exec_maxRx p _ ops).trans rfl

/-- A request does occur. -/
example : let d := exec (Sim800.step Sess.arm) Sess.sim800 (Sess.up800 .tcp ++ announceSim)
    let e := Sim800.run Sess.arm d true
    e.trace = d.trace ++ [.line b!"OK\r\n", .cmd requestSim requestSim, .arg (dec 5) b!"5", .arg b!"\r\n" b!"\r\n"] ∧
    (∀ b ∈ d.ser.sched, ∀ h ∈ b, h.rx = none) ∧ e.ser.readBufferSize < 2 ^ 64 := by
  decide +kernel

/-- The driver asks for at most as many bytes as the read buffer has free places, as it counts as announced,
and as the modem can deliver. If no byte arrives during the call, it asks for at least one byte, and
30 places of the serial buffer remain free. -/
theorem C37_espressif (p : Platform) (d : Espressif.D) (ok : Bool) :
    let e := Espressif.run p d ok
    ∃ new, e.trace = d.trace ++ new ∧ ((∀ g, .cmd requestWifi g ∉ new) ∨
      ∃ pre n k g g', new = pre ++ [.cmd requestWifi g, .arg (dec n) ((dec n).take k), .arg b!"\r\n" g'] ∧
        (∀ g, .cmd requestWifi g ∉ pre) ∧
        n ≤ e.rbuf.spaceAvailable ∧ n ≤ e.bytesToReceive ∧ n ≤ 2048 ∧
        ((∀ b ∈ d.ser.sched, ∀ h ∈ b, h.rx = none) → e.ser.readBufferSize < 2 ^ 64 →
          1 ≤ n ∧ n + 30 ≤ e.ser.readBufferSize - e.ser.rx.ring.bytesAvailable)) := by
  intro e
  obtain ⟨new, h1, h2⟩ := Espressif.asks_run p d ok
  refine ⟨new, h1, h2.imp id ?_⟩
  rintro ⟨pre, n, k, g, g', a1, a2, a3, a4, a5, a6⟩
  exact ⟨pre, n, k, g, g', a1, a2, a3, a4, a5, fun q h64 => a6 q h64 (by show 0 < Espressif.maxRx; decide)⟩

/-- A request does occur. -/
example : let d := exec (Espressif.step Sess.arm) Sess.espressif (Sess.upEsp .tcp ++ announceWifi)
    let e := Espressif.run Sess.arm d true
    e.trace = d.trace ++ [.cmd requestWifi requestWifi, .arg (dec 5) b!"5", .arg b!"\r\n" b!"\r\n"] ∧
    (∀ b ∈ d.ser.sched, ∀ h ∈ b, h.rx = none) ∧ e.ser.readBufferSize < 2 ^ 64 := by
  decide +kernel

/-- The driver asks for at most as many bytes as the read buffer has free places, as it counts as announced,
and as the modem can deliver. If no byte arrives during the call, it asks for at least one byte, and
30 places of the serial buffer remain free. -/
theorem C37_cc1352p7 (p : Platform) (d : CC1352P7.D) (ok : Bool) :
    let e := CC1352P7.run p d ok
    ∃ new, e.trace = d.trace ++ new ∧ ((∀ g, .cmd requestWifi g ∉ new) ∨
      ∃ pre n k g g', new = pre ++ [.cmd requestWifi g, .arg (dec n) ((dec n).take k), .arg b!"\r\n" g'] ∧
        (∀ g, .cmd requestWifi g ∉ pre) ∧
        n ≤ e.rbuf.spaceAvailable ∧ n ≤ e.bytesToReceive ∧ n ≤ 1220 ∧
        ((∀ b ∈ d.ser.sched, ∀ h ∈ b, h.rx = none) → e.ser.readBufferSize < 2 ^ 64 →
          1 ≤ n ∧ n + 30 ≤ e.ser.readBufferSize - e.ser.rx.ring.bytesAvailable)) := by
  intro e
  obtain ⟨new, h1, h2⟩ := CC1352P7.asks_run p d ok
  refine ⟨new, h1, h2.imp id ?_⟩
  rintro ⟨pre, n, k, g, g', a1, a2, a3, a4, a5, a6⟩
  exact ⟨pre, n, k, g, g', a1, a2, a3, a4, a5, fun q h64 => a6 q h64 (by show 0 < CC1352P7.maxRx; decide)⟩

/-- A request does occur. -/
example : let d := exec (CC1352P7.step Sess.arm) Sess.cc1352p7 (Sess.upCC .tcp ++ announceWifi)
    let e := CC1352P7.run Sess.arm d true
    e.trace = d.trace ++ [.cmd requestWifi requestWifi, .arg (dec 5) b!"5", .arg b!"\r\n" b!"\r\n"] ∧
    (∀ b ∈ d.ser.sched, ∀ h ∈ b, h.rx = none) ∧ e.ser.readBufferSize < 2 ^ 64 := by
  decide +kernel

/-! ### Bytes that arrive while the driver decides

The drivers read the fill level of the serial buffer twice, once to see whether the reserve is free and once
to compute the amount. Bytes that arrive in between make the subtraction of the reserve wrap, and the request
is not limited by the serial buffer any more. -/

/-- 78 bytes arrive at the `k`-th access of the driver to the serial buffers. -/
def arrive (k : Nat) : Ser :=
  Ser.init (List.replicate 80 0) (List.replicate 80 0)
    (List.replicate k [] ++ [List.replicate 78 ⟨some 65, true⟩])

/-- The driver asks for more bytes than the serial buffer has free places. -/
theorem C37_sim7x00_race : ∃ ser ops n,
    let d := exec (Sim7x00.step Sess.arm) (Sim7x00.init ser (List.replicate 8 0) (List.replicate 8 0) .tcp
      (List.replicate 61 0) (List.replicate 16 0) (List.replicate 24 0)) ops
    let e := Sim7x00.run Sess.arm d true
    (∃ pre, e.trace = d.trace ++ (pre ++ [.cmd requestSim requestSim, .arg (dec n) (dec n), .arg b!"\r\n" b!"\r\n"])) ∧
    n > e.ser.readBufferSize - e.ser.rx.ring.bytesAvailable :=
  ⟨arrive 443, Sess.up7x00 .tcp ++ announceSim, 5,
    ⟨[.line b!"OK\r\n"], by decide +kernel⟩, by decide +kernel⟩

/-- The driver asks for more bytes than the serial buffer has free places. -/
theorem C37_sim800_race : ∃ ser ops n,
    let d := exec (Sim800.step Sess.arm) (Sim800.init ser (List.replicate 8 0) (List.replicate 8 0) .tcp
      (List.replicate 61 0) (List.replicate 16 0) (List.replicate 24 0)) ops
    let e := Sim800.run Sess.arm d true
    (∃ pre, e.trace = d.trace ++ (pre ++ [.cmd requestSim requestSim, .arg (dec n) (dec n), .arg b!"\r\n" b!"\r\n"])) ∧
    n > e.ser.readBufferSize - e.ser.rx.ring.bytesAvailable :=
  ⟨arrive 413, Sess.up800 .tcp ++ announceSim, 5,
    ⟨[.line b!"OK\r\n"], by decide +kernel⟩, by decide +kernel⟩

/-- The driver asks for more bytes than the serial buffer has free places. -/
theorem C37_espressif_race : ∃ ser ops n,
    let d := exec (Espressif.step Sess.arm) (Espressif.init ser (List.replicate 8 0) (List.replicate 8 0) .tcp
      (List.replicate 61 0) (List.replicate 18 0) .uninit .uninit) ops
    let e := Espressif.run Sess.arm d true
    (∃ pre, e.trace = d.trace ++ (pre ++ [.cmd requestWifi requestWifi, .arg (dec n) (dec n), .arg b!"\r\n" b!"\r\n"])) ∧
    n > e.ser.readBufferSize - e.ser.rx.ring.bytesAvailable :=
  ⟨arrive 225, Sess.upEsp .tcp ++ announceWifi, 5,
    ⟨[], by decide +kernel⟩, by decide +kernel⟩

/-- The driver asks for more bytes than the serial buffer has free places. -/
theorem C37_cc1352p7_race : ∃ ser ops n,
    let d := exec (CC1352P7.step Sess.arm) (CC1352P7.init ser (List.replicate 8 0) (List.replicate 8 0) .tcp
      (List.replicate 61 0) (List.replicate 24 0)) ops
    let e := CC1352P7.run Sess.arm d true
    (∃ pre, e.trace = d.trace ++ (pre ++ [.cmd requestWifi requestWifi, .arg (dec n) (dec n), .arg b!"\r\n" b!"\r\n"])) ∧
    n > e.ser.readBufferSize - e.ser.rx.ring.bytesAvailable :=
  ⟨arrive 86, Sess.upCC .tcp ++ announceWifi, 5,
    ⟨[], by decide +kernel⟩, by decide +kernel⟩

end Verif.Props.Receive
