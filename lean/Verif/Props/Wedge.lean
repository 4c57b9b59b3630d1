import Verif.Lemmas.Broken
import Verif.Spec.Sessions

/-!
# C47, C48, C49: drivers that stop working

For every history of a driver from its constructor: arbitrary calls of the application, arbitrary bytes
from the modem at arbitrary times, arbitrary sizes of all buffers.
-/

namespace Verif.Props.Wedge

open Verif Dev Spec

/-! ## C47: one failure of `open()` is final

After a failure of `open()` in the first `run()` (`pre`: calls of the application before it) the driver sends
nothing but requests for signal strength and identification and never gets connected, whatever is called and
received afterwards (`post`), until the modem sends an error message or `resetStates()` is called. -/

theorem C47_sim7x00_dead (p : Platform) (rx tx : List Byte) (sched : List (List Hw))
    (rmem wmem : List Byte) (t : ConnType) (line ip id : List Byte) (hl : line.length = 61)
    (pre post : List Op) (hpre : ∀ ok, .run ok ∉ pre) :
    let d := exec (Sim7x00.step p) (Sim7x00.init (Ser.init rx tx sched) rmem wmem t line ip id) pre
    let e := exec (Sim7x00.step p) d (.run false :: post)
    ∃ new, e.trace = d.trace ++ new ∧ (new.all harmless = true →
      (∀ x ∈ new, status (statusSim b!"AT+CICCID") x = true) ∧ e.cs = .notConnected) := by
  intro d e
  have hv : Sim7x00.Inv d := exec_inv (ok := fun _ => True) (fun _ op _ h => Sim7x00.step_inv p op h)
    (Sim7x00.inv_init rx tx sched rmem wmem t ip id hl) pre fun _ _ => trivial
  obtain ⟨new, h1, h2⟩ := Sim7x00.idles_failed p hv
    (Sim7x00.fresh_exec p ⟨rfl, rfl, rfl, rfl, rfl⟩ pre hpre) post
  exact ⟨new, h1, fun h => ⟨(h2 h).2, (h2 h).1.cs⟩⟩

/-- `connect()` is accepted after the failure, the port can be opened, the modem answers; the driver asks for
the signal strength, but does not connect. -/
example :
    let ops := [Op.run true, .setApn (some b!"a"), .setHostPort (some b!"h") 80 .tcp, .connect,
      .run true, .requestRSSI, .run true] ++ Sess.talk b!"+CSQ: 20,0\r\n" ++ Sess.talk b!"OK\r\n" ++ [.run true]
    let e := exec (Sim7x00.step Sess.arm) Sess.sim7x00 (.run false :: ops)
    e.trace.all (fun x => harmless x || x = .apiReset) = true ∧ .apiConnect ∈ e.trace ∧
    e.trace.filter isCmd = [.cmd b!"AT+CSQ" b!"AT+CSQ"] := by
  decide +kernel

theorem C47_sim800_dead (p : Platform) (rx tx : List Byte) (sched : List (List Hw))
    (rmem wmem : List Byte) (t : ConnType) (line ip id : List Byte) (hl : line.length = 61)
    (pre post : List Op) (hpre : ∀ ok, .run ok ∉ pre) :
    let d := exec (Sim800.step p) (Sim800.init (Ser.init rx tx sched) rmem wmem t line ip id) pre
    let e := exec (Sim800.step p) d (.run false :: post)
    ∃ new, e.trace = d.trace ++ new ∧ (new.all harmless = true →
      (∀ x ∈ new, status (statusSim b!"AT+CCID") x = true) ∧ e.cs = .notConnected) := by
  intro d e
  have hv : Sim800.Inv d := exec_inv (ok := fun _ => True) (fun _ op _ h => Sim800.step_inv p op h)
    (Sim800.inv_init rx tx sched rmem wmem t ip id hl) pre fun _ _ => trivial
  obtain ⟨new, h1, h2⟩ := Sim800.idles_failed p hv
    (Sim800.fresh_exec p ⟨rfl, rfl, rfl, rfl, rfl⟩ pre hpre) post
  exact ⟨new, h1, fun h => ⟨(h2 h).2, (h2 h).1.cs⟩⟩

/-- `connect()` is accepted after the failure, the port can be opened, the modem answers; the driver asks for
the signal strength, but does not connect. -/
example :
    let ops := [Op.run true, .setApn (some b!"a"), .setHostPort (some b!"h") 80 .tcp, .connect,
      .run true, .requestRSSI, .run true] ++ Sess.talk b!"+CSQ: 20,0\r\n" ++ Sess.talk b!"OK\r\n" ++ [.run true]
    let e := exec (Sim800.step Sess.arm) Sess.sim800 (.run false :: ops)
    e.trace.all (fun x => harmless x || x = .apiReset) = true ∧ .apiConnect ∈ e.trace ∧
    e.trace.filter isCmd = [.cmd b!"AT+CSQ" b!"AT+CSQ"] := by
  decide +kernel

theorem C47_espressif_dead (p : Platform) (rx tx : List Byte) (sched : List (List Hw))
    (rmem wmem : List Byte) (t : ConnType) (line mac : List Byte) (ssid passwd : CPtr) (hl : line.length = 61)
    (pre post : List Op) (hpre : ∀ ok, .run ok ∉ pre) :
    let d := exec (Espressif.step p) (Espressif.init (Ser.init rx tx sched) rmem wmem t line mac ssid passwd) pre
    let e := exec (Espressif.step p) d (.run false :: post)
    ∃ new, e.trace = d.trace ++ new ∧ (new.all harmless = true →
      (∀ x ∈ new, status (statusEsp) x = true) ∧ e.cs = .notConnected) := by
  intro d e
  have hv : Espressif.Inv d := exec_inv (ok := fun _ => True) (fun _ op _ h => Espressif.step_inv p op h)
    (Espressif.inv_init rx tx sched rmem wmem t mac ssid passwd hl) pre fun _ _ => trivial
  obtain ⟨new, h1, h2⟩ := Espressif.idles_failed p hv
    (Espressif.fresh_exec p ⟨rfl, rfl, rfl, rfl, rfl⟩ pre hpre) post
  exact ⟨new, h1, fun h => ⟨(h2 h).2, (h2 h).1.cs⟩⟩

/-- `connect()` is accepted after the failure, the port can be opened, the modem answers; the driver asks for
the signal strength, but does not connect. -/
example :
    let ops := [Op.run true, .setSSID (some b!"s"), .setPassword (some b!"p"), .setHostPort (some b!"h") 80 .tcp, .connect,
      .run true, .requestRSSI, .run true] ++ Sess.talk b!"+CSQ: 20,0\r\n" ++ Sess.talk b!"OK\r\n" ++ [.run true]
    let e := exec (Espressif.step Sess.arm) Sess.espressif (.run false :: ops)
    e.trace.all (fun x => harmless x || x = .apiReset) = true ∧ .apiConnect ∈ e.trace ∧
    e.trace.filter isCmd = [.cmd b!"AT+CWJAP?" b!"AT+CWJAP?"] := by
  decide +kernel

theorem C47_cc1352p7_dead (p : Platform) (rx tx : List Byte) (sched : List (List Hw))
    (rmem wmem : List Byte) (t : ConnType) (line mac : List Byte) (hl : line.length = 61)
    (pre post : List Op) (hpre : ∀ ok, .run ok ∉ pre) :
    let d := exec (CC1352P7.step p) (CC1352P7.init (Ser.init rx tx sched) rmem wmem t line mac) pre
    let e := exec (CC1352P7.step p) d (.run false :: post)
    ∃ new, e.trace = d.trace ++ new ∧ (new.all harmless = true →
      (∀ x ∈ new, status (statusCC) x = true) ∧ e.cs = .notConnected) := by
  intro d e
  have hv : CC1352P7.Inv d := exec_inv (ok := fun _ => True) (fun _ op _ h => CC1352P7.step_inv p op h)
    (CC1352P7.inv_init rx tx sched rmem wmem t mac hl) pre fun _ _ => trivial
  obtain ⟨new, h1, h2⟩ := CC1352P7.idles_failed p hv
    (CC1352P7.fresh_exec p ⟨rfl, rfl, rfl, rfl, rfl⟩ pre hpre) post
  exact ⟨new, h1, fun h => ⟨(h2 h).2, (h2 h).1.cs⟩⟩

/-- `connect()` is accepted after the failure, the port can be opened, the modem answers; the driver asks for
the signal strength, but does not connect. -/
example :
    let ops := [Op.run true, .setHostPort (some b!"h") 80 .tcp, .connect,
      .run true, .requestRSSI, .run true] ++ Sess.talk b!"+CSQ: 20,0\r\n" ++ Sess.talk b!"OK\r\n" ++ [.run true]
    let e := exec (CC1352P7.step Sess.arm) Sess.cc1352p7 (.run false :: ops)
    e.trace.all (fun x => harmless x || x = .apiReset) = true ∧ .apiConnect ∈ e.trace ∧
    e.trace.filter isCmd = [.cmd b!"AT+CSQ" b!"AT+CSQ"] := by
  decide +kernel

/-! ## C48: a datagram that arrives while the WiFi driver waits for an answer is the end

The driver has a UDP (or SSL) connection and waits for an answer; the next line is the announcement of a
datagram. From then on the driver does nothing on the serial line, whatever is called and received, until
`resetStates()`. -/

theorem C48_espressif_stuck (p : Platform) (rx tx : List Byte) (sched : List (List Hw))
    (rmem wmem : List Byte) (t : ConnType) (line mac : List Byte) (ssid passwd : CPtr)
    (hl : line.length = 61) (pre : List Op) :
    let d := exec (Espressif.step p) (Espressif.init (Ser.init rx tx sched) rmem wmem t line mac ssid passwd) pre
    ∀ ok l rest, (Espressif.run p d ok).trace = d.trace ++ .line l :: rest → b!"+IPD" <+: l →
    d.typ ≠ .tcp → Espressif.Snd.connected.idx ≤ d.snd.idx → d.snd ≠ .receiving → d.resetPending = false →
    (∃ w ∈ [b!"OK", b!">", b!"SEND OK", b!"ready", b!"WIFI DISCONNECT"], d.wait = some w) →
    ∀ post, .resetStates ∉ post →
      Silent (Espressif.run p d ok).trace
        (exec (Espressif.step p) (Espressif.run p d ok) post).trace := by
  have h0 : ∀ w ∈ [b!"OK", b!">", b!"SEND OK", b!"ready", b!"WIFI DISCONNECT"],
      (0 : Byte) ∉ w ∧ ¬ (w <+: b!"+IPD" ∨ b!"+IPD" <+: w) := by decide
  intro d ok l rest ht hp ht1 ht2 ht3 ht4 ⟨w, hw, hw'⟩ post hpost
  have hv : Espressif.Inv d := exec_inv (ok := fun _ => True) (fun _ op _ h => Espressif.step_inv p op h)
    (Espressif.inv_init rx tx sched rmem wmem t mac ssid passwd hl) pre fun _ _ => trivial
  refine Espressif.stuck_exec p (Espressif.stuck_datagram p hv.line ht4 ht1 ht2 ht3
    (.inl ⟨w, hw', h0 w hw⟩) ht hp) post hpost

/-- Such a history. -/
example :
    let d := exec (Espressif.step Sess.arm) Sess.espressif
      (Sess.upEsp .udp ++ [.write b!"hi", .run true] ++ Sess.say b!"+IPD,3:abc")
    (Espressif.run Sess.arm d true).trace = d.trace ++ [.line b!"+IPD,3:"] ∧ d.typ ≠ .tcp ∧
    Espressif.Snd.connected.idx ≤ d.snd.idx ∧ d.snd ≠ .receiving ∧ d.resetPending = false ∧
    d.wait = some b!">" := by decide +kernel

/-- What happens then: the driver announces two bytes to send, the modem announces a datagram
with three bytes before it sends its prompt. Nothing happens any more, whatever follows. -/
theorem C48_espressif_reachable : ∃ pre, ∀ post, .resetStates ∉ post →
    let d := exec (Espressif.step Sess.arm) Sess.espressif pre
    [.cmd b!"AT+CIPSEND=" b!"AT+CIPSEND=", .arg b!"2" b!"2",
      .arg b!"\r\n" b!"\r\n", .line b!"+IPD,3:"] <:+ d.trace ∧
    Silent d.trace (exec (Espressif.step Sess.arm) d post).trace :=
  ⟨Sess.upEsp .udp ++ [.write b!"hi", .run true] ++ Sess.say b!"+IPD,3:abc" ++ [.run true], fun post hpost =>
    ⟨by decide +kernel,
      Espressif.stuck_exec _ ⟨by decide +kernel, by decide +kernel, by decide +kernel, by decide +kernel⟩
        post hpost⟩⟩

/-! ## C49: an empty data block is the end

The cellular drivers: a data request is outstanding and the next line is a header for zero bytes. Unless the
application calls `disconnect()` immediately, the driver takes nothing from the serial line any more, sends
no payload and at most one command, until `resetStates()`. Once it has left the state in which it receives,
`disconnect()` does not help either. -/

theorem C49_sim7x00_deaf (p : Platform) (rx tx : List Byte) (sched : List (List Hw))
    (rmem wmem : List Byte) (t : ConnType) (line ip id : List Byte) (hl : line.length = 61)
    (pre : List Op) :
    let d := exec (Sim7x00.step p) (Sim7x00.init (Ser.init rx tx sched) rmem wmem t line ip id) pre
    ∀ ok l rest, (Sim7x00.run p d ok).trace = d.trace ++ .line l :: rest →
    ((Spec.rx requestSim (headerSim p)).after d.trace).req ≠ none → headerSim p l = some 0 →
    d.disconnectPending = false → d.resetPending = false →
    ∀ post, .resetStates ∉ post → .disconnect ∉ post →
      let e := exec (Sim7x00.step p) (Sim7x00.run p d ok) post
      Deaf (Sim7x00.run p d ok).trace e.trace ∧
      (e.snd ≠ .receiving → ∀ more, .resetStates ∉ more →
        Deaf e.trace (exec (Sim7x00.step p) e more).trace) := by
  intro d ok l rest ht hreq hz hd hr post h1 h2 e
  have hv : Sim7x00.Inv d := exec_inv (ok := fun _ => True) (fun _ op _ h => Sim7x00.step_inv p op h)
    (Sim7x00.inv_init rx tx sched rmem wmem t ip id hl) pre fun _ _ => trivial
  have hi : Sim7x00.RxI p d := Sim7x00.exec_stages (Sim7x00.rxI_sections p) (rx_calls)
    (Sim7x00.rxI_own p) (Sim7x00.inv_init rx tx sched rmem wmem t ip id hl)
    (rx_init rmem (by simp [Sim7x00.init, SimDev.init, SimDev.resetStates]) rfl
      (by simp [Sim7x00.init, SimDev.init, SimDev.resetStates]) rfl) pre
  have he : (Sim7x00.Empty e ∨ Sim7x00.Dead e ∨ Sim7x00.Stuck e) ∧ Deaf (Sim7x00.run p d ok).trace e.trace := by
    rcases Sim7x00.empty_header p hv.1.line hi hr hd ht hreq hz with h | h
    · exact Sim7x00.empty_exec p h post h1 h2
    · exact ⟨.inr (Sim7x00.dead_exec p h post h1).1, (Sim7x00.dead_exec p h post h1).2⟩
  refine ⟨he.2, fun hs more hm => ?_⟩
  rcases he.1 with h | h | h
  · exact absurd h.snd hs
  · exact (Sim7x00.dead_exec p h more hm).2
  · exact (Sim7x00.stuck_exec p h more hm).deaf

/-- Such a history. -/
example :
    let d := exec (Sim7x00.step Sess.arm) Sess.sim7x00 (Sess.up7x00 .tcp ++ Sess.talk b!"+CIPRXGET: 1,0\r\n" ++
      Sess.talk b!"+CIPRXGET: 4,0,5\r\nOK\r\n" ++ Sess.say b!"+CIPRXGET: 2,0,0,0\r\n")
    (Sim7x00.run Sess.arm d true).trace = d.trace ++ [.line b!"+CIPRXGET: 2,0,0,0\r\n"] ∧
    ((rx requestSim (headerSim Sess.arm)).after d.trace).req ≠ none ∧
    headerSim Sess.arm b!"+CIPRXGET: 2,0,0,0\r\n" = some 0 ∧ d.disconnectPending = false ∧
    d.resetPending = false := by decide +kernel

/-- What happens then: data are announced and requested, the answer has length zero. One more command is sent,
then nothing happens any more, whatever follows. -/
theorem C49_sim7x00_reachable : ∃ pre, ∀ post, .resetStates ∉ post →
    let d := exec (Sim7x00.step Sess.arm) Sess.sim7x00 pre
    [.cmd b!"AT+CIPRXGET=2,0," b!"AT+CIPRXGET=2,0,", .arg b!"5" b!"5",
      .arg b!"\r\n" b!"\r\n", .line b!"+CIPRXGET: 2,0,0,0\r\n", .cmd b!"AT+CIPRXGET=2,0," b!"AT+CIPRXGET=2,0,",
      .arg b!"5" b!"5", .arg b!"\r\n" b!"\r\n"] <:+ d.trace ∧
    Silent d.trace (exec (Sim7x00.step Sess.arm) d post).trace :=
  ⟨Sess.up7x00 .tcp ++ Sess.talk b!"+CIPRXGET: 1,0\r\n" ++ Sess.talk b!"+CIPRXGET: 4,0,5\r\nOK\r\n" ++
      Sess.talk b!"+CIPRXGET: 2,0,0,0\r\n" ++ [.run true, .run true], fun post hpost =>
    ⟨by decide +kernel,
      Sim7x00.stuck_exec _ ⟨by decide +kernel, by decide +kernel, by decide +kernel, by decide +kernel⟩
        post hpost⟩⟩

theorem C49_sim800_deaf (p : Platform) (rx tx : List Byte) (sched : List (List Hw))
    (rmem wmem : List Byte) (t : ConnType) (line ip id : List Byte) (hl : line.length = 61)
    (pre : List Op) :
    let d := exec (Sim800.step p) (Sim800.init (Ser.init rx tx sched) rmem wmem t line ip id) pre
    ∀ ok l rest, (Sim800.run p d ok).trace = d.trace ++ .line l :: rest →
    ((Spec.rx requestSim (headerSim p)).after d.trace).req ≠ none → headerSim p l = some 0 →
    d.disconnectPending = false → d.resetPending = false →
    ∀ post, .resetStates ∉ post → .disconnect ∉ post →
      let e := exec (Sim800.step p) (Sim800.run p d ok) post
      Deaf (Sim800.run p d ok).trace e.trace ∧
      (e.snd ≠ .receiving → ∀ more, .resetStates ∉ more →
        Deaf e.trace (exec (Sim800.step p) e more).trace) := by
  intro d ok l rest ht hreq hz hd hr post h1 h2 e
  have hv : Sim800.Inv d := exec_inv (ok := fun _ => True) (fun _ op _ h => Sim800.step_inv p op h)
    (Sim800.inv_init rx tx sched rmem wmem t ip id hl) pre fun _ _ => trivial
  have hi : Sim800.RxI p d := Sim800.exec_stages (Sim800.rxI_sections p) (rx_calls)
    (Sim800.rxI_own p) (Sim800.inv_init rx tx sched rmem wmem t ip id hl)
    (rx_init rmem (by simp [Sim800.init, SimDev.init, SimDev.resetStates]) rfl
      (by simp [Sim800.init, SimDev.init, SimDev.resetStates]) rfl) pre
  have he : (Sim800.Empty e ∨ Sim800.Dead e ∨ Sim800.Stuck e) ∧ Deaf (Sim800.run p d ok).trace e.trace := by
    rcases Sim800.empty_header p hv.1.line hi hr hd ht hreq hz with h | h
    · exact Sim800.empty_exec p h post h1 h2
    · exact ⟨.inr (Sim800.dead_exec p h post h1).1, (Sim800.dead_exec p h post h1).2⟩
  refine ⟨he.2, fun hs more hm => ?_⟩
  rcases he.1 with h | h | h
  · exact absurd h.snd hs
  · exact (Sim800.dead_exec p h more hm).2
  · exact (Sim800.stuck_exec p h more hm).deaf

/-- Such a history. -/
example :
    let d := exec (Sim800.step Sess.arm) Sess.sim800 (Sess.up800 .tcp ++ Sess.talk b!"+CIPRXGET: 1,0\r\n" ++
      Sess.talk b!"+CIPRXGET: 4,0,5\r\nOK\r\n" ++ Sess.say b!"+CIPRXGET: 2,0,0,0\r\n")
    (Sim800.run Sess.arm d true).trace = d.trace ++ [.line b!"+CIPRXGET: 2,0,0,0\r\n"] ∧
    ((rx requestSim (headerSim Sess.arm)).after d.trace).req ≠ none ∧
    headerSim Sess.arm b!"+CIPRXGET: 2,0,0,0\r\n" = some 0 ∧ d.disconnectPending = false ∧
    d.resetPending = false := by decide +kernel

/-- What happens then: data are announced and requested, the answer has length zero. One more command is sent,
then nothing happens any more, whatever follows. -/
theorem C49_sim800_reachable : ∃ pre, ∀ post, .resetStates ∉ post →
    let d := exec (Sim800.step Sess.arm) Sess.sim800 pre
    [.cmd b!"AT+CIPRXGET=2,0," b!"AT+CIPRXGET=2,0,", .arg b!"5" b!"5",
      .arg b!"\r\n" b!"\r\n", .line b!"+CIPRXGET: 2,0,0,0\r\n", .cmd b!"AT+CIPRXGET=2,0," b!"AT+CIPRXGET=2,0,",
      .arg b!"5" b!"5", .arg b!"\r\n" b!"\r\n"] <:+ d.trace ∧
    Silent d.trace (exec (Sim800.step Sess.arm) d post).trace :=
  ⟨Sess.up800 .tcp ++ Sess.talk b!"+CIPRXGET: 1,0\r\n" ++ Sess.talk b!"+CIPRXGET: 4,0,5\r\nOK\r\n" ++
      Sess.talk b!"+CIPRXGET: 2,0,0,0\r\n" ++ [.run true, .run true], fun post hpost =>
    ⟨by decide +kernel,
      Sim800.stuck_exec _ ⟨by decide +kernel, by decide +kernel, by decide +kernel, by decide +kernel⟩
        post hpost⟩⟩

end Verif.Props.Wedge
