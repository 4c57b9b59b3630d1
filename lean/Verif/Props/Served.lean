import Verif.Lemmas.PolledSim7x00
import Verif.Lemmas.PolledSim800
import Verif.Lemmas.PolledEspressif
import Verif.Lemmas.PolledCC1352P7
import Verif.Spec.Sessions

/-!
# C77: how often `run()` has to be called

A driver takes at most one line or one block of payload out of the receive buffer of the serial device each time
`run()` is called. If it is called at least once per `k` bytes that arrive, and no line is shorter than `k` bytes,
no byte is ever lost, however long the driver is used. With `k = 1` this is a condition on the calls only.

The conditions: the serial device is open and not locked; bytes arrive between calls only; when `run()` is called there
are 20 free places in the transmit buffer; the modem sends no more payload than it was asked for and no empty data block.
-/

namespace Verif.Props.Served

open Verif Dev Spec

/-- Each byte arrives alone, after the transmit buffer was emptied, and is followed by a call of `run()`. -/
def drip (l : List Byte) : List Op :=
  l.flatMap fun c => [.irq (List.replicate 80 ⟨none, true⟩ ++ [⟨some c, false⟩]), .run true]

/-- `n` times two line feeds and a call of `run()`. -/
def flood (n : Nat) : List Op :=
  (List.replicate n [Op.irq [⟨some 10, false⟩, ⟨some 10, false⟩], .run true]).flatten

/-- Bytes accepted by the receive buffer during `ops` are all that arrived: a test for `Lossless`. -/
def lostIn {D : Type} (step : D → Op → D) (accepted : D → List Byte) (d : D) : List Op → Bool
  | [] => false
  | op :: ops =>
    (match op with
     | .irq hs => decide (accepted (step d (.irq hs)) ≠ accepted d ++ arriving hs)
     | _ => false) || lostIn step accepted (step d op) ops

theorem not_lossless {D : Type} {step : D → Op → D} {accepted : D → List Byte} {d : D} {ops : List Op}
    (h : lostIn step accepted d ops = true) : ¬ Lossless step accepted d ops := by
  induction ops generalizing d with
  | nil => simp [lostIn] at h
  | cons op ops ih =>
    intro hl
    unfold lostIn at h
    rw [Bool.or_eq_true] at h
    rcases h with h | h
    · cases op <;> first | (simp at h; done) | (exact absurd (hl [] _ ops rfl) (by simpa using h))
    · exact ih h fun pre hs post e => hl (op :: pre) hs post (by rw [e]; rfl)

/-- Test for `Spacious`. -/
def roomAt {D : Type} (step : D → Op → D) (free : D → Nat) (n : Nat) (d : D) : List Op → Bool
  | [] => true
  | op :: ops => (match op with | .run _ => decide (n ≤ free d) | _ => true) && roomAt step free n (step d op) ops

theorem spacious_of {D : Type} {step : D → Op → D} {free : D → Nat} {n : Nat} {d : D} {ops : List Op}
    (h : roomAt step free n d ops = true) : Spacious step free n d ops := by
  intro pre
  induction pre generalizing d ops with
  | nil =>
    intro post ok e
    subst e
    rw [List.nil_append] at h
    unfold roomAt at h
    rw [Bool.and_eq_true] at h
    simpa using h.1
  | cons op pre ih =>
    intro post ok e
    subst e
    rw [List.cons_append] at h
    unfold roomAt at h
    rw [Bool.and_eq_true] at h
    exact ih h.2 post ok rfl

theorem polled_of {k : Nat} {ops : List Op} (h : ∀ n, n ≤ ops.length → sinceRun (ops.take n) ≤ k) : Polled k ops := by
  intro pre hp
  have e := List.prefix_iff_eq_take.mp hp
  rw [e]
  exact h _ hp.length_le

/-- Test for `Filled`. -/
def filledFrom (w : List Byte) (hdr : List Byte → Option Nat) (s : Rx) : List Ev → Bool
  | [] => true
  | e :: t =>
    (match e with
     | .line l => s.req.isNone || decide (hdr l ≠ some 0)
     | _ => true) && filledFrom w hdr ((rx w hdr).step s e) t

theorem filled_of {w : List Byte} {hdr : List Byte → Option Nat} {t : List Ev}
    (h : filledFrom w hdr (rx w hdr).init t = true) : Filled w hdr t := by
  have key : ∀ (pre : List Ev) (s : Rx) (e : Ev) (post : List Ev),
      filledFrom w hdr s (pre ++ e :: post) = true →
      filledFrom w hdr (pre.foldl (rx w hdr).step s) (e :: post) = true := by
    intro pre
    induction pre with
    | nil => intro s e post h; exact h
    | cons x xs ih =>
      intro s e post h
      rw [List.cons_append] at h
      unfold filledFrom at h
      rw [Bool.and_eq_true] at h
      exact ih _ e post h.2
  intro pre e post he l hl hreq hn
  rw [he] at h
  have := key pre _ e post h
  unfold filledFrom at this
  rw [Bool.and_eq_true] at this
  have h1 := this.1
  subst hl
  have hreq' : (pre.foldl (rx w hdr).step (rx w hdr).init).req ≠ none := hreq
  simp only [Bool.or_eq_true, Option.isNone_iff_eq_none, decide_eq_true_eq] at h1
  rcases h1 with h1 | h1
  · exact hreq' h1
  · exact h1 hn

/-! ## Sim7x00 -/

/-- A driver that is run at least once per `k` received bytes loses no byte. -/
theorem C77_sim7x00 (p : Platform) (rx tx : List Byte) (sched : List (List Hw)) (rmem wmem : List Byte) (t : ConnType)
    (line : List Byte) (ip id : List Byte) (hl : line.length = 61) (hq : ∀ b ∈ sched, ∀ h ∈ b, h.rx = none) (hz : rx.length < 2 ^ 64)
    (k : Nat) (hk : k ≤ 9) (hk2 : 2 * k ≤ rx.length) (pre : List Op) :
    let d := exec (Sim7x00.step p) (Sim7x00.init (Ser.init rx tx sched) rmem wmem t line ip id) pre
    d.isOpen = true → d.serialLocked = false → d.snd ≠ .serialError → d.ser.rx.ring.bytesAvailable = 0 →
    ∀ ops, Steady ops → Polled k ops → Spacious (Sim7x00.step p) (·.ser.txFree) 20 d ops →
      let e := exec (Sim7x00.step p) d ops
      Honours requestSim (headerSim p) e.trace → Filled requestSim (headerSim p) e.trace →
      (∀ new, e.trace = d.trace ++ new → ∀ l, .line l ∈ new → k ≤ l.length) →
      Lossless (Sim7x00.step p) (·.ser.accepted) d ops := by
  intro d ho hu hs h0 ops hst hp hx e hh hf hlong
  have hi0 := Sim7x00.inv_init rx tx sched rmem wmem t ip id hl
  have hv : Sim7x00.Inv d := exec_inv (ok := fun _ => True) (fun _ op _ h => Sim7x00.step_inv p op h) hi0 pre fun _ _ => trivial
  have hr : Sim7x00.Pr p d := Sim7x00.exec_stages (Sim7x00.pr_sections p) (Sim7x00.pr_calls p) (Sim7x00.pr_own p)
    hi0 ⟨rx_init rmem (by simp [Sim7x00.init, SimDev.init, SimDev.resetStates]) rfl (by simp [Sim7x00.init, SimDev.init, SimDev.resetStates]) rfl,
      .zero rfl (by simp [Sim7x00.init, SimDev.init, SimDev.resetStates]) rfl⟩ pre
  have hn : (Sim7x00.init (Ser.init rx tx sched) rmem wmem t line ip id).ser.readBufferSize = rx.length :=
    (Ser.later_flush (Ser.init rx tx sched)).rxSize
  have hq0 : RxQuiet (Sim7x00.init (Ser.init rx tx sched) rmem wmem t line ip id).ser :=
    RxQuiet.later (s := Ser.init rx tx sched) hq (Ser.later_flush (Ser.init rx tx sched))
  have hc : d.ser.rx.ring.size = rx.length := (Sim7x00.later_exec p _ pre).rxSize.trans hn
  have hup : Sim7x00.Tended p d.trace rx.length d :=
    { inv := hv, pr := hr, quiet := hq0.later (Sim7x00.later_exec p _ pre), fine := ⟨ho, hu, hs⟩, cells := hc, small := hz
      max := by
        have : d.ext.maxRx = _ := Sim7x00.exec_maxRx p _ pre
        rw [this]; show 0 < 1500; decide
      roomy := Sim7x00.roomy_exec p (n := rx.length - 8) (Sim7x00.init (Ser.init rx tx sched) rmem wmem t line ip id) hq0 (by show 0 < 1500; decide) (by rw [hn]; exact hz) (by rw [hn]) (roomy_reset rfl) pre
      grown := ⟨[], by simp⟩ }
  exact (Sim7x00.serving p d.trace rx.length k).lossless hk2 hk hup (by exact h0) (fun _ _ => trivial) hst hp hx ⟨hh, hf, hlong⟩

/-- A block of data arrives byte by byte; everything is read and handed to the application. -/
example :
    let d := exec (Sim7x00.step Sess.arm) Sess.sim7x00 (Sess.up7x00 .tcp)
    let ops := drip b!"+CIPRXGET: 1,0\r\n+CIPRXGET: 4,0,5\r\nOK\r\n+CIPRXGET: 2,0,5,0\r\nhello\r\nOK\r\n"
    let e := exec (Sim7x00.step Sess.arm) d ops
    (d.isOpen = true ∧ d.serialLocked = false ∧ d.snd ≠ .serialError ∧ d.ser.rx.ring.bytesAvailable = 0 ∧
      e.rbuf.bytesAvailable = 5) ∧
    Steady ops ∧ Polled 1 ops ∧ Spacious (Sim7x00.step Sess.arm) (·.ser.txFree) 20 d ops ∧
    Honours requestSim (headerSim Sess.arm) e.trace ∧ Filled requestSim (headerSim Sess.arm) e.trace :=
  ⟨by decide +kernel, by unfold Steady; decide +kernel, polled_of (by decide +kernel), spacious_of (by decide +kernel),
    honours_of (by decide +kernel), filled_of (by decide +kernel)⟩

/-- If the lines of the modem are shorter than `k` the receive buffer overflows: two line feeds per call of `run()`. -/
theorem C77_sim7x00_flood :
    let d := exec (Sim7x00.step Sess.arm) Sess.sim7x00 (Sess.up7x00 .tcp)
    let ops := flood 81
    let e := exec (Sim7x00.step Sess.arm) d ops
    (d.isOpen = true ∧ d.serialLocked = false ∧ d.snd ≠ .serialError ∧ d.ser.rx.ring.bytesAvailable = 0) ∧
    Steady ops ∧ Polled 2 ops ∧ Spacious (Sim7x00.step Sess.arm) (·.ser.txFree) 20 d ops ∧
    Honours requestSim (headerSim Sess.arm) e.trace ∧ Filled requestSim (headerSim Sess.arm) e.trace ∧
    ¬ Lossless (Sim7x00.step Sess.arm) (·.ser.accepted) d ops :=
  ⟨by decide +kernel, by unfold Steady; decide +kernel, polled_of (by decide +kernel), spacious_of (by decide +kernel),
    honours_of (by decide +kernel), filled_of (by decide +kernel), not_lossless (by decide +kernel)⟩

/-! ## Sim800 -/

/-- A driver that is run at least once per `k` received bytes loses no byte. -/
theorem C77_sim800 (p : Platform) (rx tx : List Byte) (sched : List (List Hw)) (rmem wmem : List Byte) (t : ConnType)
    (line : List Byte) (ip id : List Byte) (hl : line.length = 61) (hq : ∀ b ∈ sched, ∀ h ∈ b, h.rx = none) (hz : rx.length < 2 ^ 64)
    (k : Nat) (hk : k ≤ 9) (hk2 : 2 * k ≤ rx.length) (pre : List Op) :
    let d := exec (Sim800.step p) (Sim800.init (Ser.init rx tx sched) rmem wmem t line ip id) pre
    d.isOpen = true → d.serialLocked = false → d.snd ≠ .serialError → d.ser.rx.ring.bytesAvailable = 0 →
    ∀ ops, Steady ops → Polled k ops → Spacious (Sim800.step p) (·.ser.txFree) 20 d ops →
      let e := exec (Sim800.step p) d ops
      Honours requestSim (headerSim p) e.trace → Filled requestSim (headerSim p) e.trace →
      (∀ new, e.trace = d.trace ++ new → ∀ l, .line l ∈ new → k ≤ l.length) →
      Lossless (Sim800.step p) (·.ser.accepted) d ops := by
  intro d ho hu hs h0 ops hst hp hx e hh hf hlong
  have hi0 := Sim800.inv_init rx tx sched rmem wmem t ip id hl
  have hv : Sim800.Inv d := exec_inv (ok := fun _ => True) (fun _ op _ h => Sim800.step_inv p op h) hi0 pre fun _ _ => trivial
  have hr : Sim800.Pr p d := Sim800.exec_stages (Sim800.pr_sections p) (Sim800.pr_calls p) (Sim800.pr_own p)
    hi0 ⟨rx_init rmem (by simp [Sim800.init, SimDev.init, SimDev.resetStates]) rfl (by simp [Sim800.init, SimDev.init, SimDev.resetStates]) rfl,
      .zero rfl (by simp [Sim800.init, SimDev.init, SimDev.resetStates]) rfl⟩ pre
  have hn : (Sim800.init (Ser.init rx tx sched) rmem wmem t line ip id).ser.readBufferSize = rx.length :=
    (Ser.later_flush (Ser.init rx tx sched)).rxSize
  have hq0 : RxQuiet (Sim800.init (Ser.init rx tx sched) rmem wmem t line ip id).ser :=
    RxQuiet.later (s := Ser.init rx tx sched) hq (Ser.later_flush (Ser.init rx tx sched))
  have hc : d.ser.rx.ring.size = rx.length := (Sim800.later_exec p _ pre).rxSize.trans hn
  have hup : Sim800.Tended p d.trace rx.length d :=
    { inv := hv, pr := hr, quiet := hq0.later (Sim800.later_exec p _ pre), fine := ⟨ho, hu, hs⟩, cells := hc, small := hz
      max := by
        have : d.ext.maxRx = _ := Sim800.exec_maxRx p _ pre
        rw [this]; show 0 < 1460; decide
      roomy := Sim800.roomy_exec p (n := rx.length - 8) (Sim800.init (Ser.init rx tx sched) rmem wmem t line ip id) hq0 (by show 0 < 1460; decide) (by rw [hn]; exact hz) (by rw [hn]) (roomy_reset rfl) pre
      grown := ⟨[], by simp⟩ }
  exact (Sim800.serving p d.trace rx.length k).lossless hk2 hk hup (by exact h0) (fun _ _ => trivial) hst hp hx ⟨hh, hf, hlong⟩

/-- A block of data arrives byte by byte; everything is read and handed to the application. -/
example :
    let d := exec (Sim800.step Sess.arm) Sess.sim800 (Sess.up800 .tcp)
    let ops := drip b!"+CIPRXGET: 1,0\r\n+CIPRXGET: 4,0,5\r\nOK\r\n+CIPRXGET: 2,0,5,0\r\nhello\r\nOK\r\n"
    let e := exec (Sim800.step Sess.arm) d ops
    (d.isOpen = true ∧ d.serialLocked = false ∧ d.snd ≠ .serialError ∧ d.ser.rx.ring.bytesAvailable = 0 ∧
      e.rbuf.bytesAvailable = 5) ∧
    Steady ops ∧ Polled 1 ops ∧ Spacious (Sim800.step Sess.arm) (·.ser.txFree) 20 d ops ∧
    Honours requestSim (headerSim Sess.arm) e.trace ∧ Filled requestSim (headerSim Sess.arm) e.trace :=
  ⟨by decide +kernel, by unfold Steady; decide +kernel, polled_of (by decide +kernel), spacious_of (by decide +kernel),
    honours_of (by decide +kernel), filled_of (by decide +kernel)⟩

/-- If the lines of the modem are shorter than `k` the receive buffer overflows: two line feeds per call of `run()`. -/
theorem C77_sim800_flood :
    let d := exec (Sim800.step Sess.arm) Sess.sim800 (Sess.up800 .tcp)
    let ops := flood 81
    let e := exec (Sim800.step Sess.arm) d ops
    (d.isOpen = true ∧ d.serialLocked = false ∧ d.snd ≠ .serialError ∧ d.ser.rx.ring.bytesAvailable = 0) ∧
    Steady ops ∧ Polled 2 ops ∧ Spacious (Sim800.step Sess.arm) (·.ser.txFree) 20 d ops ∧
    Honours requestSim (headerSim Sess.arm) e.trace ∧ Filled requestSim (headerSim Sess.arm) e.trace ∧
    ¬ Lossless (Sim800.step Sess.arm) (·.ser.accepted) d ops :=
  ⟨by decide +kernel, by unfold Steady; decide +kernel, polled_of (by decide +kernel), spacious_of (by decide +kernel),
    honours_of (by decide +kernel), filled_of (by decide +kernel), not_lossless (by decide +kernel)⟩

/-! ## Espressif -/

/-- A driver that is run at least once per `k` received bytes loses no byte (TCP). -/
theorem C77_espressif (p : Platform) (rx tx : List Byte) (sched : List (List Hw)) (rmem wmem : List Byte) 
    (line : List Byte) (mac : List Byte) (ssid passwd : CPtr) (hl : line.length = 61) (hq : ∀ b ∈ sched, ∀ h ∈ b, h.rx = none) (hz : rx.length < 2 ^ 64)
    (k : Nat) (hk : k ≤ 31) (hk2 : 2 * k ≤ rx.length) (pre : List Op) (hpre : ∀ op ∈ pre, Espressif.TcpOp op) :
    let d := exec (Espressif.step p) (Espressif.init (Ser.init rx tx sched) rmem wmem .tcp line mac ssid passwd) pre
    d.isOpen = true → d.serialLocked = false → d.snd ≠ .serialError → d.ser.rx.ring.bytesAvailable = 0 →
    ∀ ops, (∀ op ∈ ops, Espressif.TcpOp op) → Steady ops → Polled k ops → Spacious (Espressif.step p) (·.ser.txFree) 20 d ops →
      let e := exec (Espressif.step p) d ops
      Honours requestWifi (headerEsp p) e.trace → Filled requestWifi (headerEsp p) e.trace →
      (∀ new, e.trace = d.trace ++ new → ∀ l, .line l ∈ new → k ≤ l.length) →
      Lossless (Espressif.step p) (·.ser.accepted) d ops := by
  intro d ho hu hs h0 ops hops hst hp hx e hh hf hlong
  have hi0 : Espressif.TcpInv (Espressif.init (Ser.init rx tx sched) rmem wmem .tcp line mac ssid passwd) := ⟨Espressif.inv_init rx tx sched rmem wmem .tcp mac ssid passwd hl, .of_zero rfl, rfl⟩
  have hv : Espressif.TcpInv d := exec_inv (ok := Espressif.TcpOp) (fun _ op ho h => Espressif.step_tcpInv p op ho h) hi0 pre hpre
  have hr : Espressif.Pr p d := Espressif.exec_stages_tcp (Espressif.pr_sections p) (Espressif.pr_calls p) (Espressif.pr_host p) (Espressif.pr_own p)
    hi0 ⟨⟨rx_init rmem (by simp [Espressif.init, Espressif.resetStates]) rfl (by simp [Espressif.init, Espressif.resetStates]) rfl, rfl, by simp [Espressif.init, Espressif.resetStates]⟩,
      .zero rfl (by simp [Espressif.init, Espressif.resetStates]) rfl⟩ pre hpre
  have hn : (Espressif.init (Ser.init rx tx sched) rmem wmem .tcp line mac ssid passwd).ser.readBufferSize = rx.length :=
    (Ser.later_flush (Ser.init rx tx sched)).rxSize
  have hq0 : RxQuiet (Espressif.init (Ser.init rx tx sched) rmem wmem .tcp line mac ssid passwd).ser :=
    RxQuiet.later (s := Ser.init rx tx sched) hq (Ser.later_flush (Ser.init rx tx sched))
  have hc : d.ser.rx.ring.size = rx.length := (Espressif.later_exec p _ pre).rxSize.trans hn
  have hup : Espressif.Tended p d.trace rx.length d :=
    { inv := hv, pr := hr, quiet := hq0.later (Espressif.later_exec p _ pre), fine := ⟨ho, hu, hs⟩, cells := hc, small := hz
      roomy := Espressif.roomy_exec p (n := rx.length - 30) (Espressif.init (Ser.init rx tx sched) rmem wmem .tcp line mac ssid passwd) hq0 (by rw [hn]; exact hz) (by rw [hn]) (roomy_reset rfl) pre
      grown := ⟨[], by simp⟩ }
  exact (Espressif.serving p d.trace rx.length k).lossless hk2 hk hup (by exact h0) hops hst hp hx ⟨hh, hf, hlong⟩

/-- A block of data arrives byte by byte; everything is read and handed to the application. -/
example :
    let d := exec (Espressif.step Sess.arm) Sess.espressif (Sess.upEsp .tcp)
    let ops := drip b!"+IPD,5\r\n+CIPRECVDATA,5:hello\r\nOK\r\n"
    let e := exec (Espressif.step Sess.arm) d ops
    (d.isOpen = true ∧ d.serialLocked = false ∧ d.snd ≠ .serialError ∧ d.ser.rx.ring.bytesAvailable = 0 ∧
      e.rbuf.bytesAvailable = 5) ∧
    (∀ op ∈ ops, Espressif.TcpOp op) ∧ Steady ops ∧ Polled 1 ops ∧ Spacious (Espressif.step Sess.arm) (·.ser.txFree) 20 d ops ∧
    Honours requestWifi (headerEsp Sess.arm) e.trace ∧ Filled requestWifi (headerEsp Sess.arm) e.trace :=
  ⟨by decide +kernel, (fun op h a q t e => by subst e; revert h; unfold drip; simp), by unfold Steady; decide +kernel, polled_of (by decide +kernel), spacious_of (by decide +kernel),
    honours_of (by decide +kernel), filled_of (by decide +kernel)⟩

/-- If the lines of the modem are shorter than `k` the receive buffer overflows: two line feeds per call of `run()`. -/
theorem C77_espressif_flood :
    let d := exec (Espressif.step Sess.arm) Sess.espressif (Sess.upEsp .tcp)
    let ops := flood 81
    let e := exec (Espressif.step Sess.arm) d ops
    (d.isOpen = true ∧ d.serialLocked = false ∧ d.snd ≠ .serialError ∧ d.ser.rx.ring.bytesAvailable = 0) ∧
    Steady ops ∧ Polled 2 ops ∧ Spacious (Espressif.step Sess.arm) (·.ser.txFree) 20 d ops ∧
    Honours requestWifi (headerEsp Sess.arm) e.trace ∧ Filled requestWifi (headerEsp Sess.arm) e.trace ∧
    ¬ Lossless (Espressif.step Sess.arm) (·.ser.accepted) d ops :=
  ⟨by decide +kernel, by unfold Steady; decide +kernel, polled_of (by decide +kernel), spacious_of (by decide +kernel),
    honours_of (by decide +kernel), filled_of (by decide +kernel), not_lossless (by decide +kernel)⟩

/-! ## CC1352P7 -/

/-- A driver that is run at least once per `k` received bytes loses no byte. -/
theorem C77_cc1352p7 (p : Platform) (rx tx : List Byte) (sched : List (List Hw)) (rmem wmem : List Byte) (t : ConnType)
    (line : List Byte) (mac : List Byte) (hl : line.length = 61) (hq : ∀ b ∈ sched, ∀ h ∈ b, h.rx = none) (hz : rx.length < 2 ^ 64)
    (k : Nat) (hk : k ≤ 31) (hk2 : 2 * k ≤ rx.length) (pre : List Op) :
    let d := exec (CC1352P7.step p) (CC1352P7.init (Ser.init rx tx sched) rmem wmem t line mac) pre
    d.isOpen = true → d.serialLocked = false → d.snd ≠ .serialError → d.ser.rx.ring.bytesAvailable = 0 →
    ∀ ops, Steady ops → Polled k ops → Spacious (CC1352P7.step p) (·.ser.txFree) 20 d ops →
      let e := exec (CC1352P7.step p) d ops
      Honours requestWifi (headerCC p) e.trace → Filled requestWifi (headerCC p) e.trace →
      (∀ new, e.trace = d.trace ++ new → ∀ l, .line l ∈ new → k ≤ l.length) →
      Lossless (CC1352P7.step p) (·.ser.accepted) d ops := by
  intro d ho hu hs h0 ops hst hp hx e hh hf hlong
  have hi0 := CC1352P7.inv_init rx tx sched rmem wmem t mac hl
  have hv : CC1352P7.Inv d := exec_inv (ok := fun _ => True) (fun _ op _ h => CC1352P7.step_inv p op h) hi0 pre fun _ _ => trivial
  have hr : CC1352P7.Pr p d := CC1352P7.exec_stages (CC1352P7.pr_sections p) (CC1352P7.pr_calls p) (CC1352P7.pr_own p)
    hi0 ⟨rx_init rmem (by simp [CC1352P7.init, CC1352P7.resetStates]) rfl (by simp [CC1352P7.init, CC1352P7.resetStates]) rfl,
      .zero rfl (by simp [CC1352P7.init, CC1352P7.resetStates]) rfl⟩ pre
  have hn : (CC1352P7.init (Ser.init rx tx sched) rmem wmem t line mac).ser.readBufferSize = rx.length :=
    (Ser.later_flush (Ser.init rx tx sched)).rxSize
  have hq0 : RxQuiet (CC1352P7.init (Ser.init rx tx sched) rmem wmem t line mac).ser :=
    RxQuiet.later (s := Ser.init rx tx sched) hq (Ser.later_flush (Ser.init rx tx sched))
  have hc : d.ser.rx.ring.size = rx.length := (CC1352P7.later_exec p _ pre).rxSize.trans hn
  have hup : CC1352P7.Tended p d.trace rx.length d :=
    { inv := hv, pr := hr, quiet := hq0.later (CC1352P7.later_exec p _ pre), fine := ⟨ho, hu, hs⟩, cells := hc, small := hz
      roomy := CC1352P7.roomy_exec p (n := rx.length - 30) (CC1352P7.init (Ser.init rx tx sched) rmem wmem t line mac) hq0 (by rw [hn]; exact hz) (by rw [hn]) (roomy_reset rfl) pre
      grown := ⟨[], by simp⟩ }
  exact (CC1352P7.serving p d.trace rx.length k).lossless hk2 hk hup (by exact h0) (fun _ _ => trivial) hst hp hx ⟨hh, hf, hlong⟩

/-- A block of data arrives byte by byte; everything is read and handed to the application. -/
example :
    let d := exec (CC1352P7.step Sess.arm) Sess.cc1352p7 (Sess.upCC .tcp)
    let ops := drip b!"+IPD,5\r\n+CIPRECVDATA,5\r\nhello\r\nOK\r\n"
    let e := exec (CC1352P7.step Sess.arm) d ops
    (d.isOpen = true ∧ d.serialLocked = false ∧ d.snd ≠ .serialError ∧ d.ser.rx.ring.bytesAvailable = 0 ∧
      e.rbuf.bytesAvailable = 5) ∧
    Steady ops ∧ Polled 1 ops ∧ Spacious (CC1352P7.step Sess.arm) (·.ser.txFree) 20 d ops ∧
    Honours requestWifi (headerCC Sess.arm) e.trace ∧ Filled requestWifi (headerCC Sess.arm) e.trace :=
  ⟨by decide +kernel, by unfold Steady; decide +kernel, polled_of (by decide +kernel), spacious_of (by decide +kernel),
    honours_of (by decide +kernel), filled_of (by decide +kernel)⟩

/-- If the lines of the modem are shorter than `k` the receive buffer overflows: two line feeds per call of `run()`. -/
theorem C77_cc1352p7_flood :
    let d := exec (CC1352P7.step Sess.arm) Sess.cc1352p7 (Sess.upCC .tcp)
    let ops := flood 81
    let e := exec (CC1352P7.step Sess.arm) d ops
    (d.isOpen = true ∧ d.serialLocked = false ∧ d.snd ≠ .serialError ∧ d.ser.rx.ring.bytesAvailable = 0) ∧
    Steady ops ∧ Polled 2 ops ∧ Spacious (CC1352P7.step Sess.arm) (·.ser.txFree) 20 d ops ∧
    Honours requestWifi (headerCC Sess.arm) e.trace ∧ Filled requestWifi (headerCC Sess.arm) e.trace ∧
    ¬ Lossless (CC1352P7.step Sess.arm) (·.ser.accepted) d ops :=
  ⟨by decide +kernel, by unfold Steady; decide +kernel, polled_of (by decide +kernel), spacious_of (by decide +kernel),
    honours_of (by decide +kernel), filled_of (by decide +kernel), not_lossless (by decide +kernel)⟩

end Verif.Props.Served
