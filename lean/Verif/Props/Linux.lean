import Verif.Props.Served
import Verif.Props.Pace
import Verif.Props.LineAsm
import Verif.Lemmas.Linux

/-!
# C84: a driver and a polled serial device under one scheduler

On Linux the serial device is a task (`UnixSerial`, a `BufferedSerialTask`) that takes one byte from the operating system
each time it is run. If the driver and the serial device are tasks of the same scheduler, then the driver is run between
any two runs of the serial device, unless the driver has asked for a delay. So as long as its delay is 0, no byte taken
from the operating system is lost, whatever the other tasks do and however long it takes. The CC1352P7 driver never asks
for a delay, the SIM7x00 driver does not while it is connected.

While a driver sleeps the serial device goes on taking bytes from the operating system, and drops them when its buffer is
full, although the operating system would have kept them (`C84_sim7x00_asleep`).
-/

namespace Verif.Props.Linux

open Verif Dev Spec Props.Served

theorem long_of_safe {S R X : Type} {x : List Byte → Byte → Prop} {d : Dev S R X} (h : LineAsm.SafeLines x d) {base new : List Ev}
    (e : d.trace = base ++ new) : ∀ l, .line l ∈ new → 1 ≤ l.length := by
  intro l hl
  obtain ⟨_, _, _, h1, _⟩ := h
  obtain ⟨_, _, c, hc, _⟩ := h1 l (by rw [e]; simp [hl])
  cases l with
  | nil => simp at hc
  | cons _ _ => simp

/-- Two tasks, the serial device first; the operating system has the bytes of the world. -/
def feed {D : Type} : Nat → D × List Byte → List Task → Spec.Turn (List Byte)
  | 0, w, ts => ⟨[.irq [⟨w.2.head?, true⟩]], true, w.2.tail, ts⟩
  | _, w, ts => ⟨[], true, w.2, ts⟩

theorem linux_feed {S R X : Type} : Spec.Linux 1 0 (feed (D := Dev S R X)) where
  apart := by decide
  serial w ts := ⟨_, rfl⟩
  driver w ts := ⟨rfl, rfl⟩
  others m w ts hm op hop := by
    cases m with
    | zero => exact absurd rfl hm
    | succ m => cases hop
  count m w ts := by cases m <;> rfl
  delay m w ts := by cases m <;> rfl

/-- The scheduler at its first task; a driver that asked for `delay` was run at time 0. -/
def pair {D : Type} (delay : Nat) (d : D) (l : List Byte) : Sched (D × List Byte) :=
  { tasks := [⟨0, 0, false, 0⟩, ⟨delay, 0, false, 0⟩], cur := 0, world := (d, l), ub := false }

/-! ## Sim7x00 -/

/-- **C84**, Sim7x00. As long as the driver does not ask for a delay. -/
theorem C84_sim7x00 {W : Type} (p : Platform) (rx tx : List Byte) (rmem wmem : List Byte)
    (t : ConnType) (line ip id : List Byte) (hl : line.length = 61) (h2 : 2 ≤ rx.length) (hz : rx.length < 2 ^ 64)
    (pre : List Op) {i j : Nat} (turn : Nat → Sim7x00.D × W → List Task → Spec.Turn W) (hL : Spec.Linux i j turn)
    (s : Sched (Sim7x00.D × W)) (hset : Spec.Set i j s) (tm : Nat → Nat) :
    let d := exec (Sim7x00.step p) (Sim7x00.init (Ser.init rx tx []) rmem wmem t line ip id) pre
    s.world.1 = d →
    d.isOpen = true → d.serialLocked = false → d.snd ≠ .serialError → d.ser.rx.ring.bytesAvailable = 0 →
    ∀ K, let ops := history (Sim7x00.step p) i turn s tm K
      let at_ := fun k => (stAt (system (Sim7x00.step p) i turn) s tm k).world.1
      (∀ k, k < K → (at_ k).delay = 0) →
      Spacious (Sim7x00.step p) (·.ser.txFree) 20 d ops →
      Honours requestSim (headerSim p) (at_ K).trace → Filled requestSim (headerSim p) (at_ K).trace →
      at_ K = exec (Sim7x00.step p) d ops ∧ Lossless (Sim7x00.step p) (·.ser.accepted) d ops := by
  intro d hd ho hu hs h0 K ops at_ haw hsp hh hf
  have hk := (system_history (Sim7x00.step p) hL hset tm K).1
  rw [hd] at hk
  obtain ⟨hp, hst, _⟩ := system_polled (Sim7x00.step p) hL hset tm K haw
  have hsafe := LineAsm.C38_safe_sim7x00 p rx tx [] rmem wmem t line ip id hl (pre ++ ops)
  rw [exec, List.foldl_append] at hsafe
  have he : at_ K = exec (Sim7x00.step p) d ops := hk
  rw [he] at hh hf
  exact ⟨he, C77_sim7x00 p rx tx [] rmem wmem t line ip id hl (by intro b hb; cases hb) hz 1 (by decide) (by omega) pre
    ho hu hs h0 ops hst hp hsp hh hf fun new e => long_of_safe hsafe e⟩

/-- **C84**, Sim7x00: no byte is lost while the driver is connected. -/
theorem C84_sim7x00_connected {W : Type} (p : Platform) (rx tx : List Byte) (rmem wmem : List Byte)
    (t : ConnType) (line ip id : List Byte) (hl : line.length = 61) (h2 : 2 ≤ rx.length) (hz : rx.length < 2 ^ 64)
    (pre : List Op) {i j : Nat} (turn : Nat → Sim7x00.D × W → List Task → Spec.Turn W) (hL : Spec.Linux i j turn)
    (s : Sched (Sim7x00.D × W)) (hset : Spec.Set i j s) (tm : Nat → Nat) :
    let d := exec (Sim7x00.step p) (Sim7x00.init (Ser.init rx tx []) rmem wmem t line ip id) pre
    s.world.1 = d →
    d.isOpen = true → d.serialLocked = false → d.snd ≠ .serialError → d.ser.rx.ring.bytesAvailable = 0 →
    ∀ K, let ops := history (Sim7x00.step p) i turn s tm K
      let at_ := fun k => (stAt (system (Sim7x00.step p) i turn) s tm k).world.1
      (∀ k, k < K → (at_ k).isConnected = true) →
      Spacious (Sim7x00.step p) (·.ser.txFree) 20 d ops →
      Honours requestSim (headerSim p) (at_ K).trace → Filled requestSim (headerSim p) (at_ K).trace →
      at_ K = exec (Sim7x00.step p) d ops ∧ Lossless (Sim7x00.step p) (·.ser.accepted) d ops := by
  intro d hd ho hu hs h0 K ops at_ hc
  refine C84_sim7x00 p rx tx rmem wmem t line ip id hl h2 hz pre turn hL s hset tm hd ho hu hs h0 K ?_
  intro k hkK
  have hk := (system_history (Sim7x00.step p) hL hset tm k).1
  rw [hd] at hk
  have := Pace.C78_sim7x00_delay p rx tx [] rmem wmem t line ip id hl (pre ++ history (Sim7x00.step p) i turn s tm k)
  dsimp only at this
  rw [exec, List.foldl_append] at this
  have hc := hc k hkK
  dsimp only [at_] at hc ⊢
  rw [hk] at hc ⊢
  exact this.2 hc

/-- A line and the beginning of another one come in, byte by byte. -/
example :
    let d := exec (Sim7x00.step Sess.arm) Sess.sim7x00 (Sess.up7x00 .tcp ++ [.irq (List.replicate 80 ⟨none, true⟩)])
    let s := pair 0 d b!"\r\nHello\r\n+"
    let ops := history (Sim7x00.step Sess.arm) 1 feed s id 22
    let at_ := fun k => (stAt (system (Sim7x00.step Sess.arm) 1 feed) s id k).world.1
    (d.isOpen = true ∧ d.serialLocked = false ∧ d.snd ≠ .serialError ∧ d.ser.rx.ring.bytesAvailable = 0 ∧
      (∀ k, k < 22 → (at_ k).delay = 0 ∧ (at_ k).isConnected = true) ∧ ops.length = 22 ∧
      (at_ 22).trace = d.trace ++ [.line b!"\r\n", .line b!"Hello\r\n"]) ∧
    Spec.Set 1 0 s ∧ Spacious (Sim7x00.step Sess.arm) (·.ser.txFree) 20 d ops ∧
    Honours requestSim (headerSim Sess.arm) (at_ 22).trace ∧ Filled requestSim (headerSim Sess.arm) (at_ 22).trace :=
  ⟨by decide +kernel, ⟨by decide +kernel, by decide +kernel, by decide +kernel⟩, spacious_of (by decide +kernel),
    honours_of (by decide +kernel), filled_of (by decide +kernel)⟩

/-! ## Sim800 -/

/-- **C84**, Sim800. As long as the driver does not ask for a delay. -/
theorem C84_sim800 {W : Type} (p : Platform) (rx tx : List Byte) (rmem wmem : List Byte)
    (t : ConnType) (line ip id : List Byte) (hl : line.length = 61) (h2 : 2 ≤ rx.length) (hz : rx.length < 2 ^ 64)
    (pre : List Op) {i j : Nat} (turn : Nat → Sim800.D × W → List Task → Spec.Turn W) (hL : Spec.Linux i j turn)
    (s : Sched (Sim800.D × W)) (hset : Spec.Set i j s) (tm : Nat → Nat) :
    let d := exec (Sim800.step p) (Sim800.init (Ser.init rx tx []) rmem wmem t line ip id) pre
    s.world.1 = d →
    d.isOpen = true → d.serialLocked = false → d.snd ≠ .serialError → d.ser.rx.ring.bytesAvailable = 0 →
    ∀ K, let ops := history (Sim800.step p) i turn s tm K
      let at_ := fun k => (stAt (system (Sim800.step p) i turn) s tm k).world.1
      (∀ k, k < K → (at_ k).delay = 0) →
      Spacious (Sim800.step p) (·.ser.txFree) 20 d ops →
      Honours requestSim (headerSim p) (at_ K).trace → Filled requestSim (headerSim p) (at_ K).trace →
      at_ K = exec (Sim800.step p) d ops ∧ Lossless (Sim800.step p) (·.ser.accepted) d ops := by
  intro d hd ho hu hs h0 K ops at_ haw hsp hh hf
  have hk := (system_history (Sim800.step p) hL hset tm K).1
  rw [hd] at hk
  obtain ⟨hp, hst, _⟩ := system_polled (Sim800.step p) hL hset tm K haw
  have hsafe := LineAsm.C38_safe_sim800 p rx tx [] rmem wmem t line ip id hl (pre ++ ops)
  rw [exec, List.foldl_append] at hsafe
  have he : at_ K = exec (Sim800.step p) d ops := hk
  rw [he] at hh hf
  exact ⟨he, C77_sim800 p rx tx [] rmem wmem t line ip id hl (by intro b hb; cases hb) hz 1 (by decide) (by omega) pre
    ho hu hs h0 ops hst hp hsp hh hf fun new e => long_of_safe hsafe e⟩

/-- A line and the beginning of another one come in, byte by byte. -/
example :
    let d := exec (Sim800.step Sess.arm) Sess.sim800 (Sess.up800 .tcp ++ [.irq (List.replicate 80 ⟨none, true⟩)])
    let s := pair 0 d b!"\r\nHello\r\n+"
    let ops := history (Sim800.step Sess.arm) 1 feed s id 22
    let at_ := fun k => (stAt (system (Sim800.step Sess.arm) 1 feed) s id k).world.1
    (d.isOpen = true ∧ d.serialLocked = false ∧ d.snd ≠ .serialError ∧ d.ser.rx.ring.bytesAvailable = 0 ∧
      (∀ k, k < 22 → (at_ k).delay = 0 ∧ (at_ k).isConnected = true) ∧ ops.length = 22 ∧
      (at_ 22).trace = d.trace ++ [.line b!"\r\n", .line b!"Hello\r\n"]) ∧
    Spec.Set 1 0 s ∧ Spacious (Sim800.step Sess.arm) (·.ser.txFree) 20 d ops ∧
    Honours requestSim (headerSim Sess.arm) (at_ 22).trace ∧ Filled requestSim (headerSim Sess.arm) (at_ 22).trace :=
  ⟨by decide +kernel, ⟨by decide +kernel, by decide +kernel, by decide +kernel⟩, spacious_of (by decide +kernel),
    honours_of (by decide +kernel), filled_of (by decide +kernel)⟩

/-! ## Espressif -/

/-- **C84**, Espressif. As long as the driver does not ask for a delay. -/
theorem C84_espressif {W : Type} (p : Platform) (rx tx : List Byte) (rmem wmem : List Byte)
    (line mac : List Byte) (ssid passwd : CPtr) (hl : line.length = 61) (h2 : 2 ≤ rx.length) (hz : rx.length < 2 ^ 64)
    (pre : List Op) (hpre : ∀ op ∈ pre, Espressif.TcpOp op) {i j : Nat} (turn : Nat → Espressif.D × W → List Task → Spec.Turn W) (hL : Spec.Linux i j turn)
    (s : Sched (Espressif.D × W)) (hset : Spec.Set i j s) (tm : Nat → Nat) :
    let d := exec (Espressif.step p) (Espressif.init (Ser.init rx tx []) rmem wmem .tcp line mac ssid passwd) pre
    s.world.1 = d →
    d.isOpen = true → d.serialLocked = false → d.snd ≠ .serialError → d.ser.rx.ring.bytesAvailable = 0 →
    ∀ K, let ops := history (Espressif.step p) i turn s tm K
      let at_ := fun k => (stAt (system (Espressif.step p) i turn) s tm k).world.1
      (∀ k, k < K → (at_ k).delay = 0) →
      (∀ op ∈ ops, Espressif.TcpOp op) →
      Spacious (Espressif.step p) (·.ser.txFree) 20 d ops →
      Honours requestWifi (headerEsp p) (at_ K).trace → Filled requestWifi (headerEsp p) (at_ K).trace →
      at_ K = exec (Espressif.step p) d ops ∧ Lossless (Espressif.step p) (·.ser.accepted) d ops := by
  intro d hd ho hu hs h0 K ops at_ haw htcp hsp hh hf
  have hk := (system_history (Espressif.step p) hL hset tm K).1
  rw [hd] at hk
  obtain ⟨hp, hst, _⟩ := system_polled (Espressif.step p) hL hset tm K haw
  have hsafe := LineAsm.C38_safe_espressif p rx tx [] rmem wmem .tcp line mac ssid passwd hl (pre ++ ops)
  rw [exec, List.foldl_append] at hsafe
  have he : at_ K = exec (Espressif.step p) d ops := hk
  rw [he] at hh hf
  exact ⟨he, C77_espressif p rx tx [] rmem wmem line mac ssid passwd hl (by intro b hb; cases hb) hz 1 (by decide) (by omega) pre hpre
    ho hu hs h0 ops htcp hst hp hsp hh hf fun new e => long_of_safe hsafe e⟩

/-- A line and the beginning of another one come in, byte by byte. -/
example :
    let d := exec (Espressif.step Sess.arm) Sess.espressif (Sess.upEsp .tcp ++ [.irq (List.replicate 80 ⟨none, true⟩)])
    let s := pair 0 d b!"\r\nHello\r\n+"
    let ops := history (Espressif.step Sess.arm) 1 feed s id 22
    let at_ := fun k => (stAt (system (Espressif.step Sess.arm) 1 feed) s id k).world.1
    (d.isOpen = true ∧ d.serialLocked = false ∧ d.snd ≠ .serialError ∧ d.ser.rx.ring.bytesAvailable = 0 ∧
      (∀ k, k < 22 → (at_ k).delay = 0 ∧ (at_ k).isConnected = true) ∧ ops.length = 22 ∧
      (at_ 22).trace = d.trace ++ [.line b!"\r\n", .line b!"Hello\r\n"]) ∧
    Spec.Set 1 0 s ∧ Spacious (Espressif.step Sess.arm) (·.ser.txFree) 20 d ops ∧
    Honours requestWifi (headerEsp Sess.arm) (at_ 22).trace ∧ Filled requestWifi (headerEsp Sess.arm) (at_ 22).trace :=
  ⟨by decide +kernel, ⟨by decide +kernel, by decide +kernel, by decide +kernel⟩, spacious_of (by decide +kernel),
    honours_of (by decide +kernel), filled_of (by decide +kernel)⟩

/-! ## CC1352P7 -/

/-- **C84**, CC1352P7. The driver never sleeps. -/
theorem C84_cc1352p7 {W : Type} (p : Platform) (rx tx : List Byte) (rmem wmem : List Byte)
    (t : ConnType) (line mac : List Byte) (hl : line.length = 61) (h2 : 2 ≤ rx.length) (hz : rx.length < 2 ^ 64)
    (pre : List Op) {i j : Nat} (turn : Nat → CC1352P7.D × W → List Task → Spec.Turn W) (hL : Spec.Linux i j turn)
    (s : Sched (CC1352P7.D × W)) (hset : Spec.Set i j s) (tm : Nat → Nat) :
    let d := exec (CC1352P7.step p) (CC1352P7.init (Ser.init rx tx []) rmem wmem t line mac) pre
    s.world.1 = d →
    d.isOpen = true → d.serialLocked = false → d.snd ≠ .serialError → d.ser.rx.ring.bytesAvailable = 0 →
    ∀ K, let ops := history (CC1352P7.step p) i turn s tm K
      let at_ := fun k => (stAt (system (CC1352P7.step p) i turn) s tm k).world.1
      Spacious (CC1352P7.step p) (·.ser.txFree) 20 d ops →
      Honours requestWifi (headerCC p) (at_ K).trace → Filled requestWifi (headerCC p) (at_ K).trace →
      at_ K = exec (CC1352P7.step p) d ops ∧ Lossless (CC1352P7.step p) (·.ser.accepted) d ops := by
  intro d hd ho hu hs h0 K ops at_ hsp hh hf
  have hk := (system_history (CC1352P7.step p) hL hset tm K).1
  rw [hd] at hk
  have haw : ∀ k, k < K → (at_ k).delay = 0 := by
    intro k _
    have hk := (system_history (CC1352P7.step p) hL hset tm k).1
    rw [hd] at hk
    have := Pace.C78_cc1352p7_delay p rx tx [] rmem wmem t line mac hl (pre ++ history (CC1352P7.step p) i turn s tm k)
    dsimp only at this
    rw [exec, List.foldl_append] at this
    show (stAt _ s tm k).world.1.delay = 0
    rw [hk]
    exact this
  obtain ⟨hp, hst, _⟩ := system_polled (CC1352P7.step p) hL hset tm K haw
  have hsafe := LineAsm.C38_safe_cc1352p7 p rx tx [] rmem wmem t line mac hl (pre ++ ops)
  rw [exec, List.foldl_append] at hsafe
  have he : at_ K = exec (CC1352P7.step p) d ops := hk
  rw [he] at hh hf
  exact ⟨he, C77_cc1352p7 p rx tx [] rmem wmem t line mac hl (by intro b hb; cases hb) hz 1 (by decide) (by omega) pre
    ho hu hs h0 ops hst hp hsp hh hf fun new e => long_of_safe hsafe e⟩

/-- A line and the beginning of another one come in, byte by byte. -/
example :
    let d := exec (CC1352P7.step Sess.arm) Sess.cc1352p7 (Sess.upCC .tcp ++ [.irq (List.replicate 80 ⟨none, true⟩)])
    let s := pair 0 d b!"\r\nHello\r\n+"
    let ops := history (CC1352P7.step Sess.arm) 1 feed s id 22
    let at_ := fun k => (stAt (system (CC1352P7.step Sess.arm) 1 feed) s id k).world.1
    (d.isOpen = true ∧ d.serialLocked = false ∧ d.snd ≠ .serialError ∧ d.ser.rx.ring.bytesAvailable = 0 ∧
      (∀ k, k < 22 → (at_ k).delay = 0 ∧ (at_ k).isConnected = true) ∧ ops.length = 22 ∧
      (at_ 22).trace = d.trace ++ [.line b!"\r\n", .line b!"Hello\r\n"]) ∧
    Spec.Set 1 0 s ∧ Spacious (CC1352P7.step Sess.arm) (·.ser.txFree) 20 d ops ∧
    Honours requestWifi (headerCC Sess.arm) (at_ 22).trace ∧ Filled requestWifi (headerCC Sess.arm) (at_ 22).trace :=
  ⟨by decide +kernel, ⟨by decide +kernel, by decide +kernel, by decide +kernel⟩, spacious_of (by decide +kernel),
    honours_of (by decide +kernel), filled_of (by decide +kernel)⟩

/-! ## A sleeping driver -/

/-- **C84**: a SIM7x00 driver has restarted its modem and sleeps for 4 s. Meanwhile the modem boots and says 81 bytes. The
serial device is run 81 times, once every 2 ms, and takes them all from the operating system; the last one finds no place
in the receive buffer of 80 bytes and is lost. The driver is not run once. -/
theorem C84_sim7x00_asleep :
    let d := exec (Sim7x00.step Sess.arm) Sess.sim7x00 Pace.restart7x00
    let s := pair 4000 d (List.replicate 80 65 ++ [66])
    let ops := history (Sim7x00.step Sess.arm) 1 feed s id 162
    let e := stAt (system (Sim7x00.step Sess.arm) 1 feed) s id 162
    (d.isOpen = true ∧ d.serialLocked = false ∧ d.snd ≠ .serialError ∧ d.ser.rx.ring.bytesAvailable = 0 ∧ d.delay = 4000 ∧
      d.ser.accepted = [] ∧ ops = List.replicate 80 (.irq [⟨some 65, true⟩]) ++ [.irq [⟨some 66, true⟩]] ∧
      e.world.2 = [] ∧ e.world.1.ser.accepted = List.replicate 80 65) ∧
    Spec.Set 1 0 s ∧ Steady ops ∧ ¬ Lossless (Sim7x00.step Sess.arm) (·.ser.accepted) d ops :=
  ⟨by decide +kernel, ⟨by decide +kernel, by decide +kernel, by decide +kernel⟩, by unfold Steady; decide +kernel,
    not_lossless (by decide +kernel)⟩

end Verif.Props.Linux
