import Verif.Lemmas.Mbed
import Verif.Props.Sched

/-!
# Property C88: the serial port and the clock of mbed

Stated for every sequence of calls of the application, of atomic steps of its write functions and of interrupts,
starting with the constructor.
-/

namespace Verif.Props.Mbed

open Verif.Mbed Verif.Props.Sched

/-- **C88**, armed: between the calls of the application unsent data are buffered only if the transmit interrupt has its
handler, whatever interrupts happened at whatever time; no `open()` is needed. -/
theorem C88_armed (rmem wmem : List Byte) (as : List Act) (hpc : (exec (init rmem wmem) as).pc = .idle)
    (hb : (exec (init rmem wmem) as).ser.tx.ring.bytesAvailable ≠ 0) :
    (exec (init rmem wmem) as).txIrq = true := by
  have e := up_exec as (init rmem wmem) rfl
  obtain ⟨_, hA⟩ := Stm32.exec_armed (trs (init rmem wmem) as) (u := up (init rmem wmem)) ⟨rfl, rfl, rfl⟩
    (Or.inr (Or.inr rfl)) (trs_all (P := fun _ => True) (fun p a _ => tr_stays p a) as (fun _ _ => trivial) _)
  rw [← e] at hA
  rcases hA with h | h | h
  · exact absurd ((up_idle _).2 hpc) h
  · exact h
  · exact absurd h hb

/-- **C88**, stream: the bytes on the wire followed by the buffered bytes are the bytes all `write(data, size)` calls
accepted, in order; `writeBufferProcessed()` tells whether all of them are on the wire. -/
theorem C88_stream (rmem wmem : List Byte) (as : List Act) (ha : ∀ a ∈ as, ∀ c, a ≠ .callWrite1 c) :
    ∃ unsent, (exec (init rmem wmem) as).ser.wire ++ unsent = (exec (init rmem wmem) as).ser.sent ∧
      unsent.length = (exec (init rmem wmem) as).ser.tx.ring.bytesAvailable ∧
      (writeBufferProcessed (exec (init rmem wmem) as) = true ↔
        (exec (init rmem wmem) as).ser.wire = (exec (init rmem wmem) as).ser.sent) := by
  have e := up_exec as (init rmem wmem) rfl
  have hs : ∀ a ∈ as, Sized a := by
    intro a h
    have := ha a h
    cases a <;> first | trivial | exact (this _ rfl).elim
  obtain ⟨tq, h⟩ := Stm32.exec_stream (trs (init rmem wmem) as) (u := up (init rmem wmem))
    (tq := []) ⟨(Stm32.init_stream rmem wmem).rep, Nat.zero_le _⟩
    (trs_all (fun p a h => tr_checked p a h) as hs _)
  rw [← e] at h
  have h1 : (exec (init rmem wmem) as).ser.wire ++ tq = (exec (init rmem wmem) as).ser.sent := h.rep.txs
  have h2 : tq.length = (exec (init rmem wmem) as).ser.tx.ring.bytesAvailable := h.rep.available.symm
  refine ⟨tq, h1, h2, ?_⟩
  unfold writeBufferProcessed
  rw [beq_iff_eq, ← h2, ← h1]
  constructor
  · intro hz; rw [List.eq_nil_of_length_eq_zero hz, List.append_nil]
  · intro hz
    have := congrArg List.length hz
    simp only [List.length_append] at this
    omega

/-- **C88**, accepts: a `write` call accepts the first bytes of its data, as many as there was space for when it was
called, whatever interrupts happen during the call. -/
theorem C88_accepts (rmem wmem : List Byte) (pre as : List Act) (data : List Byte)
    (hidle : (exec (init rmem wmem) pre).pc = .idle)
    (ha : ∀ a ∈ as, (∀ d, a ≠ .callWrite d) ∧ ∀ c, a ≠ .callWrite1 c)
    (hpc : (exec (init rmem wmem) (pre ++ .callWrite data :: as)).pc = .idle) :
    (exec (init rmem wmem) (pre ++ .callWrite data :: as)).ser.sent =
      (exec (init rmem wmem) pre).ser.sent ++
        data.take (exec (init rmem wmem) pre).ser.tx.ring.spaceAvailable := by
  have hx : exec (init rmem wmem) (pre ++ .callWrite data :: as) =
      exec (step (exec (init rmem wmem) pre) (.callWrite data)) as := by
    simp [exec, List.foldl_append]
  have hr : (exec (init rmem wmem) pre).rxIrq = true := exec_rxIrq pre _
  have hsched : (exec (init rmem wmem) pre).ser.sched = [] := by
    have := Stm32.exec_run (trs (init rmem wmem) pre) (u := up (init rmem wmem)) ⟨rfl, rfl, rfl⟩
      (trs_all (P := fun _ => True) (fun p a _ => tr_stays p a) pre (fun _ _ => trivial) _)
    rw [← up_exec pre _ rfl] at this
    exact this.sched
  rw [hx] at hpc ⊢
  generalize exec (init rmem wmem) pre = p at *
  obtain ⟨e1, e2, e3, e4, e5⟩ := Stm32.space_tx hsched
  have hst : step p (.callWrite data) =
      { p with ser := p.ser.spaceAvailable.1, pc := .copy (data.take p.ser.spaceAvailable.2) } := by
    unfold step; dsimp only; rw [if_pos hidle]
  have hq : ∀ a ∈ as, Quiet a := by
    intro a h
    have := ha a h
    cases a <;> first | trivial | exact (this.1 _ rfl).elim | exact (this.2 _ rfl).elim
  have hr' : (step p (.callWrite data)).rxIrq = true := by rw [step_rxIrq]; exact hr
  have hm := Stm32.exec_sent (trs (step p (.callWrite data)) as) (u := up (step p (.callWrite data)))
    (step_sched hr hsched _) (trs_all (fun p a h => tr_noCall p a h) as hq _)
  rw [← up_exec as _ hr'] at hm
  have hrest : Stm32.rest (up (exec (step p (.callWrite data)) as)) = [] := by
    unfold Stm32.rest; rw [(up_idle _).2 hpc]
  rw [hrest, List.append_nil] at hm
  have hm' : (exec (step p (.callWrite data)) as).ser.sent =
      (step p (.callWrite data)).ser.sent ++ Stm32.rest (up (step p (.callWrite data))) := hm
  rw [hm', hst]
  show p.ser.spaceAvailable.1.sent ++ data.take p.ser.spaceAvailable.2 = _
  rw [e3, e5]

/-- **C88**, drains: once the UART is ready to send as many times as bytes are buffered, everything accepted is on the
wire and the transmit interrupt has no handler any more. -/
theorem C88_drains (rmem wmem : List Byte) (as : List Act) (ha : ∀ a ∈ as, ∀ c, a ≠ .callWrite1 c)
    (hpc : (exec (init rmem wmem) as).pc = .idle) (hs : List Hw) (hok : ∀ h ∈ hs, h.txOk = true)
    (hl : hs.length = (exec (init rmem wmem) as).ser.tx.ring.bytesAvailable) :
    (exec (init rmem wmem) (as ++ hs.map .event)).ser.wire = (exec (init rmem wmem) as).ser.sent ∧
    writeBufferProcessed (exec (init rmem wmem) (as ++ hs.map .event)) = true ∧
    (hs ≠ [] → (exec (init rmem wmem) (as ++ hs.map .event)).txIrq = false) := by
  have e := up_exec as (init rmem wmem) rfl
  have hsz : ∀ a ∈ as, Sized a := by
    intro a h
    have := ha a h
    cases a <;> first | trivial | exact (this _ rfl).elim
  obtain ⟨tq, h⟩ := Stm32.exec_stream (trs (init rmem wmem) as) (u := up (init rmem wmem))
    (tq := []) ⟨(Stm32.init_stream rmem wmem).rep, Nat.zero_le _⟩
    (trs_all (fun p a h => tr_checked p a h) as hsz _)
  rw [← e] at h
  have harm := C88_armed rmem wmem as hpc
  have hr : (exec (init rmem wmem) as).rxIrq = true := exec_rxIrq as _
  have hx : exec (init rmem wmem) (as ++ hs.map .event) = exec (exec (init rmem wmem) as) (hs.map .event) := by
    simp [exec, List.foldl_append]
  rw [hx]
  generalize exec (init rmem wmem) as = p at *
  have hlen : p.ser.tx.ring.bytesAvailable = tq.length := h.rep.available
  have ht : tq = [] ∨ (up p).txeie = true := by
    by_cases hz : p.ser.tx.ring.bytesAvailable = 0
    · left; rw [hlen] at hz; exact List.eq_nil_of_length_eq_zero hz
    · exact Or.inr (harm hz)
  obtain ⟨a, b, c⟩ := Stm32.drain hs hok (u := up p) rfl h.rep ht (by rw [hl, hlen])
  have hev : ∀ (hs : List Hw) (p : Port), trs p (hs.map Act.event) = Stm32.events hs := by
    intro hs
    induction hs with
    | nil => intro p; rfl
    | cons x xs ih =>
      intro p
      show tr p (.event x) ++ trs (step p (.event x)) (xs.map Act.event) = _
      rw [ih]; rfl
  have hu := up_exec (hs.map Act.event) p hr
  rw [hev] at hu
  rw [← hu] at a b c
  refine ⟨?_, ?_, c⟩
  · have hb : (exec p (hs.map Act.event)).ser.wire = p.ser.wire ++ tq := b
    rw [hb]
    exact h.rep.txs
  · unfold writeBufferProcessed
    rw [beq_iff_eq]
    exact a.available

/-- **C88**, off: after every interrupt the transmit interrupt has its handler only if there is something to send. -/
theorem C88_off (p : Port) (h : Hw) (hf : (h.rx.isSome && p.rxIrq) || (h.txOk && p.txIrq))
    (ht : (step p (.event h)).txIrq = true) : writeBufferProcessed (step p (.event h)) = false := by
  have e : step p (.event h) = handleInterrupt p h := by
    have : fires p h = true := hf
    simp [step, this]
  rw [e] at ht ⊢
  unfold writeBufferProcessed
  unfold handleInterrupt at ht ⊢
  dsimp only at ht ⊢
  by_cases hb : (p.ser.transfer h).tx.ring.bytesAvailable = 0
  · rw [if_pos hb] at ht; cases ht
  · simpa using hb

/-- The byte the UART has received when something happens. -/
def received : Act → List Byte
  | .event h => h.rx.toList
  | _ => []

/-- **C88**, hears: every byte the UART receives gets to the read buffer (which drops it if it is full), in order,
from the constructor on: before `open()` and after `close()` as well. -/
theorem C88_hears (rmem wmem : List Byte) (as : List Act) :
    (exec (init rmem wmem) as).ser.arrived = as.flatMap received := by
  have e : brought = received := by funext a; cases a <;> rfl
  rw [exec_arrived as (p := init rmem wmem) rfl rfl, e]
  rfl

/-- Neither `open()` nor `close()`. -/
def other : Act → Bool
  | .callOpen => false
  | .callClose => false
  | _ => true

/-- **C88**, always open: `open()` and `close()` may be left out of every history; `isOpen()` is true before the first
and after the last. -/
theorem C88_always_open (p : Port) (as : List Act) :
    exec p as = exec p (as.filter other) ∧ isOpen (exec p as) = true ∧ (openPort (exec p as)).2 = true := by
  refine ⟨?_, rfl, rfl⟩
  induction as generalizing p with
  | nil => rfl
  | cons a as ih =>
    show exec (step p a) as = _
    rw [ih]
    cases a with
    | callOpen => simp only [other, List.filter]; unfold step openPort; dsimp only; split <;> rfl
    | callClose => simp only [other, List.filter]; unfold step closePort; dsimp only; split <;> rfl
    | _ => rfl

/-- **C88**, configuration: `setSerialConfig()` reports success for every baud rate and number of data bits. -/
theorem C88_config (p : Port) (baud bits : Nat) : (setSerialConfig p baud bits).2 = true := rfl

/-- A program that never opens its port, writes three bytes while the UART interrupts it, and closes the port. -/
def demo : List Act :=
  [.callWrite b!"abc", .go, .go, .event ⟨some 7, true⟩, .go, .go, .go, .callClose, .event ⟨some 8, true⟩]

/-- Non-vacuous: the program is outside of its write function; two bytes are sent, two received, one is unsent and the
transmit interrupt has its handler; one more interrupt sends the rest and removes the handler. -/
example : (exec (init [0, 0, 0, 0] [0, 0, 0, 0]) demo).pc = .idle ∧
    (exec (init [0, 0, 0, 0] [0, 0, 0, 0]) demo).ser.wire = b!"ab" ∧
    (exec (init [0, 0, 0, 0] [0, 0, 0, 0]) demo).ser.accepted = [7, 8] ∧
    (exec (init [0, 0, 0, 0] [0, 0, 0, 0]) demo).ser.tx.ring.bytesAvailable = 1 ∧
    (exec (init [0, 0, 0, 0] [0, 0, 0, 0]) demo).txIrq = true ∧
    (exec (init [0, 0, 0, 0] [0, 0, 0, 0]) (demo ++ [.event ⟨none, true⟩])).ser.wire = b!"abc" ∧
    (exec (init [0, 0, 0, 0] [0, 0, 0, 0]) (demo ++ [.event ⟨none, true⟩])).txIrq = false := by
  decide +kernel

/-! ## The clock -/

/-- **C88**, clock: the tick is the number of interrupts of the ticker, modulo 2^32; the difference of two ticks is
the number of interrupts between them, if those are fewer than 2^32, across the overflow too. -/
theorem C88_clock (n k : Nat) (hk : k < 4294967296) :
    tick n = n % 4294967296 ∧ sub32 (tick (n + k)) (tick n) = k := by
  refine ⟨tick_eq n, ?_⟩
  rw [tick_eq, tick_eq]
  unfold sub32
  omega

/-- **C88**, tasks: with the ticker interrupting every 1000 µs, a task runs again less than one millisecond before its
delay has passed in real time, at the earliest, whatever the bodies of the tasks do. The times are in microseconds
since the start of the ticker. -/
theorem C88_delay {σ : Type} {body : Bodies σ} (hb : Respects body)
    (tasks : List Task) (w : σ) (hn : tasks ≠ []) (times : List Nat) (hp : times.Pairwise (· ≤ ·)) (j k : Nat)
    (hjk : j < k) (ej ek : SchedEv) (tj tk : Nat)
    (hj : (Sched.runTasks body (Sched.init tasks w) (times.map fun us => tick (us / 1000))).2[j]? = some (some ej))
    (hk : (Sched.runTasks body (Sched.init tasks w) (times.map fun us => tick (us / 1000))).2[k]? = some (some ek))
    (htj : times[j]? = some tj) (htk : times[k]? = some tk)
    (hi : ej.idx = ek.idx) (hrj : ej.ran = true) (hrk : ek.ran = true) :
    tj + ek.delay * 1000 < tk + 1000 := by
  have e : (times.map fun us => tick (us / 1000)) = ticks (times.map (· / 1000)) := by
    simp [ticks, tick_eq, Function.comp_def]
  rw [e] at hj hk
  have hp' : (times.map (· / 1000)).Pairwise (· ≤ ·) := by
    rw [List.pairwise_map]
    exact hp.imp (fun h => Nat.div_le_div_right h)
  have := C18_min_delay hb tasks w hn (times.map (· / 1000)) hp' j k hjk ej ek (tj / 1000) (tk / 1000) hj hk
    (by simp [htj]) (by simp [htk]) hi hrj hrk
  omega

/-- **C88**, due: a task whose delay has passed since its last run is run when its turn comes, if that was less than
2^32 ms ago. -/
theorem C88_due (t : Task) (a b : Nat) (hl : t.lastRun = tick (a / 1000)) (hd : a + t.delay * 1000 ≤ b)
    (hg : b / 1000 - a / 1000 < 4294967296) : Sched.due t (tick (b / 1000)) = true := by
  have h : b / 1000 = a / 1000 + (b / 1000 - a / 1000) := by omega
  have he := (C88_clock (a / 1000) (b / 1000 - a / 1000) hg).2
  rw [← h] at he
  simp only [Sched.due, hl, he]
  simp
  omega

/-- **C88**, early: a task with a delay of 10 ms runs again after 9.001 ms; non-vacuity of `C88_delay`. -/
theorem C88_early :
    (Sched.runTasks (fun _ w ts => (w, ts)) (Sched.init [Task.init 10 0] 0)
      ([10999, 20000].map fun us => tick (us / 1000))).2 =
      [some ⟨0, 10, 10, 0, true⟩, some ⟨0, 20, 10, 10, true⟩] := by
  decide +kernel

end Verif.Props.Mbed
