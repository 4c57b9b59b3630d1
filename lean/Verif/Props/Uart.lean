import Verif.Lemmas.Stm32

/-!
# C51, C52: the STM32 UART
-/

namespace Verif.Props.Uart

open Verif.Stm32

/-! ## C51: interrupt bookkeeping -/

/-- The port is open: clock and interrupt are on. -/
def Ready (u : Uart) : Prop := u.clk = true ∧ u.nvic = true ∧ u.ser.sched = []

/-- Neither `open()` nor `close()`. -/
def NoOpenClose : Act → Prop
  | .callOpen .. => False
  | .callClose .. => False
  | _ => True

/-- Neither `write`. -/
def NoWrite : Act → Prop
  | .callWrite _ => False
  | .callWrite1 _ => False
  | _ => True

theorem stays {as : List Act} (h : ∀ a ∈ as, NoOpenClose a) : ∀ a ∈ as, Stays a := by
  intro a ha
  have := h a ha
  cases a <;> first | trivial | exact this

/-- Between the calls of the application, while the port is open, unsent data are buffered only if the
transmit interrupt is enabled, whatever interrupts happened at whatever time. -/
theorem C51_armed (u : Uart) (hu : Ready u)
    (h0 : u.pc ≠ .idle ∨ u.txeie = true ∨ u.ser.tx.ring.bytesAvailable = 0)
    (as : List Act) (ha : ∀ a ∈ as, NoOpenClose a)
    (hpc : (exec u as).pc = .idle) (hb : (exec u as).ser.tx.ring.bytesAvailable ≠ 0) :
    (exec u as).txeie = true ∧ (exec u as).nvic = true := by
  obtain ⟨hr, hA⟩ := exec_armed as ⟨hu.1, hu.2.1, hu.2.2⟩ h0 (stays ha)
  rcases hA with h | h | h
  · exact absurd hpc h
  · exact ⟨h, hr.nvic⟩
  · exact absurd h hb

/-- A `write` call on the open port starts the transmission, even if older data were stuck. -/
theorem C51_written (u : Uart) (hu : Ready u) (hidle : u.pc = .idle) (data : List Byte)
    (as : List Act) (ha : ∀ a ∈ as, NoOpenClose a)
    (hpc : (exec u (.callWrite data :: as)).pc = .idle)
    (hb : (exec u (.callWrite data :: as)).ser.tx.ring.bytesAvailable ≠ 0) :
    (exec u (.callWrite data :: as)).txeie = true := by
  have hs : Ready (step u (.callWrite data)) := by
    have := step_run ⟨hu.1, hu.2.1, hu.2.2⟩ (.callWrite data) trivial
    exact ⟨this.clk, this.nvic, this.sched⟩
  refine (C51_armed (step u (.callWrite data)) hs (Or.inl ?_) as ha hpc hb).1
  unfold step; dsimp only; rw [if_pos hidle]; simp

/-- Starting from the constructor: nothing gets stuck if the application opens the port before it
writes and does not close it. -/
theorem C51_history (rmem wmem : List Byte) (pre as : List Act) (kt kr : Bool)
    (hpre : ∀ a ∈ pre, NoWrite a) (ha : ∀ a ∈ as, NoOpenClose a)
    (hpc : (exec (init rmem wmem) (pre ++ .callOpen true kt kr :: as)).pc = .idle)
    (hb : (exec (init rmem wmem) (pre ++ .callOpen true kt kr :: as)).ser.tx.ring.bytesAvailable ≠ 0) :
    (exec (init rmem wmem) (pre ++ .callOpen true kt kr :: as)).txeie = true ∧
    (exec (init rmem wmem) (pre ++ .callOpen true kt kr :: as)).rxneie = true := by
  have key : ∀ (as : List Act) (u : Uart), (∀ a ∈ as, NoWrite a) → u.pc = .idle → TxRep u.ser [] →
      (exec u as).pc = .idle ∧ TxRep (exec u as).ser [] := by
    intro as
    induction as with
    | nil => intro u _ h1 h2; exact ⟨h1, h2⟩
    | cons a as ih =>
      intro u ha h1 h2
      have hfit : Stream u [] := ⟨h2, by simp [rest, h1]⟩
      have hca : Checked a := by
        have := ha a (by simp)
        cases a <;> first | trivial | exact this
      have hpc : (step u a).pc = .idle ∧ TxRep (step u a).ser [] := by
        have hn := ha a (by simp)
        cases a with
        | callWrite => exact hn.elim
        | callWrite1 => exact hn.elim
        | go => unfold step go; rw [h1]; exact ⟨h1, h2⟩
        | callRead =>
          unfold step; dsimp only; rw [if_pos h1]
          obtain ⟨e1, e2, e3, e4⟩ := read1_tx h2.sched
          exact ⟨h1, ⟨by rw [e1]; exact h2.tx, by rw [e2, e3]; exact h2.txs, e4⟩⟩
        | callFlush =>
          unfold step; dsimp only; rw [if_pos h1]
          obtain ⟨e1, e2, e3, e4⟩ := flush_tx h2.sched
          exact ⟨h1, ⟨by rw [e1]; exact h2.tx, by rw [e2, e3]; exact h2.txs, e4⟩⟩
        | event hw =>
          unfold step; dsimp only
          split
          · refine ⟨h1, ?_⟩
            have := (h2.transfer hw).1
            have e : (if hw.txOk = true then ([] : List Byte).tail else []) = [] := by split <;> rfl
            rw [e] at this
            exact this
          · exact ⟨h1, h2⟩
        | callOpen ok kt kr =>
          unfold step openPort; dsimp only; rw [if_pos h1]
          split <;> exact ⟨h1, h2⟩
        | callClose => unfold step closePort; dsimp only; rw [if_pos h1]; exact ⟨h1, h2⟩
      exact ih (step u a) (fun b hb => ha b (by simp [hb])) hpc.1 hpc.2
  have he : exec (init rmem wmem) (pre ++ .callOpen true kt kr :: as) =
      exec (step (exec (init rmem wmem) pre) (.callOpen true kt kr)) as := by
    simp [exec, List.foldl_append]
  obtain ⟨p1, p2⟩ := key pre (init rmem wmem) hpre rfl (init_stream rmem wmem).rep
  have hopen : ∀ u : Uart, u.pc = .idle → step u (.callOpen true kt kr) =
      { u with clk := true, txeie := u.txeie && kt, nvic := true, rxneie := true, isOpen := true } := by
    intro u h; unfold step openPort; dsimp only; rw [if_pos h]; rfl
  rw [he] at hpc hb ⊢
  rw [hopen _ p1] at hpc hb ⊢
  have harm := C51_armed
    { exec (init rmem wmem) pre with
      clk := true, txeie := (exec (init rmem wmem) pre).txeie && kt, nvic := true, rxneie := true,
      isOpen := true } ⟨rfl, rfl, p2.sched⟩ (Or.inr (Or.inr p2.available)) as ha hpc hb
  refine ⟨harm.1, ?_⟩
  have rx : ∀ (as : List Act) (u : Uart), (∀ a ∈ as, Stays a) → RxOn u → RxOn (exec u as) := by
    intro as
    induction as with
    | nil => intro u _ h; exact h
    | cons a as ih =>
      intro u ha h
      exact ih _ (fun b hb => ha b (by simp [hb])) (step_rxOn h a (ha a (by simp)))
  refine (rx as _ (stays ha) ⟨rfl, ?_⟩).1
  intro r hr
  have : (exec (init rmem wmem) pre).pc = .store r := hr
  rw [p1] at this
  cases this

/-- Once the UART is ready to send as many times as bytes are buffered, all of them are on the wire, in
order, and the transmit interrupt is off. -/
theorem C51_drains (u : Uart) (hn : u.nvic = true) (tq : List Byte) (hr : TxRep u.ser tq)
    (hA : u.txeie = true ∨ u.ser.tx.ring.bytesAvailable = 0) (hs : List Hw)
    (hok : ∀ h ∈ hs, h.txOk = true) (hl : hs.length = u.ser.tx.ring.bytesAvailable) :
    (exec u (hs.map .event)).ser.tx.ring.bytesAvailable = 0 ∧
    (exec u (hs.map .event)).ser.wire = u.ser.sent ∧
    (hs ≠ [] → (exec u (hs.map .event)).txeie = false) := by
  have hlen := hr.available
  have ht : tq = [] ∨ u.txeie = true := by
    rcases hA with h | h
    · exact Or.inr h
    · left; rw [hlen] at h; exact List.eq_nil_of_length_eq_zero h
  obtain ⟨a, b, c⟩ := drain hs hok hn hr ht (by rw [hl, hlen])
  refine ⟨a.available, ?_, c⟩
  show (exec u (events hs)).ser.wire = _
  rw [b, hr.txs]

/-- After every interrupt: the transmit interrupt is on only if there is something to send. -/
theorem C51_off (u : Uart) (h : Hw) (hf : fires u h = true)
    (ht : (step u (.event h)).txeie = true) :
    (step u (.event h)).ser.tx.ring.bytesAvailable ≠ 0 := by
  have e : step u (.event h) = handleInterrupt u h := by simp [step, hf]
  rw [e] at ht ⊢
  intro hb
  have hb : (u.ser.transfer h).tx.ring.bytesAvailable = 0 := hb
  have ht : (if (u.ser.transfer h).tx.ring.bytesAvailable = 0 then false else u.txeie) = true := ht
  rw [if_pos hb] at ht
  cases ht

/-- Bytes on the wire and buffered bytes are, in order, the bytes all `write` calls accepted. -/
theorem C51_stream (rmem wmem : List Byte) (as : List Act) (ha : ∀ a ∈ as, Checked a) :
    ∃ tq, TxRep (exec (init rmem wmem) as).ser tq ∧
      (exec (init rmem wmem) as).ser.wire ++ tq = (exec (init rmem wmem) as).ser.sent ∧
      tq.length = (exec (init rmem wmem) as).ser.tx.ring.bytesAvailable := by
  obtain ⟨tq, h⟩ := exec_stream as (init_stream rmem wmem) ha
  exact ⟨tq, h.rep, h.rep.txs, h.rep.available.symm⟩

/-- A `write` call accepts the first bytes of its data, as many as there was space for when it was
called, whatever interrupts happen during the call. -/
theorem C51_accepts (u : Uart) (hs : u.ser.sched = []) (hidle : u.pc = .idle) (data : List Byte)
    (as : List Act) (ha : ∀ a ∈ as, NoWrite a)
    (hpc : (exec u (.callWrite data :: as)).pc = .idle) :
    (exec u (.callWrite data :: as)).ser.sent =
      u.ser.sent ++ data.take u.ser.tx.ring.spaceAvailable := by
  obtain ⟨e1, e2, e3, e4, e5⟩ := space_tx hs
  have hst : step u (.callWrite data) =
      { u with ser := u.ser.spaceAvailable.1, pc := .copy (data.take u.ser.spaceAvailable.2) } := by
    unfold step; dsimp only; rw [if_pos hidle]
  have hx : exec u (.callWrite data :: as) = exec (step u (.callWrite data)) as := rfl
  rw [hx, hst] at hpc ⊢
  have hna : ∀ a ∈ as, NoCall a := by
    intro a hm
    have := ha a hm
    cases a <;> first | trivial | exact this
  have := exec_sent as (u := (
    { u with
      ser := u.ser.spaceAvailable.1
      pc := .copy (data.take u.ser.spaceAvailable.2) } : Uart)) e4 hna
  have hrest : rest (exec (
    { u with
      ser := u.ser.spaceAvailable.1
      pc := .copy (data.take u.ser.spaceAvailable.2) } : Uart) as) = [] := by
    unfold rest; rw [hpc]
  rw [hrest, List.append_nil] at this
  rw [this]
  show u.ser.spaceAvailable.1.sent ++ data.take u.ser.spaceAvailable.2 = _
  rw [e3, e5]

/-- A program that writes three bytes while the UART interrupts it: they are all sent. -/
def demo : List Act :=
  [.callOpen true true true, .callWrite b!"abc", .go, .go, .event ⟨some 7, true⟩, .go, .go, .go,
   .event ⟨none, true⟩, .go, .event ⟨none, true⟩]

example : (exec (init [0, 0, 0, 0] [0, 0, 0, 0]) demo).ser.wire = b!"ab" ∧
    (exec (init [0, 0, 0, 0] [0, 0, 0, 0]) demo).txeie = true ∧
    (exec (init [0, 0, 0, 0] [0, 0, 0, 0]) demo).pc = .idle ∧
    (exec (init [0, 0, 0, 0] [0, 0, 0, 0]) demo).ser.tx.ring.bytesAvailable = 1 ∧
    (exec (init [0, 0, 0, 0] [0, 0, 0, 0]) (demo ++ [.event ⟨none, true⟩])).txeie = false := by
  decide +kernel

/-- The expectation that data written before the port is opened are sent once it is open is false:
`startTransmit()` has no effect without the clock, and `open()` does not enable the transmit
interrupt. However often the UART is ready to send, the data stay in the buffer until something is
received or written. -/
theorem C51_before_open (c : Byte) (kt kr : Bool) (hs : List Hw) (hrx : ∀ h ∈ hs, h.rx = none) :
    (exec (init [0, 0] [0, 0])
      ([.callWrite [c], .go, .go, .go, .go, .callOpen true kt kr] ++ hs.map .event)).ser.wire = [] ∧
    (exec (init [0, 0] [0, 0])
      ([.callWrite [c], .go, .go, .go, .go, .callOpen true kt kr] ++
        hs.map .event)).ser.tx.ring.bytesAvailable = 1 := by
  have e : exec (init [0, 0] [0, 0])
      ([.callWrite [c], .go, .go, .go, .go, .callOpen true kt kr] ++ hs.map .event) =
    exec (exec (init [0, 0] [0, 0]) [.callWrite [c], .go, .go, .go, .go, .callOpen true kt kr])
      (events hs) := by
    simp [exec, List.foldl_append, events]
  rw [e, events_none hs hrx (by cases kt <;> rfl)]
  cases kt <;> cases kr <;> exact ⟨rfl, rfl⟩

/-- The same for data that are buffered when the port is closed and opened again, if the HAL clears
the interrupt enable bits. -/
theorem C51_reopened (hs : List Hw) (hrx : ∀ h ∈ hs, h.rx = none) :
    (exec (init [0, 0] [0, 0])
      ([.callOpen true true true, .callWrite b!"ab", .go, .go, .go, .go, .go, .event ⟨none, true⟩,
        .callClose false false false, .callOpen true true true] ++ hs.map .event)).ser.wire = b!"a" := by
  have e : exec (init [0, 0] [0, 0])
      ([.callOpen true true true, .callWrite b!"ab", .go, .go, .go, .go, .go, .event ⟨none, true⟩,
        .callClose false false false, .callOpen true true true] ++ hs.map .event) =
    exec (exec (init [0, 0] [0, 0])
      [.callOpen true true true, .callWrite b!"ab", .go, .go, .go, .go, .go, .event ⟨none, true⟩,
        .callClose false false false, .callOpen true true true])
      (events hs) := by
    simp [exec, List.foldl_append, events]
  rw [e, events_none hs hrx rfl]
  decide +kernel

/-! ## C52: lookup of instances -/

/-- `getInstance` in a program with `n` slots: the first object constructed for this UART, provided it
is among the first `n` objects constructed. Destruction of objects does not matter. -/
theorem C52_lookup (n : Nat) (ops : List ObjOp) (u i : Nat) :
    (Objs.exec n ops).getInstance u = some i ↔
      i < n ∧ (uarts ops)[i]? = some u ∧ ∀ j : Nat, j < i → (uarts ops)[j]? ≠ some u := by
  unfold Objs.getInstance
  rw [objs_slots, filled, findSlot_append, find_range]
  have hu : ∀ j : Nat, (Objs.exec n ops).objs[j]?.map Prod.fst = (uarts ops)[j]? := by
    intro j; rw [← objs_uarts n ops, List.getElem?_map]
  have hl : (Objs.exec n ops).objs.length = (uarts ops).length := by
    rw [← objs_uarts n ops, List.length_map]
  simp only [hu, hl, decide_eq_true_eq, decide_eq_false_iff_not]
  constructor
  · rintro ⟨a, b, c⟩; exact ⟨by omega, b, c⟩
  · rintro ⟨a, b, c⟩
    have := (List.getElem?_eq_some_iff.mp b).1
    exact ⟨by omega, b, c⟩

/-- An object that does not fit is never found: no later call changes the result for its UART. -/
theorem C52_dropped (n : Nat) (ops : List ObjOp) (u : Nat)
    (h : ∀ i : Nat, i < n → (uarts ops)[i]? ≠ some u) : (Objs.exec n ops).getInstance u = none := by
  cases hg : (Objs.exec n ops).getInstance u with
  | none => rfl
  | some i =>
    have := (C52_lookup n ops u i).mp hg
    exact absurd this.2.1 (h i this.1)

example : (Objs.exec 4 [.new 1, .new 2, .new 3, .new 1, .new 5]).getInstance 1 = some 0 ∧
    (Objs.exec 4 [.new 1, .new 2, .new 3, .new 1, .new 5]).getInstance 3 = some 2 ∧
    (Objs.exec 4 [.new 1, .new 2, .new 3, .new 1, .new 5]).getInstance 5 = none := by
  decide

/-- The expectation that `getInstance` returns an existing object is false: objects are not removed
from the table when they are destroyed, and hide a new object for the same UART. -/
theorem C52_dangling :
    (Objs.exec 4 [.new 1, .delete 0, .new 1]).getInstance 1 = some 0 ∧
    (Objs.exec 4 [.new 1, .delete 0, .new 1]).objs = [(1, false), (1, true)] := by
  decide

end Verif.Props.Uart
