import Verif.Model.UnixSerial
import Verif.Props.Serial

/-!
# Lemmas for C96: calls of the buffers when there are no interrupts
-/

namespace Verif.UnixSerial

open Verif Verif.Props.Serial

/-- No interrupts, and the same traffic. -/
structure Quiet (s s' : Ser) : Prop where
  sched : s'.sched = []
  arrived : s'.arrived = s.arrived
  wire : s'.wire = s.wire

theorem Quiet.trans {a b c : Ser} (h : Quiet a b) (k : Quiet b c) : Quiet a c :=
  ⟨k.sched, k.arrived.trans h.arrived, k.wire.trans h.wire⟩

theorem sync_quiet {s : Ser} (h : s.sched = []) : s.sync = s := by
  unfold Ser.sync
  split
  · rw [h]
  · rfl

theorem quiet_sync {s : Ser} (h : s.sched = []) : Quiet s s.sync := by
  rw [sync_quiet h]; exact ⟨h, rfl, rfl⟩

theorem quiet_read1 {s : Ser} (h : s.sched = []) : Quiet s s.read1.1 := by
  have k := quiet_sync h
  exact ⟨k.sched, k.arrived, k.wire⟩

theorem quiet_avail {s : Ser} (h : s.sched = []) : Quiet s s.bytesAvailable.1 := by
  have k := quiet_sync h
  exact ⟨k.sched, k.arrived, k.wire⟩

theorem quiet_space {s : Ser} (h : s.sched = []) : Quiet s s.spaceAvailable.1 := by
  have k := quiet_sync h
  exact ⟨k.sched, k.arrived, k.wire⟩

theorem quiet_copy {s : Ser} (h : s.sched = []) (c : Byte) : Quiet s (s.copyToBuffer c) := by
  have k := quiet_sync h
  exact ⟨k.sched, k.arrived, k.wire⟩

theorem quiet_readLoop (n : Nat) {s : Ser} (h : s.sched = []) : Quiet s (s.readLoop n).1 := by
  induction n generalizing s with
  | zero => exact ⟨h, rfl, rfl⟩
  | succ n ih => exact (quiet_read1 h).trans (ih (quiet_read1 h).sched)

theorem quiet_writeLoop (cs : List Byte) {s : Ser} (h : s.sched = []) : Quiet s (s.writeLoop cs) := by
  induction cs generalizing s with
  | nil => exact ⟨h, rfl, rfl⟩
  | cons c cs ih => exact (quiet_copy h c).trans (ih (quiet_copy h c).sched)

theorem quiet_readLineLoop (size fuel : Nat) {s : Ser} (c : Byte) (acc : List Byte) (h : s.sched = []) :
    Quiet s (Ser.readLineLoop size fuel s c acc).1 := by
  induction fuel generalizing s c acc with
  | zero => exact ⟨h, rfl, rfl⟩
  | succ n ih =>
    have k := quiet_avail h
    simp only [Ser.readLineLoop]
    split
    · exact k.trans ((quiet_read1 k.sched).trans (ih _ _ (quiet_read1 k.sched).sched))
    · exact k

theorem quiet_call {s : Ser} (h : s.sched = []) (op : SOp) : Quiet s (call s op).1 := by
  have k := quiet_sync h
  cases op with
  | bytesAvailable => exact quiet_avail h
  | spaceAvailable => exact quiet_space h
  | read1 => exact quiet_read1 h
  | canReadLine => exact ⟨k.sched, k.arrived, k.wire⟩
  | write1 c => exact quiet_copy h c
  | disableInterrupts | enableInterrupts => exact ⟨h, rfl, rfl⟩
  | flush => exact ⟨k.sched, k.arrived, k.wire⟩
  | read n => exact (quiet_avail h).trans (quiet_readLoop _ (quiet_avail h).sched)
  | write d => exact (quiet_space h).trans (quiet_writeLoop _ (quiet_space h).sched)
  | writeStr d =>
    show Quiet s (s.writeStr d).1
    rw [Ser.writeStr_eq]
    exact (quiet_space h).trans (quiet_writeLoop _ (quiet_space h).sched)
  | readLine n =>
    simp only [call, Ser.readLine]
    split
    · exact ⟨h, rfl, rfl⟩
    · exact quiet_readLineLoop _ _ _ _ h

theorem arrived_transferRx (s : Ser) (c : Option Byte) :
    (s.transferRx c).arrived = s.arrived ++ c.toList := by
  cases c with
  | none => simp [Ser.transferRx]
  | some c => simp only [Ser.transferRx]; split <;> rfl

theorem arrived_transferTx (s : Ser) (b : Bool) : (s.transferTx b).arrived = s.arrived := by
  simp only [Ser.transferTx]
  split
  · split <;> rfl
  · rfl

theorem arrived_transfer (s : Ser) (h : Hw) : (s.transfer h).arrived = s.arrived ++ h.rx.toList := by
  unfold Ser.transfer
  rw [arrived_transferTx, arrived_transferRx]

/-- One transfer. -/
theorem rep_transfer {s : Ser} {rq tq : List Byte} (h : Ser.Rep s rq tq) (hw : Hw) :
    Ser.Rep (s.transfer hw) (rq ++ hw.rx.toList.take (s.rx.ring.size - rq.length))
      (if hw.txOk then tq.tail else tq) ∧
    (s.transfer hw).wire = s.wire ++ (if hw.txOk then tq.take 1 else []) := by
  obtain ⟨h1, a1, w1⟩ := Ser.rep_transferRx h hw.rx
  obtain ⟨h2, a2, w2⟩ := Ser.rep_transferTx h1 hw.txOk
  exact ⟨h2, by rw [Ser.transfer, w2, w1]⟩

/-- What is known about the object at any time. -/
def Ok (u : Unix) : Prop := ∃ rq tq, Ser.Rep u.ser rq tq ∧ u.ser.sched = []

/-- `run()` in terms of the contents of the buffers. -/
theorem run_some {u : Unix} {rq tq : List Byte} (h : Ser.Rep u.ser rq tq) (ok : Bool) {f : Nat}
    (hf : u.port.fd = some f) :
    Ser.Rep (u.run ok).ser (rq ++ (u.queue.take 1).take (u.ser.rx.ring.size - rq.length))
      (if ok then tq.tail else tq) ∧
    (u.run ok).ser.wire = u.ser.wire ++ (if ok then tq.take 1 else []) ∧
    (u.run ok).ser.arrived = u.ser.arrived ++ u.queue.take 1 ∧
    (u.run ok).queue = u.queue.drop 1 ∧ (u.run ok).port = u.port ∧ (u.run ok).ser.sched = u.ser.sched := by
  have e : u.run ok = { u with queue := u.queue.tail, ser := u.ser.transfer ⟨u.queue.head?, ok⟩ } := by
    simp [Unix.run, Unix.rawRead, Unix.rawWrite, hf]
  have hh : u.queue.head?.toList = u.queue.take 1 := by cases u.queue <;> rfl
  obtain ⟨r, w⟩ := rep_transfer h ⟨u.queue.head?, ok⟩
  rw [e]
  refine ⟨?_, w, ?_, by simp, rfl, Ser.sched_transfer _ _⟩
  · rw [← hh]; exact r
  · show (u.ser.transfer _).arrived = _
    rw [arrived_transfer, ← hh]

theorem run_none {u : Unix} {rq tq : List Byte} (h : Ser.Rep u.ser rq tq) (ok : Bool)
    (hf : u.port.fd = none) :
    Ser.Rep (u.run ok).ser rq tq ∧ (u.run ok).ser.wire = u.ser.wire ∧
    (u.run ok).ser.arrived = u.ser.arrived ∧ (u.run ok).queue = u.queue ∧ (u.run ok).port = u.port ∧
    (u.run ok).ser.sched = u.ser.sched := by
  have e : u.run ok = { u with ser := u.ser.transfer ⟨none, false⟩ } := by
    simp [Unix.run, Unix.rawRead, Unix.rawWrite, hf]
  obtain ⟨r, w⟩ := rep_transfer h ⟨none, false⟩
  rw [e]
  refine ⟨by simpa using r, by simpa using w, ?_, rfl, rfl, Ser.sched_transfer _ _⟩
  show (u.ser.transfer _).arrived = _
  rw [arrived_transfer]; simp

end Verif.UnixSerial
