import Verif.Lemmas.StepInv

/-! What no operation on the serial device changes: the sizes of its buffers; and the interrupts still
to come are always the end of those that were to come before. -/

namespace Verif

/-- `s'` is a later state of the serial device `s`. -/
structure Ser.Later (s s' : Ser) : Prop where
  sched : s'.sched <:+ s.sched
  rxSize : s'.rx.ring.size = s.rx.ring.size
  txSize : s'.tx.ring.size = s.tx.ring.size

namespace Ser

theorem Later.refl (s : Ser) : Later s s := ⟨List.suffix_refl _, rfl, rfl⟩

theorem Later.trans {a b c : Ser} (h : Later a b) (k : Later b c) : Later a c :=
  ⟨k.sched.trans h.sched, k.rxSize.trans h.rxSize, k.txSize.trans h.txSize⟩

theorem later_transfers (s : Ser) (hs : List Hw) : Later s (s.transfers hs) :=
  ⟨by rw [sched_transfers]; exact List.suffix_refl _, (frame_transfers s hs).rxSize,
    (frame_transfers s hs).txSize⟩

theorem later_sync (s : Ser) : Later s s.sync := by
  refine ⟨?_, (frame_sync s).rxSize, (frame_sync s).txSize⟩
  unfold sync
  split
  · split
    · exact List.suffix_refl _
    · rename_i b bs hb
      rw [sched_transfers, hb]
      exact List.suffix_cons b bs
  · exact List.suffix_refl _

theorem later_bytesAvailable (s : Ser) : Later s s.bytesAvailable.1 :=
  ⟨(later_sync s).sched, (later_sync s).rxSize, (later_sync s).txSize⟩

theorem later_spaceAvailable (s : Ser) : Later s s.spaceAvailable.1 :=
  ⟨(later_sync s).sched, (later_sync s).rxSize, (later_sync s).txSize⟩

theorem later_read1 (s : Ser) : Later s s.read1.1 :=
  ⟨(later_sync s).sched, (later_sync s).rxSize, (later_sync s).txSize⟩

theorem later_copyToBuffer (s : Ser) (c : Byte) : Later s (s.copyToBuffer c) :=
  ⟨(later_sync s).sched, (later_sync s).rxSize, (later_sync s).txSize⟩

theorem later_flush (s : Ser) : Later s s.flushReceiveBuffers :=
  ⟨(later_sync s).sched, (later_sync s).rxSize, (later_sync s).txSize⟩

theorem later_readLoop (s : Ser) (n : Nat) : Later s (s.readLoop n).1 := by
  induction n generalizing s with
  | zero => exact .refl s
  | succ n ih => exact (later_read1 s).trans (ih _)

theorem later_read (s : Ser) (n : Nat) : Later s (s.read n).1 :=
  (later_bytesAvailable s).trans (later_readLoop _ _)

theorem later_writeLoop (s : Ser) (cs : List Byte) : Later s (s.writeLoop cs) := by
  induction cs generalizing s with
  | nil => exact .refl s
  | cons c cs ih => exact (later_copyToBuffer s c).trans (ih _)

theorem later_write (s : Ser) (cs : List Byte) : Later s (s.write cs).1 :=
  (later_spaceAvailable s).trans (later_writeLoop _ _)

theorem later_writeStr (s : Ser) (cs : List Byte) : Later s (s.writeStr cs).1 := by
  rw [writeStr_eq]; exact later_write _ _

end Ser

namespace Dev

variable {S R X : Type}

theorem later_flushLoop (n : Nat) (s : Ser) : Ser.Later s (flushLoop s n).1 := by
  induction n generalizing s with
  | zero => exact .refl s
  | succ n ih =>
    unfold flushLoop
    by_cases hz : s.bytesAvailable.2 = 0
    · simp only [hz, if_true]; exact Ser.later_bytesAvailable s
    · simp only [hz, if_false]
      exact (Ser.later_bytesAvailable s).trans ((Ser.later_read1 _).trans (ih _))

theorem later_fillLoop (stop : Mem → Nat → Byte → Option R) (fuel : Nat) (s : Ser) (m : Mem) (k : Nat) :
    Ser.Later s (fillLoop stop fuel s m k).1 := by
  induction fuel generalizing s m k with
  | zero => exact .refl s
  | succ n ih =>
    unfold fillLoop
    by_cases hz : s.bytesAvailable.2 = 0
    · simp only [hz, if_true]; exact Ser.later_bytesAvailable s
    · simp only [hz, if_false]
      have h := (Ser.later_bytesAvailable s).trans (Ser.later_read1 _)
      split
      · exact h
      · exact h.trans (ih _ _ _)

theorem later_fillLine (d : Dev S R X) (stop : Mem → Nat → Byte → Option R) :
    Ser.Later d.ser (d.fillLine stop).1.ser := by
  unfold Dev.fillLine
  split
  · have := later_fillLoop stop (lineMax - d.lbFill) d.ser d.line d.lbFill
    simp only
    split <;> exact this
  · exact .refl _

theorem Eff.later {x : List Byte → Byte → Prop} {st : Bool} {d d' : Dev S R X} (h : Eff x st d d') :
    Ser.Later d.ser d'.ser := by
  induction h with
  | ctl h => rw [h.ser]; exact .refl _
  | cmd d s => exact Ser.later_writeStr _ _
  | arg d s => exact Ser.later_writeStr _ _
  | cmdN d s => exact Ser.later_write _ _
  | argN d s => exact Ser.later_write _ _
  | askSpace d => exact Ser.later_spaceAvailable _
  | askAvail d => exact Ser.later_bytesAvailable _
  | flushSer d => exact Ser.later_flush _
  | flushReadBuffer d _ => exact later_flushLoop _ _
  | sendData d => exact Ser.later_writeLoop _ _
  | receive d _ =>
    unfold Dev.receive
    split
    · exact (Ser.later_bytesAvailable _).trans (Ser.later_readLoop _ _)
    · exact Ser.later_bytesAvailable _
  | fillLine d stop hs => exact later_fillLine d stop
  | trans _ _ ih1 ih2 => exact ih1.trans ih2

end Dev

end Verif
