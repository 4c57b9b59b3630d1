import Verif.Lemmas.EarlySim
import Verif.Lemmas.EarlyWifi
import Verif.Lemmas.StepInv
import Verif.Lemmas.Dry
import Verif.Spec.Early

/-!
# Bytes that arrive early: histories
-/

namespace Verif

open Dev Spec

namespace Ser

/-- Interrupts only happen between calls; the transmit buffer is in order. -/
structure Base (s : Ser) : Prop where
  sched : s.sched = []
  tb : TxBnd s

variable {s : Ser}

theorem base_init (rx : List Byte) {tx : List Byte} (h : tx ≠ []) : Base (init rx tx []) :=
  ⟨rfl, (Ring.bnd_init h : Ring.Bnd (Ring.init tx))⟩

theorem Base.spaceAvailable (h : Base s) : Base s.spaceAvailable.1 :=
  ⟨sched_spaceAvailable h.sched, by unfold Ser.spaceAvailable; exact txBnd_sync h.tb⟩

theorem Base.bytesAvailable (h : Base s) : Base s.bytesAvailable.1 := by
  unfold Ser.bytesAvailable
  rw [sync_empty h.sched]
  exact ⟨h.sched, h.tb⟩

theorem Base.read1 (h : Base s) : Base s.read1.1 := by
  unfold Ser.read1
  rw [sync_empty h.sched]
  exact ⟨h.sched, h.tb⟩

theorem Base.readLoop (h : Base s) (n : Nat) : Base (s.readLoop n).1 := by
  induction n generalizing s with
  | zero => exact h
  | succ n ih => exact ih h.read1

theorem Base.read (h : Base s) (n : Nat) : Base (s.read n).1 := h.bytesAvailable.readLoop _

theorem Base.writeLoop (h : Base s) (cs : List Byte) : Base (s.writeLoop cs) :=
  ⟨sched_writeLoop h.sched cs, txBnd_writeLoop h.tb cs⟩

theorem Base.write (h : Base s) (cs : List Byte) : Base (s.write cs).1 := h.spaceAvailable.writeLoop _

theorem Base.writeStr (h : Base s) (cs : List Byte) : Base (s.writeStr cs).1 := by
  rw [writeStr_eq]; exact h.write _

theorem Base.flush (h : Base s) : Base s.flushReceiveBuffers := by
  unfold flushReceiveBuffers
  rw [sync_empty h.sched]
  exact ⟨h.sched, h.tb⟩

theorem Base.transfers (h : Base s) (hs : List Hw) : Base (s.transfers hs) :=
  ⟨by rw [sched_transfers]; exact h.sched, txBnd_transfers h.tb hs⟩

end Ser

namespace Dev

variable {S R X : Type}

theorem base_flushLoop {s : Ser} (h : Ser.Base s) (n : Nat) : Ser.Base (flushLoop s n).1 := by
  induction n generalizing s with
  | zero => exact h
  | succ n ih =>
    unfold flushLoop
    dsimp only
    split
    · exact h.bytesAvailable
    · exact ih h.bytesAvailable.read1

theorem base_fillLoop (stop : Mem → Nat → Byte → Option R) (fuel : Nat) {s : Ser} (h : Ser.Base s) (l : Mem) (k : Nat) :
    Ser.Base (fillLoop stop fuel s l k).1 := by
  induction fuel generalizing s l k with
  | zero => exact h
  | succ fuel ih =>
    unfold fillLoop
    dsimp only
    split
    · exact h.bytesAvailable
    · split
      · exact h.bytesAvailable.read1
      · exact ih h.bytesAvailable.read1 _ _

theorem Eff.base {x : List Byte → Byte → Prop} {st : Bool} {d d' : Dev S R X} (h : Eff x st d d') (hb : Ser.Base d.ser) :
    Ser.Base d'.ser := by
  induction h with
  | ctl h => rw [h.ser]; exact hb
  | cmd d s => exact hb.writeStr s
  | arg d s => exact hb.writeStr s
  | cmdN d s => exact hb.write s
  | argN d s => exact hb.write s
  | askSpace d => exact hb.spaceAvailable
  | askAvail d => exact hb.bytesAvailable
  | flushSer d => exact hb.flush
  | flushReadBuffer d _ => exact base_flushLoop hb _
  | sendData d => exact hb.writeLoop _
  | receive d _ =>
    unfold Dev.receive
    split
    · exact hb.bytesAvailable.readLoop _
    · exact hb.bytesAvailable
  | fillLine d stop _ =>
    have := base_fillLoop stop (lineMax - d.lbFill) hb d.line d.lbFill
    unfold Dev.fillLine
    split
    · dsimp only
      split <;> exact this
    · exact hb
  | trans _ _ ih1 ih2 => exact ih2 (ih1 hb)

theorem base_common {d : Dev S R X} (h : Ser.Base d.ser) (op : Op) : Ser.Base (d.common op).ser := by
  cases op with
  | irq hs => exact h.transfers hs
  | serialWrite s =>
    simp only [Dev.common, Dev.serialWrite]
    split
    · exact h.writeStr s
    · exact h
  | serialRead n =>
    simp only [Dev.common, Dev.serialRead]
    split
    · exact h.read n
    · exact h
  | _ =>
    simp only [Dev.common, Dev.setHostPort, Dev.requestRSSI, Dev.disconnect, Dev.write, Dev.read, Dev.log]
    (repeat' split) <;> exact h

/-- A newline waits, so that a line is completed. -/
theorem fillLoop_done {x : List Byte → Byte → Prop} (stop : Mem → Nat → Byte → Option R) (ho : StopOk x stop) (fuel : Nat)
    {s : Ser} {rq : List Byte} {rx : Nat} (h : Ser.Still s rq rx) (hn : nl ∈ rq) (l : Mem) (k : Nat) (hk : k + fuel = lineMax) (hf : 0 < fuel) :
    (fillLoop stop fuel s l k).2.2.2 ≠ none := by
  induction fuel generalizing s rq l k with
  | zero => omega
  | succ fuel ih =>
    have a := h.bytesAvailable
    cases rq with
    | nil => simp at hn
    | cons c rq =>
      have e1 : s.bytesAvailable.2 ≠ 0 := by rw [a.1]; simp
      have r := a.2.read1
      rw [fillLoop]
      simp only [if_neg e1]
      rw [r.2]
      cases hs : stop (l.store k c) (k + 1) c with
      | some z => simp
      | none =>
        have hc : c ≠ nl := by intro e; rw [e] at hs; exact ho.nl _ _ hs
        have hk' : fuel ≠ 0 := by
          intro e
          have : k + 1 = lineMax := by omega
          rw [this] at hs; exact ho.full _ _ hs
        exact ih r.1 (by simpa [hc.symm] using hn) _ _ (by omega) (by omega)

theorem fillLine_done {x : List Byte → Byte → Prop} {d : Dev S R X} (stop : Mem → Nat → Byte → Option R) (ho : StopOk x stop)
    {rq : List Byte} {rx : Nat} (h : Ser.Still d.ser rq rx) (hn : nl ∈ rq) (hl : LineOk d) (hr : d.lineRead = true) :
    (d.fillLine stop).2 = true := by
  have hfi := hl.fill
  have := fillLoop_done stop ho (lineMax - d.lbFill) h hn d.line d.lbFill (by omega) (by omega)
  unfold fillLine
  rw [if_pos hr]
  dsimp only
  split
  · rename_i e; exact absurd e this
  · rfl

/-- What `canReadLine()` tells. -/
theorem canReadLine_nl {d : Dev S R X} {rq : List Byte} {rx : Nat} (h : Ser.Still d.ser rq rx) (hc : d.ser.canReadLine.2 = true) : nl ∈ rq := by
  unfold Ser.canReadLine at hc
  rw [Ser.sync_empty h.sched] at hc
  have hc' : decide (d.ser.rx.lines > 0) = true := hc
  have h1 := h.q.rx.lines
  simp only [gt_iff_lt, decide_eq_true_eq] at hc'
  rw [h1] at hc'
  apply List.count_pos_iff.1
  rcases Nat.eq_zero_or_pos (rq.count nl) with q | q
  · rw [q] at hc'; simp at hc'
  · exact q

/-- The serial device between two calls. -/
theorem exists_still {d : Dev S R X} (h : Ser.Base d.ser) (hr : Ser.RxOk d.ser) :
    ∃ rq, Ser.Still d.ser rq d.ser.rx.ring.size ∧ d.ser.bytesAvailable.2 = rq.length := by
  obtain ⟨rq, hq⟩ := hr
  have s : Ser.Still d.ser rq d.ser.rx.ring.size := ⟨h.sched, hq, h.tb, rfl⟩
  exact ⟨rq, s, s.bytesAvailable.1⟩

end Dev

open Dev

theorem Sim7x00.step_base (p : Platform) {d : Sim7x00.D} (op : Op) (h : Ser.Base d.ser) : Ser.Base (Sim7x00.step p d op).ser := by
  cases op with
  | run ok => exact Dev.Eff.base (Sim7x00.eff_run (x := NoHeader) (st := false) p d ok (by simp)) h
  | connect =>
    simp only [Sim7x00.step, Dev.logConnect, SimDev.connect, Dev.ipConnect]
    (repeat' split) <;> exact h
  | resetStates => exact h.flush
  | setApn => exact h
  | serialLock =>
    simp only [Sim7x00.step, SimDev.serialLock]
    split <;> exact h
  | serialUnlock => exact h
  | requestID => exact h
  | _ => simp only [Sim7x00.step]; exact base_common h _

theorem Sim800.step_base (p : Platform) {d : Sim800.D} (op : Op) (h : Ser.Base d.ser) : Ser.Base (Sim800.step p d op).ser := by
  cases op with
  | run ok => exact Dev.Eff.base (Sim800.eff_run (x := NoHeader) (st := false) p d ok (by simp)) h
  | connect =>
    simp only [Sim800.step, Dev.logConnect, SimDev.connect, Dev.ipConnect]
    (repeat' split) <;> exact h
  | resetStates => exact h.flush
  | setApn => exact h
  | serialLock =>
    simp only [Sim800.step, SimDev.serialLock]
    split <;> exact h
  | serialUnlock => exact h
  | requestID => exact h
  | _ => simp only [Sim800.step]; exact base_common h _

theorem Espressif.step_base (p : Platform) {d : Espressif.D} (op : Op) (h : Ser.Base d.ser) : Ser.Base (Espressif.step p d op).ser := by
  cases op with
  | run ok => exact Dev.Eff.base (Espressif.eff_run (st := false) p d ok (by simp)) h
  | connect =>
    simp only [Espressif.step, Dev.logConnect, Espressif.connect, Dev.ipConnect]
    (repeat' split) <;> exact h
  | resetStates => exact h.flush
  | setSSID => exact h
  | setPassword => exact h
  | requestMac => exact h
  | _ => simp only [Espressif.step]; exact base_common h _

theorem CC1352P7.step_base (p : Platform) {d : CC1352P7.D} (op : Op) (h : Ser.Base d.ser) : Ser.Base (CC1352P7.step p d op).ser := by
  cases op with
  | run ok => exact Dev.Eff.base (CC1352P7.eff_run (x := NoHeader) (st := false) p d ok (by simp)) h
  | connect =>
    simp only [CC1352P7.step, Dev.logConnect, Dev.ipConnect]
    (repeat' split) <;> exact h
  | resetStates => exact h.flush
  | requestMac => exact h
  | _ => simp only [CC1352P7.step]; exact base_common h _

/-! ### Plain lines -/

namespace Dev

/-- At most `n` bytes wait. -/
def Low (n rx : Nat) (s : Ser) : Prop := ∃ rq, Ser.Still s rq rx ∧ rq.length ≤ n

variable {S R X : Type} {n rx : Nat} {s : Ser}

theorem Low.spaceAvailable (h : Low n rx s) : Low n rx s.spaceAvailable.1 := by
  obtain ⟨rq, h, hl⟩ := h
  refine ⟨rq, ?_, hl⟩
  unfold Ser.spaceAvailable
  rw [Ser.sync_empty h.sched]
  exact ⟨h.sched, ⟨h.q.rx, h.q.rxs⟩, h.tb, h.rxs⟩

theorem Low.bytesAvailable (h : Low n rx s) : Low n rx s.bytesAvailable.1 := by
  obtain ⟨rq, h, hl⟩ := h
  exact ⟨rq, h.bytesAvailable.2, hl⟩

theorem Low.copyToBuffer (h : Low n rx s) (c : Byte) : Low n rx (s.copyToBuffer c) := by
  obtain ⟨rq, h, hl⟩ := h
  refine ⟨rq, ⟨Ser.sched_copyToBuffer h.sched c, ?_, Ser.txBnd_copyToBuffer h.tb c, ?_⟩, hl⟩
  · unfold Ser.copyToBuffer
    rw [Ser.sync_empty h.sched]
    exact ⟨h.q.rx, h.q.rxs⟩
  · unfold Ser.copyToBuffer
    rw [Ser.sync_empty h.sched]
    exact h.rxs

theorem Low.writeLoop (h : Low n rx s) (cs : List Byte) : Low n rx (s.writeLoop cs) := by
  induction cs generalizing s with
  | nil => exact h
  | cons c cs ih => exact ih (h.copyToBuffer c)

theorem Low.write (h : Low n rx s) (cs : List Byte) : Low n rx (s.write cs).1 := h.spaceAvailable.writeLoop _

theorem Low.writeStr (h : Low n rx s) (cs : List Byte) : Low n rx (s.writeStr cs).1 := by
  rw [Ser.writeStr_eq]; exact h.write _

theorem Low.flush (h : Low n rx s) : Low n rx s.flushReceiveBuffers := by
  obtain ⟨rq, h, hl⟩ := h
  refine ⟨[], ⟨?_, Ser.rxRep_flush h.q, ?_, ?_⟩, by simp⟩ <;> unfold Ser.flushReceiveBuffers <;> rw [Ser.sync_empty h.sched]
  · exact h.sched
  · exact h.tb
  · exact h.rxs

theorem Low.read1 (h : Low n rx s) (h0 : s.bytesAvailable.2 ≠ 0) : Low n rx s.read1.1 := by
  obtain ⟨rq, h, hl⟩ := h
  rw [h.bytesAvailable.1] at h0
  cases rq with
  | nil => exact absurd rfl h0
  | cons c rq => exact ⟨rq, h.read1.1, by simp at hl; omega⟩

theorem avail_again (h : s.sched = []) : s.bytesAvailable.1.bytesAvailable.2 = s.bytesAvailable.2 := by
  unfold Ser.bytesAvailable
  rw [Ser.sync_empty h]
  dsimp only
  rw [Ser.sync_empty (s := s.disable.enable) h]
  rfl

theorem Low.readLoop (h : Low n rx s) (k : Nat) (hk : k ≤ s.bytesAvailable.2) : Low n rx (s.readLoop k).1 := by
  obtain ⟨rq, h, hl⟩ := h
  revert hk
  induction k generalizing s rq with
  | zero => exact fun _ => ⟨rq, h, hl⟩
  | succ k ih =>
    intro hk
    rw [h.bytesAvailable.1] at hk
    cases rq with
    | nil => simp at hk
    | cons c rq => exact ih (s := s.read1.1) rq h.read1.1 (by simp at hl; omega) (by rw [h.read1.1.bytesAvailable.1]; simp at hk; omega)

theorem Low.flushLoop (h : Low n rx s) (k : Nat) : Low n rx (Dev.flushLoop s k).1 := by
  induction k generalizing s with
  | zero => exact h
  | succ k ih =>
    unfold Dev.flushLoop
    dsimp only
    split
    · exact h.bytesAvailable
    · rename_i hc
      exact ih (h.bytesAvailable.read1 (by obtain ⟨_, q, _⟩ := h; rw [avail_again q.sched]; exact hc))

theorem Low.fillLoop (stop : Mem → Nat → Byte → Option R) (fuel : Nat) (h : Low n rx s) (l : Mem) (k : Nat) :
    Low n rx (Dev.fillLoop stop fuel s l k).1 := by
  induction fuel generalizing s l k with
  | zero => exact h
  | succ fuel ih =>
    unfold Dev.fillLoop
    dsimp only
    split
    · exact h.bytesAvailable
    · rename_i hc
      have r := h.bytesAvailable.read1 (by obtain ⟨_, q, _⟩ := h; rw [avail_again q.sched]; exact hc)
      split
      · exact r
      · exact ih r _ _

theorem Eff.low {x : List Byte → Byte → Prop} {st : Bool} {d d' : Dev S R X} (h : Eff x st d d') (hb : Low n rx d.ser) :
    Low n rx d'.ser := by
  induction h with
  | ctl h => rw [h.ser]; exact hb
  | cmd d s => exact hb.writeStr s
  | arg d s => exact hb.writeStr s
  | cmdN d s => exact hb.write s
  | argN d s => exact hb.write s
  | askSpace d => exact hb.spaceAvailable
  | askAvail d => exact hb.bytesAvailable
  | flushSer d => exact hb.flush
  | flushReadBuffer d _ => exact hb.flushLoop _
  | sendData d => exact hb.writeLoop _
  | receive d _ =>
    unfold Dev.receive
    split
    · rename_i hc
      exact hb.bytesAvailable.readLoop _ (by obtain ⟨_, q, _⟩ := hb; rw [avail_again q.sched]; exact hc)
    · exact hb.bytesAvailable
  | fillLine d stop _ =>
    have := hb.fillLoop stop (lineMax - d.lbFill) d.line d.lbFill
    unfold Dev.fillLine
    split
    · dsimp only
      split <;> exact this
    · exact hb
  | trans _ _ ih1 ih2 => exact ih2 (ih1 hb)

/-- The bytes `y` arrive. -/
theorem Low.arrive {d : Dev S R X} (h : Low n rx d.ser) {y : List Byte} (hy : n + y.length ≤ rx) : d.common (lands y) = d.more y := by
  obtain ⟨rq, h, hl⟩ := h
  have := (h.arrive y (by omega)).1
  simp only [lands, Dev.common, Dev.more]
  rw [this]

end Dev

namespace Sim7x00

theorem parseLine_plain (p : Platform) {d : D} (ha : d.snd ≠ .sendCiprxget2) (hr : d.snd ≠ .receiving) (hp : d.rep ≠ .ciprxget2) :
    (parseLine p d).1.snd ≠ .sendCiprxget2 ∧ (parseLine p d).1.snd ≠ .receiving := by
  have k1 : (parseWait d).1.snd = d.snd ∧ (parseWait d).1.rep = d.rep := by
    unfold parseWait; (repeat' split) <;> exact ⟨rfl, rfl⟩
  have k2 : ∀ e : D, e.snd ≠ .sendCiprxget2 → e.snd ≠ .receiving → e.rep ≠ .ciprxget2 →
      (parseReply p e).1.snd ≠ .sendCiprxget2 ∧ (parseReply p e).1.snd ≠ .receiving := by
    intro e h1 h2 h3
    unfold parseReply
    cases he : e.rep
    case ciprxget2 => exact absurd he h3
    all_goals (dsimp only; (repeat' split) <;> simp_all)
  have k3 : ∀ e : D, (checkState e).snd = e.snd := by
    intro e; unfold checkState SimDev.checkConnectionState; (repeat' split) <;> rfl
  unfold parseLine
  dsimp only
  have := k2 (parseWait d).1 (by rw [k1.1]; exact ha) (by rw [k1.1]; exact hr) (by rw [k1.2]; exact hp)
  split
  · rw [k1.1]; exact ⟨ha, hr⟩
  · split
    · exact this
    · rw [k3]; exact this

theorem more_run (p : Platform) {d : D} {rq : List Byte} {rx : Nat} (ok : Bool) (h : Ser.Still d.ser rq rx) (y : List Byte)
    (hl : rq.length + y.length ≤ rx) (hf : d.fillLineBuffer.2 = true) (hp : d.resetPending = false)
    (ha : d.snd ≠ .sendCiprxget2) (hr : d.snd ≠ .receiving) (hr' : d.rep ≠ .ciprxget2) :
    run p (d.more y) ok = (run p d ok).more y := by
  have k := parseLine_plain p (d := d.fillLineBuffer.1) (by simpa using ha) (by simpa using hr)
    (by simpa using hr')
  have w := more_work p h y hl hf (fun e => absurd e k.1) (fun e => absurd e k.2)
  unfold run
  have e1 : (d.more y).isOpen = d.isOpen := rfl
  have e2 : (d.more y).serialLocked = d.serialLocked := rfl
  have e3 : (d.more y).resetPending = d.resetPending := rfl
  rw [e1, e2, e3, hp]
  simp only [Bool.false_eq_true, if_false, w]
  split
  · unfold tryOpen; split <;> rfl
  · split <;> rfl

/-- Bytes behind a complete line wait for their turn. -/
theorem lands_run (p : Platform) {d : D} (ok : Bool) (hi : Inv d) (hb : Ser.Base d.ser) (y : List Byte)
    (hl : d.ser.bytesAvailable.2 + y.length ≤ d.ser.readBufferSize) (hc : d.ser.canReadLine.2 = true) (hlr : d.lineRead = true)
    (hp : d.resetPending = false) (ha : d.snd ≠ .sendCiprxget2) (hr : d.snd ≠ .receiving) (hr' : d.rep ≠ .ciprxget2) :
    exec (step p) d [lands y, .run ok] = exec (step p) d [.run ok, lands y] := by
  obtain ⟨rq, hs, hav⟩ := Dev.exists_still hb hi.1.rx
  have hf := Dev.fillLine_done (x := NoHeader) (SimDev.lineStop d.rep) (stopOk_sim d.rep) hs (Dev.canReadLine_nl hs hc) hi.1.line hlr
  rw [hav] at hl
  have lo : Dev.Low rq.length d.ser.rx.ring.size d.ser := ⟨rq, hs, Nat.le_refl _⟩
  have lo' : Dev.Low rq.length d.ser.rx.ring.size (run p d ok).ser :=
    Dev.Eff.low (eff_run (x := NoHeader) (st := false) p d ok (by simp)) lo
  show run p (d.common (lands y)) ok = (run p d ok).common (lands y)
  rw [lo.arrive hl, lo'.arrive hl]
  exact more_run p ok hs y hl hf hp ha hr hr'

/-- Bytes behind a complete block wait for their turn. -/
theorem lands_block (p : Platform) {d : D} (ok : Bool) (hi : Inv d) (hb : Ser.Base d.ser) (y : List Byte)
    (hl : d.ser.bytesAvailable.2 + y.length ≤ d.ser.readBufferSize) (hlr : d.lineRead = false) (hp : d.resetPending = false)
    (hd : d.disconnectPending = false) (hr : d.snd = .receiving) (hn : d.bytesToRead ≤ d.ser.bytesAvailable.2) :
    exec (step p) d [lands y, .run ok] = exec (step p) d [.run ok, lands y] := by
  obtain ⟨rq, hs, hav⟩ := Dev.exists_still hb hi.1.rx
  rw [hav] at hl hn
  have lo : Dev.Low rq.length d.ser.rx.ring.size d.ser := ⟨rq, hs, Nat.le_refl _⟩
  have lo' : Dev.Low rq.length d.ser.rx.ring.size (run p d ok).ser :=
    Dev.Eff.low (eff_run (x := NoHeader) (st := false) p d ok (by simp)) lo
  show run p (d.common (lands y)) ok = (run p d ok).common (lands y)
  rw [lo.arrive hl, lo'.arrive hl]
  have f : ∀ e : D, e.lineRead = false → e.disconnectPending = false → work p e = proceed e := by
    intro e h1 h2
    have k := Dev.fillLine_off e (SimDev.lineStop e.rep) h1
    unfold work
    have k' : e.fillLineBuffer = (e, false) := k
    dsimp only
    rw [k']
    simp [flushIfDisconnecting, h2]
  have w : work p (d.more y) = (work p d).more y := by
    rw [f d hlr hd, f (d.more y) hlr hd]
    exact more_proceed hs.sched y (by rw [hr]; intro e; cases e) (fun _ => Or.inr ⟨rq, _, hs, hl, hn⟩)
  unfold run
  have e1 : (d.more y).isOpen = d.isOpen := rfl
  have e2 : (d.more y).serialLocked = d.serialLocked := rfl
  have e3 : (d.more y).resetPending = d.resetPending := rfl
  rw [e1, e2, e3, hp]
  simp only [Bool.false_eq_true, if_false, w]
  split
  · unfold tryOpen; split <;> rfl
  · split <;> rfl

end Sim7x00

namespace Sim800

theorem parseLine_plain (p : Platform) {d : D} (ha : d.snd ≠ .sendCiprxget2) (hr : d.snd ≠ .receiving) (hp : d.rep ≠ .ciprxget2) :
    (parseLine p d).1.snd ≠ .sendCiprxget2 ∧ (parseLine p d).1.snd ≠ .receiving := by
  have k1 : (parseWait d).snd = d.snd ∧ (parseWait d).rep = d.rep := by
    unfold parseWait; (repeat' split) <;> exact ⟨rfl, rfl⟩
  have k2 : ∀ e : D, e.snd ≠ .sendCiprxget2 → e.snd ≠ .receiving → e.rep ≠ .ciprxget2 →
      (parseReply p e).snd ≠ .sendCiprxget2 ∧ (parseReply p e).snd ≠ .receiving := by
    intro e h1 h2 h3
    unfold parseReply
    cases he : e.rep
    case ciprxget2 => exact absurd he h3
    case cipstart =>
      dsimp only [Dev.handleDisconnect]; (repeat' split) <;> simp_all
    all_goals (dsimp only; (repeat' split) <;> simp_all)
  have k3 : ∀ e : D, (checkState e).snd = e.snd := by
    intro e; unfold checkState SimDev.checkConnectionState; (repeat' split) <;> rfl
  unfold parseLine
  have := k2 (parseWait d) (by rw [k1.1]; exact ha) (by rw [k1.1]; exact hr) (by rw [k1.2]; exact hp)
  split
  · exact ⟨ha, hr⟩
  · dsimp only
    rw [k3]; exact this

theorem more_run (p : Platform) {d : D} {rq : List Byte} {rx : Nat} (ok : Bool) (h : Ser.Still d.ser rq rx) (y : List Byte)
    (hl : rq.length + y.length ≤ rx) (hf : d.fillLineBuffer.2 = true) (hp : d.resetPending = false)
    (ha : d.snd ≠ .sendCiprxget2) (hr : d.snd ≠ .receiving) (hr' : d.rep ≠ .ciprxget2) :
    run p (d.more y) ok = (run p d ok).more y := by
  have k := parseLine_plain p (d := d.fillLineBuffer.1) (by simpa using ha) (by simpa using hr)
    (by simpa using hr')
  have w := more_work p h y hl hf (fun e => absurd e k.1) (fun e => absurd e k.2)
  unfold run
  have e1 : (d.more y).isOpen = d.isOpen := rfl
  have e2 : (d.more y).serialLocked = d.serialLocked := rfl
  have e3 : (d.more y).resetPending = d.resetPending := rfl
  rw [e1, e2, e3, hp]
  simp only [Bool.false_eq_true, if_false, w]
  split
  · unfold tryOpen; split <;> rfl
  · split <;> rfl

/-- Bytes behind a complete line wait for their turn. -/
theorem lands_run (p : Platform) {d : D} (ok : Bool) (hi : Inv d) (hb : Ser.Base d.ser) (y : List Byte)
    (hl : d.ser.bytesAvailable.2 + y.length ≤ d.ser.readBufferSize) (hc : d.ser.canReadLine.2 = true) (hlr : d.lineRead = true)
    (hp : d.resetPending = false) (ha : d.snd ≠ .sendCiprxget2) (hr : d.snd ≠ .receiving) (hr' : d.rep ≠ .ciprxget2) :
    exec (step p) d [lands y, .run ok] = exec (step p) d [.run ok, lands y] := by
  obtain ⟨rq, hs, hav⟩ := Dev.exists_still hb hi.1.rx
  have hf := Dev.fillLine_done (x := NoHeader) (SimDev.lineStop d.rep) (stopOk_sim d.rep) hs (Dev.canReadLine_nl hs hc) hi.1.line hlr
  rw [hav] at hl
  have lo : Dev.Low rq.length d.ser.rx.ring.size d.ser := ⟨rq, hs, Nat.le_refl _⟩
  have lo' : Dev.Low rq.length d.ser.rx.ring.size (run p d ok).ser :=
    Dev.Eff.low (eff_run (x := NoHeader) (st := false) p d ok (by simp)) lo
  show run p (d.common (lands y)) ok = (run p d ok).common (lands y)
  rw [lo.arrive hl, lo'.arrive hl]
  exact more_run p ok hs y hl hf hp ha hr hr'

/-- Bytes behind a complete block wait for their turn. -/
theorem lands_block (p : Platform) {d : D} (ok : Bool) (hi : Inv d) (hb : Ser.Base d.ser) (y : List Byte)
    (hl : d.ser.bytesAvailable.2 + y.length ≤ d.ser.readBufferSize) (hlr : d.lineRead = false) (hp : d.resetPending = false)
    (hd : d.disconnectPending = false) (hr : d.snd = .receiving) (hn : d.bytesToRead ≤ d.ser.bytesAvailable.2) :
    exec (step p) d [lands y, .run ok] = exec (step p) d [.run ok, lands y] := by
  obtain ⟨rq, hs, hav⟩ := Dev.exists_still hb hi.1.rx
  rw [hav] at hl hn
  have lo : Dev.Low rq.length d.ser.rx.ring.size d.ser := ⟨rq, hs, Nat.le_refl _⟩
  have lo' : Dev.Low rq.length d.ser.rx.ring.size (run p d ok).ser :=
    Dev.Eff.low (eff_run (x := NoHeader) (st := false) p d ok (by simp)) lo
  show run p (d.common (lands y)) ok = (run p d ok).common (lands y)
  rw [lo.arrive hl, lo'.arrive hl]
  have f : ∀ e : D, e.lineRead = false → e.disconnectPending = false → work p e = proceed e := by
    intro e h1 h2
    have k := Dev.fillLine_off e (SimDev.lineStop e.rep) h1
    unfold work
    have k' : e.fillLineBuffer = (e, false) := k
    dsimp only
    rw [k']
    simp [flushIfDisconnecting, h2]
  have w : work p (d.more y) = (work p d).more y := by
    rw [f d hlr hd, f (d.more y) hlr hd]
    exact more_proceed hs.sched y (by rw [hr]; intro e; cases e) (fun _ => Or.inr ⟨rq, _, hs, hl, hn⟩)
  unfold run
  have e1 : (d.more y).isOpen = d.isOpen := rfl
  have e2 : (d.more y).serialLocked = d.serialLocked := rfl
  have e3 : (d.more y).resetPending = d.resetPending := rfl
  rw [e1, e2, e3, hp]
  simp only [Bool.false_eq_true, if_false, w]
  split
  · unfold tryOpen; split <;> rfl
  · split <;> rfl

end Sim800

namespace Espressif

theorem parseLine_plain (p : Platform) {d : D} (ha : d.snd ≠ .sendCiprecvdata) (hr : d.snd ≠ .receiving)
    (hp : d.rep ≠ .parseStateCiprecvdata) :
    (parseLine p d).1.snd ≠ .sendCiprecvdata ∧ (parseLine p d).1.snd ≠ .receiving := by
  have k1 : (parseWait (parseSendFail d)).snd = d.snd ∧ (parseWait (parseSendFail d)).rep = d.rep := by
    unfold parseWait parseSendFail; (repeat' split) <;> exact ⟨rfl, rfl⟩
  have k2 : ∀ e : D, e.snd ≠ .sendCiprecvdata → e.snd ≠ .receiving → e.rep ≠ .parseStateCiprecvdata →
      (parseReply p e).snd ≠ .sendCiprecvdata ∧ (parseReply p e).snd ≠ .receiving := by
    intro e h1 h2 h3
    unfold parseReply
    cases he : e.rep
    case parseStateCiprecvdata => exact absurd he h3
    all_goals (dsimp only; (repeat' split) <;> simp_all)
  have k3 : ∀ e : D, (checkState p e).snd = e.snd ∨ (checkState p e).snd = .finalizeDisconnect := by
    intro e; unfold checkState; (repeat' split) <;> first | exact Or.inl rfl | exact Or.inr rfl
  unfold parseLine
  have := k2 (parseWait (parseSendFail d)) (by rw [k1.1]; exact ha) (by rw [k1.1]; exact hr) (by rw [k1.2]; exact hp)
  split
  · exact ⟨ha, hr⟩
  · rcases k3 (parseReply p (parseWait (parseSendFail d))) with e | e
    · dsimp only
      rw [e]; exact this
    · dsimp only
      rw [e]; simp

theorem more_run (p : Platform) {d : D} {rq : List Byte} {rx : Nat} (ok : Bool) (h : Ser.Still d.ser rq rx) (y : List Byte)
    (hl : rq.length + y.length ≤ rx) (hf : (fillLineBuffer d).2 = true) (hp : d.resetPending = false)
    (ha : d.snd ≠ .sendCiprecvdata) (hr : d.snd ≠ .receiving) (hr' : d.rep ≠ .waitCiprecvdata) (hr2 : d.rep ≠ .parseStateCiprecvdata) :
    run p (d.more y) ok = (run p d ok).more y := by
  have k := parseLine_plain p (d := (fillLineBuffer d).1) (by simpa using ha) (by simpa using hr)
    (by rcases fillLineBuffer_rep' d with e | e
        · rw [e]; exact hr2
        · exact absurd e hr')
  have w := more_work p h y hl hf (fun e => absurd e k.1) (fun e => absurd e k.2)
  unfold run
  have e1 : (d.more y).isOpen = d.isOpen := rfl
  have e3 : (d.more y).resetPending = d.resetPending := rfl
  rw [e1, e3, hp]
  simp only [Bool.false_eq_true, if_false, w]
  split
  · unfold tryOpen; split <;> rfl
  · rfl

/-- Bytes behind a complete line wait for their turn. -/
theorem lands_run (p : Platform) {d : D} (ok : Bool) (hi : Inv d) (hb : Ser.Base d.ser) (y : List Byte)
    (hl : d.ser.bytesAvailable.2 + y.length ≤ d.ser.readBufferSize) (hc : d.ser.canReadLine.2 = true) (hlr : d.lineRead = true)
    (hp : d.resetPending = false) (ha : d.snd ≠ .sendCiprecvdata) (hr : d.snd ≠ .receiving) (hr' : d.rep ≠ .waitCiprecvdata) (hr2 : d.rep ≠ .parseStateCiprecvdata) :
    exec (step p) d [lands y, .run ok] = exec (step p) d [.run ok, lands y] := by
  obtain ⟨rq, hs, hav⟩ := Dev.exists_still hb hi.rx
  have hf := Dev.fillLine_done (x := HeaderEnd) (lineStop d.typ d.rep) (stopOk d.typ d.rep) hs (Dev.canReadLine_nl hs hc) hi.line hlr
  rw [hav] at hl
  have lo : Dev.Low rq.length d.ser.rx.ring.size d.ser := ⟨rq, hs, Nat.le_refl _⟩
  have lo' : Dev.Low rq.length d.ser.rx.ring.size (run p d ok).ser :=
    Dev.Eff.low (eff_run (st := false) p d ok (by simp)) lo
  show run p (d.common (lands y)) ok = (run p d ok).common (lands y)
  rw [lo.arrive hl, lo'.arrive hl]
  exact more_run p ok hs y hl hf hp ha hr hr' hr2

/-- Bytes behind a complete block wait for their turn. -/
theorem lands_block (p : Platform) {d : D} (ok : Bool) (hi : Inv d) (hb : Ser.Base d.ser) (y : List Byte)
    (hl : d.ser.bytesAvailable.2 + y.length ≤ d.ser.readBufferSize) (hlr : d.lineRead = false) (hp : d.resetPending = false)
    (hd : d.disconnectPending = false) (hr : d.snd = .receiving) (hn : d.bytesToRead ≤ d.ser.bytesAvailable.2) :
    exec (step p) d [lands y, .run ok] = exec (step p) d [.run ok, lands y] := by
  obtain ⟨rq, hs, hav⟩ := Dev.exists_still hb hi.rx
  rw [hav] at hl hn
  have lo : Dev.Low rq.length d.ser.rx.ring.size d.ser := ⟨rq, hs, Nat.le_refl _⟩
  have lo' : Dev.Low rq.length d.ser.rx.ring.size (run p d ok).ser :=
    Dev.Eff.low (eff_run (st := false) p d ok (by simp)) lo
  show run p (d.common (lands y)) ok = (run p d ok).common (lands y)
  rw [lo.arrive hl, lo'.arrive hl]
  have f : ∀ e : D, e.lineRead = false → e.disconnectPending = false → work p e = proceed p e := by
    intro e h1 h2
    have k := Dev.fillLine_off e (lineStop e.typ e.rep) h1
    unfold work
    have k' : fillLineBuffer e = (e, false) := k
    dsimp only
    rw [k']
    simp [flushIfDisconnecting, h2]
  have w : work p (d.more y) = (work p d).more y := by
    rw [f d hlr hd, f (d.more y) hlr hd]
    exact more_proceed p hs.sched y (by rw [hr]; intro e; cases e) (fun _ => Or.inr ⟨rq, _, hs, hl, hn⟩)
  unfold run
  have e1 : (d.more y).isOpen = d.isOpen := rfl
  have e3 : (d.more y).resetPending = d.resetPending := rfl
  rw [e1, e3, hp]
  simp only [Bool.false_eq_true, if_false, w]
  split
  · unfold tryOpen; split <;> rfl
  · rfl

end Espressif

namespace CC1352P7

theorem parseLine_plain (p : Platform) {d : D} (ha : d.snd ≠ .sendCiprecvdata) (hr : d.snd ≠ .receiving)
    (hp : d.rep ≠ .parseStateCiprecvdata) :
    (parseLine p d).1.snd ≠ .sendCiprecvdata ∧ (parseLine p d).1.snd ≠ .receiving := by
  have k1 : (parseWait d).snd = d.snd ∧ (parseWait d).rep = d.rep := by
    unfold parseWait; (repeat' split) <;> exact ⟨rfl, rfl⟩
  have k2 : ∀ e : D, e.snd ≠ .sendCiprecvdata → e.snd ≠ .receiving → e.rep ≠ .parseStateCiprecvdata →
      (parseReply p e).snd ≠ .sendCiprecvdata ∧ (parseReply p e).snd ≠ .receiving := by
    intro e h1 h2 h3
    unfold parseReply
    cases he : e.rep
    case parseStateCiprecvdata => exact absurd he h3
    all_goals (dsimp only [parseMac, parseCsq]; (repeat' split) <;> simp_all)
  have k3 : ∀ e : D, (checkState p e).snd = e.snd := by
    intro e; unfold checkState; (repeat' split) <;> rfl
  unfold parseLine
  have := k2 (parseWait d) (by rw [k1.1]; exact ha) (by rw [k1.1]; exact hr) (by rw [k1.2]; exact hp)
  split
  · exact ⟨ha, hr⟩
  · dsimp only
    rw [k3]; exact this

theorem more_run (p : Platform) {d : D} {rq : List Byte} {rx : Nat} (ok : Bool) (h : Ser.Still d.ser rq rx) (y : List Byte)
    (hl : rq.length + y.length ≤ rx) (hf : (fillLineBuffer d).2 = true) (hp : d.resetPending = false)
    (ha : d.snd ≠ .sendCiprecvdata) (hr : d.snd ≠ .receiving) (hr' : d.rep ≠ .parseStateCiprecvdata) :
    run p (d.more y) ok = (run p d ok).more y := by
  have k := parseLine_plain p (d := (fillLineBuffer d).1) (by simpa using ha) (by simpa using hr)
    (by simpa using hr')
  have w := more_work p h y hl hf (fun e => absurd e k.1) (fun e => absurd e k.2)
  unfold run
  have e1 : (d.more y).isOpen = d.isOpen := rfl
  have e3 : (d.more y).resetPending = d.resetPending := rfl
  rw [e1, e3, hp]
  simp only [Bool.false_eq_true, if_false, w]
  split
  · unfold tryOpen; split <;> rfl
  · rfl

/-- Bytes behind a complete line wait for their turn. -/
theorem lands_run (p : Platform) {d : D} (ok : Bool) (hi : Inv d) (hb : Ser.Base d.ser) (y : List Byte)
    (hl : d.ser.bytesAvailable.2 + y.length ≤ d.ser.readBufferSize) (hc : d.ser.canReadLine.2 = true) (hlr : d.lineRead = true)
    (hp : d.resetPending = false) (ha : d.snd ≠ .sendCiprecvdata) (hr : d.snd ≠ .receiving) (hr' : d.rep ≠ .parseStateCiprecvdata) :
    exec (step p) d [lands y, .run ok] = exec (step p) d [.run ok, lands y] := by
  obtain ⟨rq, hs, hav⟩ := Dev.exists_still hb hi.1.rx
  have hf := Dev.fillLine_done (x := NoHeader) (lineStop d.rep) (stopOk d.rep) hs (Dev.canReadLine_nl hs hc) hi.1.line hlr
  rw [hav] at hl
  have lo : Dev.Low rq.length d.ser.rx.ring.size d.ser := ⟨rq, hs, Nat.le_refl _⟩
  have lo' : Dev.Low rq.length d.ser.rx.ring.size (run p d ok).ser :=
    Dev.Eff.low (eff_run (x := NoHeader) (st := false) p d ok (by simp)) lo
  show run p (d.common (lands y)) ok = (run p d ok).common (lands y)
  rw [lo.arrive hl, lo'.arrive hl]
  exact more_run p ok hs y hl hf hp ha hr hr'

/-- Bytes behind a complete block wait for their turn. -/
theorem lands_block (p : Platform) {d : D} (ok : Bool) (hi : Inv d) (hb : Ser.Base d.ser) (y : List Byte)
    (hl : d.ser.bytesAvailable.2 + y.length ≤ d.ser.readBufferSize) (hlr : d.lineRead = false) (hp : d.resetPending = false)
    (hd : d.disconnectPending = false) (hr : d.snd = .receiving) (hn : d.bytesToRead ≤ d.ser.bytesAvailable.2) :
    exec (step p) d [lands y, .run ok] = exec (step p) d [.run ok, lands y] := by
  obtain ⟨rq, hs, hav⟩ := Dev.exists_still hb hi.1.rx
  rw [hav] at hl hn
  have lo : Dev.Low rq.length d.ser.rx.ring.size d.ser := ⟨rq, hs, Nat.le_refl _⟩
  have lo' : Dev.Low rq.length d.ser.rx.ring.size (run p d ok).ser :=
    Dev.Eff.low (eff_run (x := NoHeader) (st := false) p d ok (by simp)) lo
  show run p (d.common (lands y)) ok = (run p d ok).common (lands y)
  rw [lo.arrive hl, lo'.arrive hl]
  have f : ∀ e : D, e.lineRead = false → e.disconnectPending = false → work p e = proceed p e := by
    intro e h1 h2
    have k := Dev.fillLine_off e (lineStop e.rep) h1
    unfold work
    have k' : fillLineBuffer e = (e, false) := k
    dsimp only
    rw [k']
    simp [flushIfDisconnecting, h2]
  have w : work p (d.more y) = (work p d).more y := by
    rw [f d hlr hd, f (d.more y) hlr hd]
    exact more_proceed p hs.sched y (by rw [hr]; intro e; cases e) (fun _ => Or.inr ⟨rq, _, hs, hl, hn⟩)
  unfold run
  have e1 : (d.more y).isOpen = d.isOpen := rfl
  have e3 : (d.more y).resetPending = d.resetPending := rfl
  rw [e1, e3, hp]
  simp only [Bool.false_eq_true, if_false, w]
  split
  · unfold tryOpen; split <;> rfl
  · rfl

end CC1352P7

end Verif
