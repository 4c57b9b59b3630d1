import Verif.Lemmas.Roomy

/-! `disconnect()` while payload is due: what has arrived is thrown away. -/

namespace Verif

open Dev Spec

variable {S R X : Type}

theorem flushLoop_takes {s : Ser} {rq : List Byte} (h : Ser.RxRep s rq) (n : Nat) :
    min n rq.length ≤ (flushLoop s n).2.2.length := by
  induction n generalizing s rq with
  | zero => simp
  | succ n ih =>
    obtain ⟨add, h1, e⟩ := Ser.rxRep_bytesAvailable h
    unfold flushLoop
    dsimp only
    split
    · rename_i h0
      have : rq.length = 0 := by
        have hx : (rq ++ add).length = 0 := by rw [← e]; exact h0
        simp at hx; simp [hx.1]
      simp [this]
    · cases hq : rq ++ add with
      | nil => rw [hq] at e; simp at e; rename_i h0; exact absurd e h0
      | cons c cs =>
        rw [hq] at h1
        obtain ⟨add2, h2, _⟩ := Ser.rxRep_read1 h1
        have h3 := ih h2
        have : rq.length ≤ cs.length + 1 := by
          have := congrArg List.length hq
          simp at this; omega
        simp only [List.length_append, List.length_cons] at h3 ⊢
        omega

theorem flush_takes {d : Dev S R X} (h : Ser.RxOk d.ser) :
    ∃ bs, d.flushReadBuffer.trace = d.trace ++ [.drop bs] ∧
      min d.bytesToRead d.ser.rx.ring.bytesAvailable ≤ bs.length := by
  obtain ⟨rq, h⟩ := h
  refine ⟨_, rfl, ?_⟩
  have := flushLoop_takes h d.bytesToRead
  have e : d.ser.rx.ring.bytesAvailable = rq.length := h.rx.ring.av
  rw [e]; exact this

namespace Sim7x00

theorem rescue_run (p : Platform) {d : D} (ok : Bool) (hv : Ser.RxOk d.ser) (ho : d.isOpen = true) (hk : d.serialLocked = false)
    (hr : d.resetPending = false) (hl : d.lineRead = false) (hs : d.snd = .receiving)
    (hd : d.disconnectPending = true) :
    ∃ bs rest, (run p d ok).trace = d.trace ++ .drop bs :: rest ∧
      min d.bytesToRead d.ser.rx.ring.bytesAvailable ≤ bs.length := by
  obtain ⟨bs, h1, h2⟩ := flush_takes hv
  obtain ⟨rest, h3⟩ := proceed_grows d.flushReadBuffer
  refine ⟨bs, rest, ?_, h2⟩
  unfold run
  rw [if_neg (by simp [ho]), if_neg (by simp [hk]), hr]
  simp only [Bool.false_eq_true, if_false]
  unfold work
  dsimp only
  have e : d.fillLineBuffer = (d, false) := fillLine_off d _ hl
  rw [e]
  have e2 : flushIfDisconnecting d = d.flushReadBuffer := by
    unfold flushIfDisconnecting; rw [if_pos ⟨hd, hs⟩]
  simp only [Bool.false_eq_true, if_false, e2]
  rw [h3, h1]
  simp

end Sim7x00

namespace Sim800

theorem rescue_run (p : Platform) {d : D} (ok : Bool) (hv : Ser.RxOk d.ser) (ho : d.isOpen = true) (hk : d.serialLocked = false)
    (hr : d.resetPending = false) (hl : d.lineRead = false) (hs : d.snd = .receiving)
    (hd : d.disconnectPending = true) :
    ∃ bs rest, (run p d ok).trace = d.trace ++ .drop bs :: rest ∧
      min d.bytesToRead d.ser.rx.ring.bytesAvailable ≤ bs.length := by
  obtain ⟨bs, h1, h2⟩ := flush_takes hv
  obtain ⟨rest, h3⟩ := proceed_grows d.flushReadBuffer
  refine ⟨bs, rest, ?_, h2⟩
  unfold run
  rw [if_neg (by simp [ho]), if_neg (by simp [hk]), hr]
  simp only [Bool.false_eq_true, if_false]
  unfold work
  dsimp only
  have e : d.fillLineBuffer = (d, false) := fillLine_off d _ hl
  rw [e]
  have e2 : flushIfDisconnecting d = d.flushReadBuffer := by
    unfold flushIfDisconnecting; rw [if_pos ⟨hd, hs⟩]
  simp only [Bool.false_eq_true, if_false, e2]
  rw [h3, h1]
  simp

end Sim800

namespace Espressif

theorem rescue_run (p : Platform) {d : D} (ok : Bool) (hv : Ser.RxOk d.ser) (ho : d.isOpen = true)
    (hr : d.resetPending = false) (hl : d.lineRead = false) (hs : d.snd = .receiving)
    (hd : d.disconnectPending = true) :
    ∃ bs rest, (run p d ok).trace = d.trace ++ .drop bs :: rest ∧
      min d.bytesToRead d.ser.rx.ring.bytesAvailable ≤ bs.length := by
  obtain ⟨bs, h1, h2⟩ := flush_takes hv
  obtain ⟨rest, h3⟩ := proceed_grows p d.flushReadBuffer
  refine ⟨bs, rest, ?_, h2⟩
  unfold run
  rw [if_neg (by simp [ho]), hr]
  simp only [Bool.false_eq_true, if_false]
  unfold work
  dsimp only
  have e : fillLineBuffer d = (d, false) := fillLine_off d _ hl
  rw [e]
  have e2 : flushIfDisconnecting d = d.flushReadBuffer := by
    unfold flushIfDisconnecting; rw [if_pos ⟨hd, hs⟩]
  simp only [Bool.false_eq_true, if_false, e2]
  rw [h3, h1]
  simp

end Espressif

namespace CC1352P7

theorem proceed_grows (p : Platform) (d : D) : ∃ new, (proceed p d).trace = d.trace ++ new := by
  unfold proceed
  split
  · exact ⟨[], by simp⟩
  · split
    · exact ⟨[], by simp [askSpace]⟩
    · have ht : d.trace = (askSpace d).trace := rfl
      rw [ht]
      generalize askSpace d = d
      unfold sendNext
      split
      · exact ⟨_, sendCommand_trace2 d _⟩
      · split
        · exact ⟨_, sendCommand_trace2 d _⟩
        · exact (act_turn d).grows

theorem rescue_run (p : Platform) {d : D} (ok : Bool) (hv : Ser.RxOk d.ser) (ho : d.isOpen = true)
    (hr : d.resetPending = false) (hl : d.lineRead = false) (hs : d.snd = .receiving)
    (hd : d.disconnectPending = true) :
    ∃ bs rest, (run p d ok).trace = d.trace ++ .drop bs :: rest ∧
      min d.bytesToRead d.ser.rx.ring.bytesAvailable ≤ bs.length := by
  obtain ⟨bs, h1, h2⟩ := flush_takes hv
  obtain ⟨rest, h3⟩ := proceed_grows p d.flushReadBuffer
  refine ⟨bs, rest, ?_, h2⟩
  unfold run
  rw [if_neg (by simp [ho]), hr]
  simp only [Bool.false_eq_true, if_false]
  unfold work
  dsimp only
  have e : fillLineBuffer d = (d, false) := fillLine_off d _ hl
  rw [e]
  have e2 : flushIfDisconnecting d = d.flushReadBuffer := by
    unfold flushIfDisconnecting; rw [if_pos ⟨hd, hs⟩]
  simp only [Bool.false_eq_true, if_false, e2]
  rw [h3, h1]
  simp

end CC1352P7

end Verif
