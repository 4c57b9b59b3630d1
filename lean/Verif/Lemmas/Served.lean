import Verif.Lemmas.Rescue

/-! What a call does to the bytes in the serial receive buffer when none arrive meanwhile. -/

namespace Verif

open Dev Spec

variable {S R X : Type}

/-- Number of bytes in the receive buffer. -/
def Ser.held (s : Ser) : Nat := s.rx.ring.bytesAvailable

namespace RxQuiet

theorem avail {s : Ser} (h : RxQuiet s) : s.bytesAvailable.2 = s.held := by
  show s.sync.rx.ring.bytesAvailable = _
  rw [h.sync]; rfl

theorem held_avail {s : Ser} (h : RxQuiet s) : s.bytesAvailable.1.held = s.held := by
  show s.sync.rx.ring.bytesAvailable = _
  rw [h.sync]; rfl

theorem held_read1 {s : Ser} (h : RxQuiet s) (hv : Ser.RxOk s) (h0 : 0 < s.held) :
    s.read1.1.held + 1 = s.held ∧ Ser.RxOk s.read1.1 := by
  obtain ⟨rq, hv⟩ := hv
  have e : s.held = rq.length := hv.rx.ring.av
  cases rq with
  | nil => simp at e; omega
  | cons c cs =>
    have h1 : Ser.RxRep s.sync (c :: cs) := by
      obtain ⟨add, h1⟩ := Ser.rxRep_sync hv
      have e1 : s.sync.rx.ring.bytesAvailable = (c :: cs ++ add).length := h1.rx.ring.av
      rw [h.sync] at e1
      have : add = [] := by
        have e2 : s.rx.ring.bytesAvailable = s.held := rfl
        rw [e2, e] at e1
        simp at e1
        exact e1
      rw [this] at h1; simpa using h1
    have hp := LineBuf.rep_pull h1.rx
    have e2 : s.read1.1.held = cs.length := hp.1.ring.av
    obtain ⟨add, h2, _⟩ := Ser.rxRep_read1 hv
    exact ⟨by rw [e2, e]; rfl, _, h2⟩

theorem held_readLoop {s : Ser} (h : RxQuiet s) (hv : Ser.RxOk s) {n : Nat} (hn : n ≤ s.held) :
    (s.readLoop n).1.held + n = s.held := by
  induction n generalizing s with
  | zero => rfl
  | succ n ih =>
    obtain ⟨h1, h2⟩ := h.held_read1 hv (by omega)
    have hq : RxQuiet s.read1.1 := h.later (Ser.later_read1 s)
    have h3 := ih hq h2 (by omega)
    show (s.read1.1.readLoop n).1.held + (n + 1) = _
    omega

theorem held_flushLoop {s : Ser} (h : RxQuiet s) (hv : Ser.RxOk s) (n : Nat) :
    (flushLoop s n).1.held + (flushLoop s n).2.2.length = s.held ∧
    (flushLoop s n).2.1 + (flushLoop s n).2.2.length = n ∧
    ((flushLoop s n).2.1 = 0 ∨ (flushLoop s n).1.held = 0) := by
  induction n generalizing s with
  | zero => exact ⟨rfl, rfl, .inl rfl⟩
  | succ n ih =>
    unfold flushLoop
    dsimp only
    rw [h.avail]
    split
    · rename_i h0
      exact ⟨by show s.bytesAvailable.1.held + 0 = _; rw [h.held_avail]; rfl, rfl, .inr (by rw [h.held_avail]; exact h0)⟩
    · rename_i h0
      have hq : RxQuiet s.bytesAvailable.1 := h.later (Ser.later_bytesAvailable s)
      obtain ⟨rq, hv⟩ := hv
      obtain ⟨add, hv1, _⟩ := Ser.rxRep_bytesAvailable hv
      obtain ⟨h1, h2⟩ := hq.held_read1 ⟨_, hv1⟩ (by rw [h.held_avail]; omega)
      rw [h.held_avail] at h1
      obtain ⟨h3, h4, h5⟩ := ih (hq.later (Ser.later_read1 _)) h2
      refine ⟨?_, ?_, h5⟩ <;>
        simp only [List.length_cons] <;> omega

/-- A loop that reads a line reads all there is or completes the line. -/
theorem held_fillLoop {s : Ser} (h : RxQuiet s) (hv : Ser.RxOk s)
    (stop : Mem → Nat → Byte → Option R) (hstop : ∀ m c, stop m lineMax c ≠ none)
    (fuel : Nat) (l : Mem) (k : Nat) (hk : k < lineMax) (hf : lineMax - k ≤ fuel) :
    let q := fillLoop stop fuel s l k
    (q.2.2.2 = none ∧ q.1.held = 0 ∧ q.2.2.1 = k + s.held) ∨
     ∃ x n, q.2.2.2 = some (x, n) ∧ q.2.2.1 = 0 ∧ q.1.held + n = k + s.held ∧ k < n := by
  induction fuel generalizing s l k with
  | zero => omega
  | succ fuel ih =>
    intro q
    simp only [q]
    unfold fillLoop
    dsimp only
    rw [h.avail]
    split
    · rename_i h0
      exact .inl ⟨rfl, by rw [h.held_avail]; exact h0, by show k = _; omega⟩
    · rename_i h0
      have hq : RxQuiet s.bytesAvailable.1 := h.later (Ser.later_bytesAvailable s)
      obtain ⟨rq, hv⟩ := hv
      obtain ⟨add, hv1, _⟩ := Ser.rxRep_bytesAvailable hv
      obtain ⟨h1, h2⟩ := hq.held_read1 ⟨_, hv1⟩ (by rw [h.held_avail]; omega)
      rw [h.held_avail] at h1
      have hq2 : RxQuiet s.bytesAvailable.1.read1.1 := hq.later (Ser.later_read1 _)
      generalize s.bytesAvailable.1.read1 = r at *
      cases hst : stop (l.store k r.2) (k + 1) r.2 with
      | some x => exact .inr ⟨x, k + 1, rfl, rfl, by dsimp only; omega, by omega⟩
      | none =>
        have hk1 : k + 1 < lineMax := by
          rcases Nat.lt_or_ge (k + 1) lineMax with h | h
          · exact h
          · have : k + 1 = lineMax := by omega
            rw [this] at hst
            exact absurd hst (hstop _ _)
        have h4 := ih hq2 h2 (l.store k r.2) (k + 1) hk1 (by omega)
        rcases h4 with ⟨h5, h6, h7⟩ | ⟨x, n, h5, h6, h7, h8⟩
        · exact .inl ⟨h5, h6, by dsimp only; rw [h7]; omega⟩
        · exact .inr ⟨x, n, h5, h6, by dsimp only; omega, by omega⟩

end RxQuiet

/-- Bytes in the receive buffer and in the unfinished line. -/
def Dev.load (d : Dev S R X) : Nat := d.lbFill + d.ser.held

/-- A call takes bytes from the receive buffer; those that stay in the line buffer are not forgotten. -/
structure Eased (d e : Dev S R X) : Prop where
  held : e.ser.held ≤ d.ser.held
  load : e.ser.held = 0 ∨ e.load ≤ d.load

theorem Eased.refl (d : Dev S R X) : Eased d d := ⟨Nat.le_refl _, .inr (Nat.le_refl _)⟩

theorem Eased.trans {a b c : Dev S R X} (h : Eased a b) (k : Eased b c) : Eased a c where
  held := Nat.le_trans k.held h.held
  load := by
    rcases k.load with e | e
    · exact .inl e
    · rcases h.load with e2 | e2
      · have := k.held; exact .inl (by omega)
      · exact .inr (Nat.le_trans e e2)

theorem Eased.same {d e : Dev S R X} (h : e.ser.rx = d.ser.rx) (hl : e.lbFill = d.lbFill) :
    Eased d e := by
  have : e.ser.held = d.ser.held := by unfold Ser.held; rw [h]
  exact ⟨by omega, .inr (by unfold Dev.load; omega)⟩

/-- What completing a line does. -/
theorem fillLine_eased {d : Dev S R X} (hq : RxQuiet d.ser) (hv : Ser.RxOk d.ser) (hl : LineOk d)
    (stop : Mem → Nat → Byte → Option R) (hstop : ∀ m c, stop m lineMax c ≠ none) (hr : d.lineRead = true) :
    ((d.fillLine stop).2 = false ∧ (d.fillLine stop).1.ser.held = 0 ∧ (d.fillLine stop).1.load = d.load) ∨
     ∃ l, (d.fillLine stop).2 = true ∧ (d.fillLine stop).1.lbFill = 0 ∧ (d.fillLine stop).1.trace = d.trace ++ [.line l] ∧
       (d.fillLine stop).1.ser.held + l.length = d.load ∧ d.lbFill < l.length := by
  have := hq.held_fillLoop hv stop hstop (lineMax - d.lbFill) d.line d.lbFill hl.fill (Nat.le_refl _)
  obtain ⟨t, ht⟩ := fillLoop_spec stop hstop (lineMax - d.lbFill) d.ser d.line d.lbFill hl.len hl.fill
    (Nat.le_refl _)
  unfold fillLine
  simp only [hr, if_true]
  generalize fillLoop stop (lineMax - d.lbFill) d.ser d.line d.lbFill = q at this ht
  obtain ⟨q1, q2, q3, q4⟩ := q
  obtain ⟨h2, h3, h4⟩ | ⟨x, n, h2, h3, h4, h5⟩ := this
  · simp only at h2 h3 h4
    subst h2
    refine .inl ⟨rfl, h3, ?_⟩
    show q3 + q1.held = d.lbFill + d.ser.held
    omega
  · simp only at h2 h3 h4
    subst h2
    obtain ⟨_, hn, _, h6, h7, h8, _⟩ := ht.full x n rfl
    simp only at h7 h8
    refine .inr ⟨q2.cells.take n, rfl, h3, rfl, ?_, ?_⟩
    · have : (q2.cells.take n).length = n := by
        rw [h7]; rw [hn]; simp
        have := hl.len; have := hl.fill; omega
      rw [this]; exact h4
    · have : (q2.cells.take n).length = n := by
        rw [h7]; rw [hn]; simp
        have := hl.len; have := hl.fill; omega
      omega

theorem receive_eased {d : Dev S R X} (hq : RxQuiet d.ser) (hv : Ser.RxOk d.ser) :
    (d.receive.2 = true ∧ d.receive.1.ser.held + d.bytesToRead = d.ser.held) ∨
     (d.receive.2 = false ∧ d.ser.held < d.bytesToRead ∧ d.receive.1.ser.held = d.ser.held) := by
  unfold receive
  have e : d.serAvail = d.ser.held := hq.avail
  rw [e]
  have hq1 : RxQuiet d.askAvail.ser := hq.later (Ser.later_bytesAvailable d.ser)
  have e1 : d.askAvail.ser.held = d.ser.held := hq.held_avail
  obtain ⟨rq, hv⟩ := hv
  obtain ⟨add, hv1, _⟩ := Ser.rxRep_bytesAvailable hv
  split
  · rename_i h
    have h1 := hq1.held_readLoop (n := d.bytesToRead) ⟨_, hv1⟩ (by rw [e1]; exact h)
    exact .inl ⟨rfl, by rw [e1] at h1; exact h1⟩
  · rename_i h
    exact .inr ⟨rfl, by omega, e1⟩

/-- Sequences of primitive operations only take bytes. -/
theorem Dev.Eff.eased {x : List Byte → Byte → Prop} {d e : Dev S R X} {st : Bool} (h : Eff x st d e) (hq : RxQuiet d.ser)
    (hv : Ser.RxOk d.ser) (hl : LineOk d) : Eased d e := by
  induction h with
  | ctl h => exact .same (by rw [h.ser]) h.fill
  | cmd d s => exact .same (hq.writeStr _) rfl
  | arg d s => exact .same (hq.writeStr _) rfl
  | cmdN d s => exact .same (hq.write _) rfl
  | argN d s => exact .same (hq.write _) rfl
  | askSpace d => exact .same hq.sync rfl
  | askAvail d => exact .same hq.sync rfl
  | flushSer d =>
    have : d.flushSer.ser.held = 0 := rfl
    exact ⟨by omega, .inl this⟩
  | flushReadBuffer d _ =>
    obtain ⟨h1, _, _⟩ := hq.held_flushLoop hv d.bytesToRead
    have e : d.flushReadBuffer.ser.held = (flushLoop d.ser d.bytesToRead).1.held := rfl
    have e2 : d.flushReadBuffer.lbFill = d.lbFill := rfl
    exact ⟨by omega, .inr (by unfold Dev.load; omega)⟩
  | sendData d => exact .same (hq.writeLoop _) rfl
  | receive d _ =>
    have h2 := receive_eased hq hv
    have e : d.receive.1.lbFill = d.lbFill := by simp
    have : d.receive.1.ser.held ≤ d.ser.held := by omega
    exact ⟨this, .inr (by unfold Dev.load; omega)⟩
  | fillLine d stop hs =>
    cases hlr : d.lineRead with
    | false => rw [fillLine_off d stop hlr]; exact .refl _
    | true =>
      obtain ⟨h2, h3, h4⟩ | ⟨l, h2, h3, h4, h5, h6⟩ := fillLine_eased hq hv hl stop hs.full hlr
      · exact ⟨by omega, .inl h3⟩
      · unfold Dev.load at h5
        exact ⟨by omega, .inr (by unfold Dev.load; omega)⟩
  | trans ha hb ih1 ih2 =>
    exact (ih1 hq hv hl).trans (ih2 (hq.later ha.later) (ha.rxOk hv) (ha.lineOk hl))

end Verif
