import Verif.Lemmas.DevFrame
import Verif.Lemmas.SerCount
import Verif.Lemmas.CString
import Verif.Model.Ops

/-! Line assembly, trace and serial effects of the primitive operations of `Dev`. -/

namespace Verif

theorem take_set_self {l : List Byte} {k : Nat} (c : Byte) (h : k < l.length) :
    (l.set k c).take (k + 1) = l.take k ++ [c] := by
  rw [List.take_set, List.take_add_one, List.getElem?_eq_getElem h]
  simp only [Option.toList_some]
  rw [List.set_append_right _ _ (by simp; omega), List.length_take]
  simp [Nat.min_eq_left (Nat.le_of_lt h)]

theorem take_set_lt {l : List Byte} {k n : Nat} (c : Byte) (h : n ≤ k) :
    (l.set k c).take n = l.take n := by
  rw [List.take_set, List.set_eq_of_length_le (by simp; omega)]

namespace Mem

theorem store_length (m : Mem) (i : Nat) (c : Byte) : (m.store i c).cells.length = m.cells.length := by
  simp [store]

theorem store_oob {m : Mem} {i : Nat} (c : Byte) (h : i < m.cells.length) :
    (m.store i c).oob = m.oob := by
  simp only [store]; rw [decide_eq_false (by omega), Bool.or_false]

end Mem

namespace Dev

variable {S R X : Type}

/-- What `fillLoop` does. `t` are the bytes taken. -/
structure Filled (stop : Mem → Nat → Byte → Option R) (s : Ser) (l : Mem) (k : Nat)
    (q : Ser × Mem × Nat × Option (R × Nat)) (t : List Byte) : Prop where
  taken : q.1.taken = s.taken ++ t
  len : q.2.1.cells.length = l.cells.length
  oob : q.2.1.oob = l.oob
  part : q.2.2.2 = none → q.2.2.1 = k + t.length ∧ q.2.2.1 < lineMax ∧
    q.2.1.cells.take (k + t.length) = l.cells.take k ++ t ∧
    (∀ j c, t[j]? = some c → ∃ m, stop m (k + j + 1) c = none ∧
      m.cells.take (k + j + 1) = l.cells.take k ++ t.take (j + 1))
  full : ∀ x n, q.2.2.2 = some (x, n) → q.2.2.1 = 0 ∧ n = k + t.length ∧ 0 < t.length ∧ n ≤ lineMax ∧
    q.2.1.cells.take n = l.cells.take k ++ t ∧ q.2.1.cells[n]? = some 0 ∧
    (∃ m c, t.getLast? = some c ∧ stop m n c = some x ∧ m.cells.take n = l.cells.take k ++ t) ∧
    (∀ j c, j + 1 < t.length → t[j]? = some c → ∃ m, stop m (k + j + 1) c = none ∧
      m.cells.take (k + j + 1) = l.cells.take k ++ t.take (j + 1))

theorem fillLoop_spec (stop : Mem → Nat → Byte → Option R)
    (hstop : ∀ m c, stop m lineMax c ≠ none) (fuel : Nat) (s : Ser) (l : Mem) (k : Nat)
    (hl : l.cells.length = lineMax + 1) (hk : k < lineMax) (hf : lineMax - k ≤ fuel) :
    ∃ t, Filled stop s l k (fillLoop stop fuel s l k) t := by
  induction fuel generalizing s l k with
  | zero => omega
  | succ fuel ih =>
    unfold fillLoop
    by_cases ha : s.bytesAvailable.2 = 0
    · simp only [ha, if_true]
      refine ⟨[], ?_, rfl, rfl, ?_, ?_⟩
      · simp
      · intro _; refine ⟨rfl, hk, by simp, by simp⟩
      · intro x n h; simp at h
    · simp only [ha, if_false]
      have hs : ∀ c, (l.store k c).cells.length = lineMax + 1 := fun c => by
        rw [Mem.store_length, hl]
      have ho : ∀ c, (l.store k c).oob = l.oob := fun c => Mem.store_oob c (by omega)
      have htk : ∀ c, (l.store k c).cells.take (k + 1) = l.cells.take k ++ [c] := fun c =>
        take_set_self c (by omega)
      have htaken : s.bytesAvailable.1.read1.1.taken = s.taken ++ [s.bytesAvailable.1.read1.2] := by
        rw [Ser.taken_read1, Ser.taken_bytesAvailable]
      generalize s.bytesAvailable.1.read1 = r at htaken
      cases hst : stop (l.store k r.2) (k + 1) r.2 with
      | some x =>
        simp only
        refine ⟨[r.2], htaken, ?_, ?_, ?_, ?_⟩
        · rw [Mem.store_length, Mem.store_length]
        · rw [Mem.store_oob _ (by rw [hs]; omega), ho]
        · intro h; simp at h
        · intro x' n h
          simp only [Option.some.injEq, Prod.mk.injEq] at h
          obtain ⟨rfl, rfl⟩ := h
          refine ⟨rfl, rfl, by simp, by omega, ?_, ?_, ?_, ?_⟩
          · show ((l.store k r.2).cells.set (k + 1) 0).take (k + 1) = _
            rw [take_set_lt _ (Nat.le_refl _), htk]
          · show ((l.store k r.2).cells.set (k + 1) 0)[k + 1]? = _
            rw [List.getElem?_set_self]
            have := hs r.2
            omega
          · exact ⟨l.store k r.2, r.2, rfl, hst, htk r.2⟩
          · intro j c hj; simp at hj
      | none =>
        simp only
        have hk1 : k + 1 < lineMax := by
          rcases Nat.lt_or_ge (k + 1) lineMax with h | h
          · exact h
          · have : k + 1 = lineMax := by omega
            rw [this] at hst
            exact absurd hst (hstop _ _)
        obtain ⟨t, ht⟩ := ih r.1 (l.store k r.2) (k + 1) (hs _) hk1 (by omega)
        have hpre : ∀ j c, (r.2 :: t)[j]? = some c →
            (∀ j' c', j = j' + 1 → t[j']? = some c' → ∃ m, stop m (k + 1 + j' + 1) c' = none ∧
              m.cells.take (k + 1 + j' + 1) = (l.store k r.2).cells.take (k + 1) ++ t.take (j' + 1)) →
            ∃ m, stop m (k + j + 1) c = none ∧
              m.cells.take (k + j + 1) = l.cells.take k ++ (r.2 :: t).take (j + 1) := by
          intro j c hc hrest
          cases j with
          | zero =>
            simp only [List.getElem?_cons_zero, Option.some.injEq] at hc
            subst hc
            exact ⟨_, hst, by simpa using htk r.2⟩
          | succ j =>
            simp only [List.getElem?_cons_succ] at hc
            obtain ⟨m, hm1, hm2⟩ := hrest j c rfl hc
            refine ⟨m, ?_, ?_⟩
            · rw [show k + (j + 1) + 1 = k + 1 + j + 1 by omega]; exact hm1
            · rw [show k + (j + 1) + 1 = k + 1 + j + 1 by omega, hm2, htk]; simp
        refine ⟨r.2 :: t, ?_, ?_, ?_, ?_, ?_⟩
        · rw [ht.taken, htaken]; simp
        · rw [ht.len, Mem.store_length]
        · rw [ht.oob, ho]
        · intro h
          obtain ⟨h1, h2, h3, h4⟩ := ht.part h
          refine ⟨by rw [h1]; simp; omega, h2, ?_, ?_⟩
          · have e : k + (r.2 :: t).length = k + 1 + t.length := by simp; omega
            rw [e, h3, htk]; simp
          · intro j c hc
            exact hpre j c hc (fun j' c' _ hc' => h4 j' c' hc')
        · intro x n h
          obtain ⟨h1, h2, h3, h4, h5, h6, h7, h8⟩ := ht.full x n h
          refine ⟨h1, by rw [h2]; simp; omega, by simp, h4, ?_, h6, ?_, ?_⟩
          · rw [h5, htk]; simp
          · obtain ⟨m, c, hc, hm, ht2⟩ := h7
            refine ⟨m, c, ?_, hm, ?_⟩
            · rw [List.getLast?_cons, hc]; rfl
            · rw [ht2, htk]; simp
          · intro j c hj hc
            simp only [List.length_cons] at hj
            exact hpre j c hc (fun j' c' e hc' => h8 j' c' (by omega) hc')

/-- The line buffer is intact. -/
structure LineOk (d : Dev S R X) : Prop where
  len : d.line.cells.length = lineMax + 1
  fill : d.lbFill < lineMax
  oob : d.line.oob = false

/-- The bytes of an unfinished line. -/
def part (d : Dev S R X) : List Byte := d.line.cells.take d.lbFill

/-- A completed line is in the buffer: its text ends with a zero, and it is the last event. -/
structure LineDone (d : Dev S R X) (l : List Byte) : Prop where
  text : d.line.cells.take l.length = l
  zero : d.line.cells[l.length]? = some 0
  fill : d.lbFill = 0

/-- What `fillLine` does, when line reading is on. `t`: bytes taken. -/
theorem fillLine_spec (d : Dev S R X) (stop : Mem → Nat → Byte → Option R)
    (hstop : ∀ m c, stop m lineMax c ≠ none) (h : LineOk d) (hlr : d.lineRead = true) :
    ∃ t, (d.fillLine stop).1.ser.taken = d.ser.taken ++ t ∧ LineOk (d.fillLine stop).1 ∧
      (((d.fillLine stop).2 = false ∧ (d.fillLine stop).1.trace = d.trace ∧
          (d.fillLine stop).1.rep = d.rep ∧ part (d.fillLine stop).1 = part d ++ t ∧
          (∀ j c, t[j]? = some c → ∃ m, stop m (d.lbFill + j + 1) c = none ∧
            m.cells.take (d.lbFill + j + 1) = part d ++ t.take (j + 1))) ∨
       ((d.fillLine stop).2 = true ∧
          (d.fillLine stop).1.trace = d.trace ++ [.line (part d ++ t)] ∧
          LineDone (d.fillLine stop).1 (part d ++ t) ∧ (part d).length + t.length ≤ lineMax ∧
          (∃ m c, t.getLast? = some c ∧
            stop m (d.lbFill + t.length) c = some (d.fillLine stop).1.rep ∧
            m.cells.take (d.lbFill + t.length) = part d ++ t) ∧
          (∀ j c, j + 1 < t.length → t[j]? = some c → ∃ m, stop m (d.lbFill + j + 1) c = none ∧
            m.cells.take (d.lbFill + j + 1) = part d ++ t.take (j + 1)))) := by
  obtain ⟨t, ht⟩ := fillLoop_spec stop hstop (lineMax - d.lbFill) d.ser d.line d.lbFill h.len h.fill
    (Nat.le_refl _)
  have hplen : (part d).length = d.lbFill := by
    have := h.len; have := h.fill
    simp only [part, List.length_take]; omega
  unfold fillLine
  simp only [hlr, if_true]
  generalize fillLoop stop (lineMax - d.lbFill) d.ser d.line d.lbFill = q at ht
  obtain ⟨q1, q2, q3, q4⟩ := q
  cases q4 with
  | none =>
    simp only
    obtain ⟨h1, h2, h3, h4⟩ := ht.part rfl
    refine ⟨t, ht.taken, ⟨ht.len.trans h.len, h2, ht.oob.trans h.oob⟩, Or.inl ⟨trivial, trivial, trivial, ?_, h4⟩⟩
    simp only [part]
    simp only at h1 h3
    rw [h1, h3]
  | some xn =>
    obtain ⟨x, n⟩ := xn
    simp only
    obtain ⟨h1, h2, h3, h4, h5, h6, h7, h8⟩ := ht.full x n rfl
    simp only at h1 h5 h6
    have hn : n = (part d ++ t).length := by rw [List.length_append, hplen]; exact h2
    refine ⟨t, ht.taken, ⟨ht.len.trans h.len, ?_, ht.oob.trans h.oob⟩,
      Or.inr ⟨trivial, ?_, ⟨?_, ?_, h1⟩, ?_, ?_, h8⟩⟩
    · show q3 < lineMax; rw [h1]; decide
    · show d.trace ++ [Ev.line (q2.cells.take n)] = _
      rw [h5]; rfl
    · show q2.cells.take _ = _
      rw [← hn]; exact h5
    · show q2.cells[_]? = _
      rw [← hn]; exact h6
    · rw [hplen]; omega
    · rw [← h2]; exact h7

theorem fillLine_off (d : Dev S R X) (stop : Mem → Nat → Byte → Option R) (h : d.lineRead = false) :
    d.fillLine stop = (d, false) := by
  simp [fillLine, h]

/-- A literal found in the line buffer is a prefix of the completed line. -/
theorem LineDone.has {d : Dev S R X} {l lit : List Byte} (h : LineDone d l) (h0 : (0 : Byte) ∉ lit)
    (hp : hasPrefix d.line lit = true) : lit <+: l := by
  have := prefix_take_of_zero h0 ((hasPrefix_iff _ _ h0).mp hp) h.zero
  rw [h.text] at this
  exact this

/-! ### Traces -/

@[simp] theorem cmd_trace (d : Dev S R X) (s : List Byte) :
    (d.cmd s).trace = d.trace ++ [.cmd s (s.take (d.ser.writeStr s).2)] := rfl
@[simp] theorem arg_trace (d : Dev S R X) (s : List Byte) :
    (d.arg s).trace = d.trace ++ [.arg s (s.take (d.ser.writeStr s).2)] := rfl
@[simp] theorem cmdN_trace (d : Dev S R X) (s : List Byte) :
    (d.cmdN s).trace = d.trace ++ [.cmd s (s.take (d.ser.write s).2)] := rfl
@[simp] theorem argN_trace (d : Dev S R X) (s : List Byte) :
    (d.argN s).trace = d.trace ++ [.arg s (s.take (d.ser.write s).2)] := rfl
@[simp] theorem sendCommand_trace (d : Dev S R X) (s : List Byte) :
    (d.sendCommand s).trace = d.trace ++ [.cmd s (s.take (d.ser.writeStr s).2)] ++
      [.arg lineEnd (lineEnd.take ((d.cmd s).ser.writeStr lineEnd).2)] := rfl

@[simp] theorem flushSer_trace (d : Dev S R X) : d.flushSer.trace = d.trace ++ [.flush] := rfl
@[simp] theorem flushReadBuffer_trace (d : Dev S R X) :
    d.flushReadBuffer.trace = d.trace ++ [.drop (flushLoop d.ser d.bytesToRead).2.2] := rfl

@[simp] theorem sendData_trace (d : Dev S R X) :
    d.sendData.trace = d.trace ++ [.pay (pulls d.wbuf d.bytesToWrite).2] := rfl

@[simp] theorem log_trace (d : Dev S R X) (e : Ev) : (d.log e).trace = d.trace ++ [e] := rfl

theorem receive_true {d : Dev S R X} (h : d.receive.2 = true) :
    d.receive.1.trace = d.trace ++ [.data (d.askAvail.ser.readLoop d.bytesToRead).2] ∧
    d.receive.1.lineRead = true ∧ d.receive.1.bytesToRead = 0 ∧ d.bytesToRead ≤ d.serAvail ∧
    d.receive.1.ser = (d.askAvail.ser.readLoop d.bytesToRead).1 ∧
    d.receive.1.rbuf = (d.askAvail.ser.readLoop d.bytesToRead).2.foldl Ring.push d.rbuf := by
  unfold receive at h ⊢
  split
  · rename_i hc
    exact ⟨rfl, rfl, rfl, hc, rfl, rfl⟩
  · rename_i hc; rw [if_neg hc] at h; simp at h

theorem receive_false {d : Dev S R X} (h : d.receive.2 = false) : d.receive.1 = d.askAvail := by
  unfold receive at h ⊢
  split
  · rename_i hc; rw [if_pos hc] at h; simp at h
  · rfl

theorem prepareSending_false {d : Dev S R X} {c : Bool} (h : (d.prepareSending c).2 = false) :
    (d.prepareSending c).1 = d.askSpace := by
  unfold prepareSending at h ⊢
  split
  · rfl
  · rename_i hc; rw [if_neg hc] at h; simp at h

end Dev
end Verif
