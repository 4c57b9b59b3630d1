import Verif.Lemmas.Serial

/-! Facts about `BufferedSerial` that hold in every state, whatever the buffers contain: what is
taken from it, how many bytes it accepts. -/

namespace Verif.Ser

/-! ### Bytes taken -/

@[simp] theorem taken_sync (s : Ser) : s.sync.taken = s.taken := (frame_sync s).taken

@[simp] theorem taken_transfers (s : Ser) (hs : List Hw) : (s.transfers hs).taken = s.taken :=
  (frame_transfers s hs).taken

@[simp] theorem taken_bytesAvailable (s : Ser) : s.bytesAvailable.1.taken = s.taken := taken_sync s

@[simp] theorem taken_spaceAvailable (s : Ser) : s.spaceAvailable.1.taken = s.taken := taken_sync s

theorem taken_read1 (s : Ser) : s.read1.1.taken = s.taken ++ [s.read1.2] := by
  show s.sync.taken ++ [s.sync.rx.pull.2] = _
  rw [taken_sync]; rfl

theorem taken_readLoop (s : Ser) (n : Nat) :
    (s.readLoop n).1.taken = s.taken ++ (s.readLoop n).2 := by
  induction n generalizing s with
  | zero => simp [readLoop]
  | succ n ih =>
    show (s.read1.1.readLoop n).1.taken = s.taken ++ s.read1.2 :: (s.read1.1.readLoop n).2
    rw [ih, taken_read1]; simp

theorem length_readLoop (s : Ser) (n : Nat) : (s.readLoop n).2.length = n := by
  induction n generalizing s with
  | zero => rfl
  | succ n ih =>
    show (s.read1.2 :: (s.read1.1.readLoop n).2).length = n + 1
    rw [List.length_cons, ih]

theorem taken_read (s : Ser) (n : Nat) : (s.read n).1.taken = s.taken ++ (s.read n).2 := by
  have := taken_readLoop s.bytesAvailable.1
    (if n > s.bytesAvailable.2 then s.bytesAvailable.2 else n)
  rw [taken_bytesAvailable] at this
  exact this

@[simp] theorem taken_copyToBuffer (s : Ser) (c : Byte) : (s.copyToBuffer c).taken = s.taken :=
  taken_sync s

@[simp] theorem taken_writeLoop (s : Ser) (cs : List Byte) : (s.writeLoop cs).taken = s.taken := by
  induction cs generalizing s with
  | nil => rfl
  | cons c cs ih => simp only [writeLoop, ih, taken_copyToBuffer]

@[simp] theorem taken_write (s : Ser) (cs : List Byte) : (s.write cs).1.taken = s.taken := by
  show (s.spaceAvailable.1.writeLoop _).taken = _
  rw [taken_writeLoop, taken_spaceAvailable]

@[simp] theorem taken_writeStr (s : Ser) (cs : List Byte) : (s.writeStr cs).1.taken = s.taken := by
  rw [writeStr_eq, taken_write]

@[simp] theorem taken_flush (s : Ser) : s.flushReceiveBuffers.taken = [] := rfl

/-! ### Sizes -/

@[simp] theorem rxSize_sync (s : Ser) : s.sync.rx.ring.size = s.rx.ring.size := (frame_sync s).rxSize
@[simp] theorem txSize_sync (s : Ser) : s.sync.tx.ring.size = s.tx.ring.size := (frame_sync s).txSize

@[simp] theorem txSize_spaceAvailable (s : Ser) :
    s.spaceAvailable.1.tx.ring.size = s.tx.ring.size := txSize_sync s

@[simp] theorem txSize_bytesAvailable (s : Ser) :
    s.bytesAvailable.1.tx.ring.size = s.tx.ring.size := txSize_sync s

theorem avail_push_le (b : LineBuf) (c : Byte) : (b.push c).ring.avail ≤ b.ring.avail + 1 := by
  show (if b.ring.avail < b.ring.size then b.ring.avail + 1 else b.ring.avail) ≤ _
  split <;> omega

@[simp] theorem txSize_copyToBuffer (s : Ser) (c : Byte) :
    (s.copyToBuffer c).tx.ring.size = s.tx.ring.size := txSize_sync s

@[simp] theorem txSize_writeLoop (s : Ser) (cs : List Byte) :
    (s.writeLoop cs).tx.ring.size = s.tx.ring.size := by
  induction cs generalizing s with
  | nil => rfl
  | cons c cs ih => simp only [writeLoop, ih, txSize_copyToBuffer]

@[simp] theorem txSize_write (s : Ser) (cs : List Byte) :
    (s.write cs).1.tx.ring.size = s.tx.ring.size := by
  show (s.spaceAvailable.1.writeLoop _).tx.ring.size = _
  rw [txSize_writeLoop, txSize_spaceAvailable]

@[simp] theorem txSize_writeStr (s : Ser) (cs : List Byte) :
    (s.writeStr cs).1.tx.ring.size = s.tx.ring.size := by rw [writeStr_eq, txSize_write]

/-! ### Transmit fill level: interrupts never raise it -/

theorem txAvail_transferRx (s : Ser) (c : Option Byte) : (s.transferRx c).tx = s.tx := by
  cases c with
  | none => rfl
  | some c => simp only [transferRx]; split <;> rfl

theorem txAvail_transferTx (s : Ser) (b : Bool) :
    (s.transferTx b).tx.ring.avail ≤ s.tx.ring.avail := by
  simp only [transferTx]
  split
  · split
    · show (if s.tx.ring.avail > 0 then s.tx.ring.avail - 1 else s.tx.ring.avail) ≤ _
      split <;> omega
    · exact Nat.le_refl _
  · exact Nat.le_refl _

theorem txAvail_transfer (s : Ser) (h : Hw) : (s.transfer h).tx.ring.avail ≤ s.tx.ring.avail := by
  have := txAvail_transferTx (s.transferRx h.rx) h.txOk
  rw [txAvail_transferRx] at this
  exact this

theorem txAvail_transfers (s : Ser) (hs : List Hw) :
    (s.transfers hs).tx.ring.avail ≤ s.tx.ring.avail := by
  induction hs generalizing s with
  | nil => exact Nat.le_refl _
  | cons h hs ih => exact Nat.le_trans (ih _) (txAvail_transfer s h)

theorem txAvail_sync (s : Ser) : s.sync.tx.ring.avail ≤ s.tx.ring.avail := by
  unfold sync
  split
  · split
    · exact Nat.le_refl _
    · rename_i b bs _
      exact txAvail_transfers { s with sched := bs } b
  · exact Nat.le_refl _

/-- Free space in the transmit buffer, without looking at the hardware. -/
def txFree (s : Ser) : Nat := s.tx.ring.size - s.tx.ring.avail

theorem txFree_sync (s : Ser) : s.txFree ≤ s.sync.txFree := by
  have := txAvail_sync s
  unfold txFree; rw [txSize_sync]; omega

theorem txFree_spaceAvailable (s : Ser) :
    s.spaceAvailable.2 = s.spaceAvailable.1.txFree ∧ s.txFree ≤ s.spaceAvailable.2 :=
  ⟨rfl, txFree_sync s⟩

theorem txFree_bytesAvailable (s : Ser) : s.txFree ≤ s.bytesAvailable.1.txFree := txFree_sync s

theorem txFree_copyToBuffer (s : Ser) (c : Byte) : s.txFree ≤ (s.copyToBuffer c).txFree + 1 := by
  have h1 := txFree_sync s
  have h2 := avail_push_le s.sync.tx c
  unfold txFree at *
  show _ ≤ s.sync.tx.ring.size - (s.sync.tx.push c).ring.avail + 1
  omega

theorem txFree_writeLoop (s : Ser) (cs : List Byte) :
    s.txFree ≤ (s.writeLoop cs).txFree + cs.length := by
  induction cs generalizing s with
  | nil => simp [writeLoop]
  | cons c cs ih =>
    have h1 := txFree_copyToBuffer s c
    have h2 := ih (s.copyToBuffer c)
    simp only [writeLoop, List.length_cons]; omega

theorem write_accepted (s : Ser) (cs : List Byte) :
    (s.write cs).2 ≤ cs.length ∧ min cs.length s.txFree ≤ (s.write cs).2 ∧
      s.txFree ≤ (s.write cs).1.txFree + (s.write cs).2 := by
  have h1 := (txFree_spaceAvailable s).2
  have e : (s.write cs).2 =
      (if cs.length > s.spaceAvailable.2 then s.spaceAvailable.2 else cs.length) := rfl
  have h2 := txFree_writeLoop s.spaceAvailable.1 (cs.take (s.write cs).2)
  have h3 := (txFree_spaceAvailable s).1
  have e2 : (s.write cs).1 = s.spaceAvailable.1.writeLoop (cs.take (s.write cs).2) := rfl
  rw [e2]
  simp only [List.length_take] at h2
  refine ⟨by rw [e]; split <;> omega, by rw [e]; split <;> omega, by omega⟩

/-- If there is room, everything is accepted. -/
theorem write_all (s : Ser) (cs : List Byte) (h : cs.length ≤ s.txFree) :
    (s.write cs).2 = cs.length ∧ s.txFree ≤ (s.write cs).1.txFree + cs.length := by
  have := write_accepted s cs
  have e : (s.write cs).2 = cs.length := by omega
  exact ⟨e, by omega⟩

theorem writeStr_all (s : Ser) (cs : List Byte) (h0 : (0 : Byte) ∉ cs) (h : cs.length ≤ s.txFree) :
    (s.writeStr cs).2 = cs.length ∧ s.txFree ≤ (s.writeStr cs).1.txFree + cs.length := by
  have e : cs.takeWhile (· ≠ 0) = cs := by
    have := List.takeWhile_append_of_pos (p := fun x : Byte => decide (x ≠ 0)) (l₁ := cs) (l₂ := [])
      (fun x hx => by simp only [ne_eq, decide_eq_true_eq]; intro e; exact h0 (e ▸ hx))
    simpa using this
  rw [writeStr_eq, e]
  exact write_all s cs h

theorem writeStr_le (s : Ser) (cs : List Byte) : (s.writeStr cs).2 ≤ cs.length := by
  rw [writeStr_eq]
  have h1 := (write_accepted s (cs.takeWhile (· ≠ 0))).1
  have h2 := List.IsPrefix.length_le (List.takeWhile_prefix (l := cs) (fun x : Byte => decide (x ≠ 0)))
  omega

/-! ### Receive side only -/

/-- The receive buffer holds the queue `rq`, and what was taken plus the queue is what was accepted
since the last flush. -/
structure RxRep (s : Ser) (rq : List Byte) : Prop where
  rx : LineBuf.Rep s.rx rq
  rxs : s.taken ++ rq = s.accepted

theorem rxRep_init (rmem wmem : List Byte) (sched : List (List Hw)) :
    RxRep (init rmem wmem sched) [] := ⟨LineBuf.rep_init _, rfl⟩

theorem rxRep_transferRx {s : Ser} {rq : List Byte} (h : RxRep s rq) (c : Option Byte) :
    ∃ add, RxRep (s.transferRx c) (rq ++ add) := by
  cases c with
  | none => exact ⟨[], by simpa [transferRx] using h⟩
  | some c =>
    by_cases hf : s.rx.ring.isFull = true
    · refine ⟨[], ?_⟩
      simp only [transferRx, hf, Bool.not_true, Bool.false_eq_true, if_false, List.append_nil]
      exact ⟨h.rx, h.rxs⟩
    · refine ⟨[c], ?_⟩
      simp only [Bool.not_eq_true] at hf
      simp only [transferRx, hf, Bool.not_false, if_true]
      have hlt : rq.length < s.rx.ring.size := by
        have := h.rx.ring.av
        have := h.rx.ring.le
        simp only [Ring.isFull, beq_eq_false_iff_ne, ne_eq] at hf
        omega
      refine ⟨LineBuf.rep_push h.rx c hlt, ?_⟩
      show s.taken ++ (rq ++ [c]) = s.accepted ++ [c]
      rw [← h.rxs]; simp

theorem rxRep_transferTx {s : Ser} {rq : List Byte} (h : RxRep s rq) (b : Bool) :
    RxRep (s.transferTx b) rq := by
  simp only [transferTx]
  split
  · split <;> exact ⟨h.rx, h.rxs⟩
  · exact h

theorem rxRep_transfers {s : Ser} {rq : List Byte} (h : RxRep s rq) (hs : List Hw) :
    ∃ add, RxRep (s.transfers hs) (rq ++ add) := by
  induction hs generalizing s rq with
  | nil => exact ⟨[], by simpa [transfers] using h⟩
  | cons hw hs ih =>
    obtain ⟨a1, h1⟩ := rxRep_transferRx h hw.rx
    obtain ⟨a2, h2⟩ := ih (rxRep_transferTx h1 hw.txOk)
    exact ⟨a1 ++ a2, by rw [← List.append_assoc]; exact h2⟩

theorem rxRep_sync {s : Ser} {rq : List Byte} (h : RxRep s rq) : ∃ add, RxRep s.sync (rq ++ add) := by
  unfold sync
  split
  · split
    · exact ⟨[], by simpa using h⟩
    · rename_i b bs _
      exact rxRep_transfers (s := { s with sched := bs }) ⟨h.rx, h.rxs⟩ b
  · exact ⟨[], by simpa using h⟩

theorem rxRep_bytesAvailable {s : Ser} {rq : List Byte} (h : RxRep s rq) :
    ∃ add, RxRep s.bytesAvailable.1 (rq ++ add) ∧ s.bytesAvailable.2 = (rq ++ add).length := by
  obtain ⟨a, h1⟩ := rxRep_sync h
  exact ⟨a, ⟨h1.rx, h1.rxs⟩, h1.rx.ring.bytesAvailable⟩

theorem rxRep_spaceAvailable {s : Ser} {rq : List Byte} (h : RxRep s rq) :
    ∃ add, RxRep s.spaceAvailable.1 (rq ++ add) := by
  obtain ⟨a, h1⟩ := rxRep_sync h
  exact ⟨a, ⟨h1.rx, h1.rxs⟩⟩

theorem rxRep_read1 {s : Ser} {c : Byte} {rq : List Byte} (h : RxRep s (c :: rq)) :
    ∃ add, RxRep s.read1.1 (rq ++ add) ∧ s.read1.2 = c := by
  obtain ⟨a, h1⟩ := rxRep_sync h
  have hp := LineBuf.rep_pull h1.rx
  refine ⟨a, ⟨hp.1, ?_⟩, hp.2⟩
  show s.read1.1.taken ++ (rq ++ a) = s.sync.accepted
  rw [taken_read1]
  have := h1.rxs
  rw [taken_sync] at this
  rw [← this]
  have e : s.read1.2 = c := hp.2
  rw [e]; simp

theorem rxRep_readLoop (n : Nat) {s : Ser} {rq : List Byte} (h : RxRep s rq) (hn : n ≤ rq.length) :
    ∃ add, RxRep (s.readLoop n).1 (rq.drop n ++ add) ∧ (s.readLoop n).2 = rq.take n := by
  induction n generalizing s rq with
  | zero => exact ⟨[], by simpa [readLoop] using h, rfl⟩
  | succ n ih =>
    cases rq with
    | nil => simp at hn
    | cons c rq =>
      simp only [List.length_cons] at hn
      obtain ⟨a1, h1, e1⟩ := rxRep_read1 h
      obtain ⟨a2, h2, e2⟩ := ih h1 (by simp; omega)
      refine ⟨a1 ++ a2, ?_, ?_⟩
      · show RxRep (s.read1.1.readLoop n).1 _
        rw [List.drop_append_of_le_length (by omega)] at h2
        simpa using h2
      · show s.read1.2 :: (s.read1.1.readLoop n).2 = _
        rw [e1, e2, List.take_append_of_le_length (by omega)]; rfl

theorem rxRep_read {s : Ser} {rq : List Byte} (h : RxRep s rq) (n : Nat) :
    ∃ rq', RxRep (s.read n).1 rq' := by
  obtain ⟨a, h1, e⟩ := rxRep_bytesAvailable h
  obtain ⟨a2, h2, _⟩ := rxRep_readLoop (if n > s.bytesAvailable.2 then s.bytesAvailable.2 else n) h1
    (by rw [e]; split <;> omega)
  exact ⟨_, h2⟩

theorem rxRep_copyToBuffer {s : Ser} {rq : List Byte} (h : RxRep s rq) (c : Byte) :
    ∃ add, RxRep (s.copyToBuffer c) (rq ++ add) := by
  obtain ⟨a, h1⟩ := rxRep_sync h
  exact ⟨a, ⟨h1.rx, h1.rxs⟩⟩

theorem rxRep_writeLoop {s : Ser} {rq : List Byte} (h : RxRep s rq) (cs : List Byte) :
    ∃ add, RxRep (s.writeLoop cs) (rq ++ add) := by
  induction cs generalizing s rq with
  | nil => exact ⟨[], by simpa [writeLoop] using h⟩
  | cons c cs ih =>
    obtain ⟨a1, h1⟩ := rxRep_copyToBuffer h c
    obtain ⟨a2, h2⟩ := ih h1
    exact ⟨a1 ++ a2, by simpa [writeLoop] using h2⟩

theorem rxRep_write {s : Ser} {rq : List Byte} (h : RxRep s rq) (cs : List Byte) :
    ∃ add, RxRep (s.write cs).1 (rq ++ add) := by
  obtain ⟨a1, h1⟩ := rxRep_spaceAvailable h
  obtain ⟨a2, h2⟩ := rxRep_writeLoop h1
    (cs.take (if cs.length > s.spaceAvailable.2 then s.spaceAvailable.2 else cs.length))
  exact ⟨a1 ++ a2, by rw [← List.append_assoc]; exact h2⟩

theorem rxRep_writeStr {s : Ser} {rq : List Byte} (h : RxRep s rq) (cs : List Byte) :
    ∃ add, RxRep (s.writeStr cs).1 (rq ++ add) := by
  rw [writeStr_eq]; exact rxRep_write h _

theorem rxRep_flush {s : Ser} {rq : List Byte} (h : RxRep s rq) : RxRep s.flushReceiveBuffers [] := by
  obtain ⟨a, h1⟩ := rxRep_sync h
  exact ⟨LineBuf.rep_flush h1.rx.ring.len h1.rx.ring.ok, rfl⟩

/-- The receive side is in order. -/
def RxOk (s : Ser) : Prop := ∃ rq, RxRep s rq

/-! ### Transmit side: bounds -/

/-- Fill level and heads are in range. -/
def TxBnd (s : Ser) : Prop := Ring.Bnd s.tx.ring

theorem txBnd_transfers {s : Ser} (h : TxBnd s) (hs : List Hw) : TxBnd (s.transfers hs) := by
  induction hs generalizing s with
  | nil => exact h
  | cons hw hs ih =>
    apply ih
    unfold TxBnd transfer
    have h1 : Ring.Bnd (s.transferRx hw.rx).tx.ring := by rw [txAvail_transferRx]; exact h
    simp only [transferTx]
    split
    · split
      · exact Ring.bnd_pull (Ring.bnd_peek h1)
      · exact Ring.bnd_peek h1
    · exact h1

theorem txBnd_sync {s : Ser} (h : TxBnd s) : TxBnd s.sync := by
  unfold sync
  split
  · split
    · exact h
    · rename_i b bs _
      exact txBnd_transfers (s := { s with sched := bs }) h b
  · exact h

theorem txBnd_copyToBuffer {s : Ser} (h : TxBnd s) (c : Byte) : TxBnd (s.copyToBuffer c) :=
  LineBuf.bnd_push (txBnd_sync h) c

theorem txBnd_writeLoop {s : Ser} (h : TxBnd s) (cs : List Byte) : TxBnd (s.writeLoop cs) := by
  induction cs generalizing s with
  | nil => exact h
  | cons c cs ih => exact ih (txBnd_copyToBuffer h c)

end Verif.Ser
