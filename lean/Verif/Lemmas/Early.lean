import Verif.Lemmas.Chat

/-!
# Bytes that arrive early

`Ser.more s y`: the serial device `s` after the bytes `y` arrived (and fitted into the receive buffer). Everything a
driver does with the serial device, except asking for the number of bytes available, does not depend on whether `y` is
already there: writing anyway, reading as long as there are bytes in front of `y`.
-/

namespace Verif

namespace Ring

variable {α : Type} [Inhabited α]

theorem pull_push {r : Ring α} {x : α} {l : List α} (h : Rep r (x :: l)) (hl : l.length + 1 < r.size) (c : α) :
    (r.push c).pull = (r.pull.1.push c, r.pull.2) := by
  have hne : r.writeHead ≠ r.readHead := by
    rw [h.wh, h.av]
    have hr : r.readHead < r.size := by
      rcases h.rh with q | q
      · exact q
      · omega
    intro e
    have := mod_add_ne (a := r.readHead) (i := 0) (j := l.length + 1) (n := r.size) (by omega) hl (by omega)
    apply this
    rw [Nat.add_zero, Nat.mod_eq_of_lt hr]
    simpa using e.symm
  have hav : r.avail = l.length + 1 := h.av
  have e1 : r.avail < r.size := by omega
  have e3 : r.avail - 1 < r.size := by omega
  have e4 : r.avail - 1 + 1 = r.avail := by omega
  have e5 : 0 < r.avail := by omega
  simp only [push, pull, store, advance, load, inc, e1, e3, e5, if_true, Nat.zero_lt_succ, Nat.add_sub_cancel, gt_iff_lt, e4]
  refine Prod.ext ?_ ?_
  · cases r.oob <;> simp [Bool.or_comm]
  · simp [List.getD_eq_getElem?_getD, hne]

end Ring

namespace LineBuf

theorem pull_push {b : LineBuf} {x : Byte} {l : List Byte} (h : Rep b (x :: l)) (hl : l.length + 1 < b.ring.size) (c : Byte) :
    (b.push c).pull = (b.pull.1.push c, b.pull.2) := by
  have e := Ring.pull_push h.ring hl c
  simp only [push, pull, e]
  refine Prod.ext ?_ rfl
  simp only [LineBuf.mk.injEq, true_and]
  split <;> split <;> omega

theorem pull_pushLoop {b : LineBuf} {x : Byte} {l : List Byte} (h : Rep b (x :: l)) (y : List Byte)
    (hl : l.length + 1 + y.length ≤ b.ring.size) : (b.pushLoop y).pull = (b.pull.1.pushLoop y, b.pull.2) := by
  induction y generalizing b l with
  | nil => rfl
  | cons c y ih =>
    simp only [List.length_cons] at hl
    have h1 : Rep (b.push c) (x :: (l ++ [c])) := rep_push h c (by simp; omega)
    have := ih h1 (by simp only [List.length_append, List.length_cons, List.length_nil, push, Ring.size_push]; omega)
    rw [pushLoop, this, pull_push h (by omega) c]
    rfl

theorem pushLoop_append (b : LineBuf) (y z : List Byte) : b.pushLoop (y ++ z) = (b.pushLoop y).pushLoop z := by
  induction y generalizing b with
  | nil => rfl
  | cons c y ih => exact ih _

end LineBuf

namespace Ser

/-- The bytes `y` arrived and were stored. -/
def more (s : Ser) (y : List Byte) : Ser :=
  { s with rx := s.rx.pushLoop y, arrived := s.arrived ++ y, accepted := s.accepted ++ y }

variable {s : Ser} {rq : List Byte} {rx tx : Nat}

theorem more_nil (s : Ser) : s.more [] = s := by
  unfold more
  rw [List.append_nil, List.append_nil]; rfl

theorem more_append (s : Ser) (y z : List Byte) : s.more (y ++ z) = (s.more y).more z := by
  unfold more
  rw [LineBuf.pushLoop_append, List.append_assoc, List.append_assoc]

theorem sync_empty {s : Ser} (h : s.sched = []) : s.sync = s := by
  unfold sync; rw [h]; split <;> rfl

/-- No interrupts are scheduled, and `rq` is waiting in the receive buffer, of size `rx`. -/
structure Still (s : Ser) (rq : List Byte) (rx : Nat) : Prop where
  sched : s.sched = []
  q : RxRep s rq
  tb : TxBnd s
  rxs : s.rx.ring.size = rx

theorem Calm.still (h : Calm s rq rx tx) : Still s rq rx := ⟨h.sched, h.q, h.bnd, h.rxs⟩

theorem transferTx_false (h : TxBnd s) : s.transferTx false = s := by
  unfold transferTx
  split
  · have hr : ¬ s.tx.ring.cells.length ≤ s.tx.ring.readHead := by rw [h.len]; have := h.rh; omega
    have e : s.tx.ring.peek.1 = s.tx.ring := by unfold Ring.peek; simp [hr]
    show ({ s with tx := { s.tx with ring := s.tx.ring.peek.1 } } : Ser) = s
    rw [e]
  · rfl

theorem Still.more1 (h : Still s rq rx) (c : Byte) (hl : rq.length < rx) :
    s.transferRx (some c) = s.more [c] ∧ Still (s.more [c]) (rq ++ [c]) rx := by
  have hnf : s.rx.ring.isFull = false := by
    have := h.q.rx.ring.av
    have := h.rxs
    simp only [Ring.isFull, beq_eq_false_iff_ne, ne_eq]; omega
  constructor
  · simp only [transferRx, hnf, Bool.not_false, if_true]; rfl
  · exact ⟨h.sched, ⟨LineBuf.rep_push h.q.rx c (by rw [h.rxs]; omega), by
      show s.taken ++ (rq ++ [c]) = s.accepted ++ [c]
      rw [← h.q.rxs]; simp⟩, h.tb, by rw [← h.rxs]; rfl⟩

/-- Bytes that fit are stored. -/
theorem Still.arrive (h : Still s rq rx) (y : List Byte) (hl : rq.length + y.length ≤ rx) :
    s.transfers (y.map fun c => ⟨some c, false⟩) = s.more y ∧ Still (s.more y) (rq ++ y) rx := by
  induction y generalizing s rq with
  | nil => rw [more_nil, List.append_nil]; exact ⟨rfl, h⟩
  | cons c y ih =>
    simp only [List.length_cons] at hl
    obtain ⟨e, h1⟩ := h.more1 c (by omega)
    obtain ⟨k1, k2⟩ := ih h1 (by simp; omega)
    have e1 : s.transfers (List.map (fun c => (⟨some c, false⟩ : Hw)) (c :: y)) =
        ((s.transferRx (some c)).transferTx false).transfers (List.map (fun c => ⟨some c, false⟩) y) := rfl
    rw [← more_append] at k1 k2
    rw [e1, e, transferTx_false h1.tb, k1]
    rw [List.append_assoc] at k2
    exact ⟨rfl, k2⟩

theorem Calm.arrive_more (h : Calm s rq rx tx) (y : List Byte) (hl : rq.length + y.length ≤ rx) :
    s.transfers (y.map fun c => ⟨some c, false⟩) = s.more y := (h.still.arrive y hl).1

theorem Calm.more (h : Calm s rq rx tx) (y : List Byte) (hl : rq.length + y.length ≤ rx) : Calm (s.more y) (rq ++ y) rx tx := by
  rw [← h.arrive_more y hl]; exact (h.arrive y hl).1

theorem txFree_more (s : Ser) (y : List Byte) : (s.more y).txFree = s.txFree := rfl

theorem more_spaceAvailable (h : s.sched = []) (y : List Byte) :
    (s.more y).spaceAvailable = (s.spaceAvailable.1.more y, s.spaceAvailable.2) := by
  unfold spaceAvailable
  rw [sync_empty h, sync_empty (s := s.more y) h]; rfl

theorem sched_spaceAvailable (h : s.sched = []) : s.spaceAvailable.1.sched = [] := by
  unfold spaceAvailable; rw [sync_empty h]; exact h

theorem more_copyToBuffer (h : s.sched = []) (y : List Byte) (c : Byte) :
    (s.more y).copyToBuffer c = (s.copyToBuffer c).more y := by
  unfold copyToBuffer
  rw [sync_empty h, sync_empty (s := s.more y) h]; rfl

theorem sched_copyToBuffer (h : s.sched = []) (c : Byte) : (s.copyToBuffer c).sched = [] := by
  unfold copyToBuffer; rw [sync_empty h]; exact h

theorem more_writeLoop (h : s.sched = []) (y cs : List Byte) : (s.more y).writeLoop cs = (s.writeLoop cs).more y := by
  induction cs generalizing s with
  | nil => rfl
  | cons c cs ih => rw [writeLoop, writeLoop, more_copyToBuffer h, ih (sched_copyToBuffer h c)]

theorem sched_writeLoop (h : s.sched = []) (cs : List Byte) : (s.writeLoop cs).sched = [] := by
  induction cs generalizing s with
  | nil => exact h
  | cons c cs ih => exact ih (sched_copyToBuffer h c)

theorem more_write (h : s.sched = []) (y cs : List Byte) : (s.more y).write cs = ((s.write cs).1.more y, (s.write cs).2) := by
  unfold write
  rw [more_spaceAvailable h]
  dsimp only
  rw [more_writeLoop (sched_spaceAvailable h)]

theorem sched_write (h : s.sched = []) (cs : List Byte) : (s.write cs).1.sched = [] :=
  sched_writeLoop (sched_spaceAvailable h) _

theorem more_writeStrLoop (h : s.sched = []) (y : List Byte) (space n : Nat) (cs : List Byte) :
    (s.more y).writeStrLoop space n cs = ((s.writeStrLoop space n cs).1.more y, (s.writeStrLoop space n cs).2) := by
  induction cs generalizing s n with
  | nil => rfl
  | cons c cs ih =>
    rw [writeStrLoop, writeStrLoop, more_copyToBuffer h]
    split
    · exact ih (sched_copyToBuffer h c) _
    · rfl

theorem sched_writeStrLoop (h : s.sched = []) (space n : Nat) (cs : List Byte) : (s.writeStrLoop space n cs).1.sched = [] := by
  induction cs generalizing s n with
  | nil => exact h
  | cons c cs ih =>
    rw [writeStrLoop]
    split
    · exact ih (sched_copyToBuffer h c) _
    · exact h

theorem more_writeStr (h : s.sched = []) (y cs : List Byte) :
    (s.more y).writeStr cs = ((s.writeStr cs).1.more y, (s.writeStr cs).2) := by
  unfold writeStr
  rw [more_spaceAvailable h]
  dsimp only
  rw [more_writeStrLoop (sched_spaceAvailable h)]

theorem sched_writeStr (h : s.sched = []) (cs : List Byte) : (s.writeStr cs).1.sched = [] :=
  sched_writeStrLoop (sched_spaceAvailable h) _ _ _

theorem Still.bytesAvailable (h : Still s rq rx) : s.bytesAvailable.2 = rq.length ∧ Still s.bytesAvailable.1 rq rx := by
  unfold Ser.bytesAvailable
  rw [sync_empty h.sched]
  exact ⟨h.q.rx.ring.av, h.sched, ⟨h.q.rx, h.q.rxs⟩, h.tb, h.rxs⟩

theorem more_askAvail (h : s.sched = []) (y : List Byte) : (s.more y).bytesAvailable.1 = s.bytesAvailable.1.more y := by
  unfold Ser.bytesAvailable
  rw [sync_empty h, sync_empty (s := s.more y) h]; rfl

theorem Still.read1 {c : Byte} (h : Still s (c :: rq) rx) : Still s.read1.1 rq rx ∧ s.read1.2 = c := by
  obtain ⟨hp1, hp2⟩ := LineBuf.rep_pull h.q.rx
  have e : s.read1 = ({ s with rx := s.rx.pull.1, taken := s.taken ++ [s.rx.pull.2], irqOn := true }, s.rx.pull.2) := by
    unfold Ser.read1
    rw [sync_empty h.sched]; rfl
  rw [e]
  refine ⟨⟨h.sched, ⟨hp1, ?_⟩, h.tb, ?_⟩, hp2⟩
  · show s.taken ++ [s.rx.pull.2] ++ rq = s.accepted
    rw [hp2, ← h.q.rxs]; simp
  · show s.rx.pull.1.ring.size = rx
    rw [← h.rxs]; rfl

theorem Still.more_read1 {c : Byte} (h : Still s (c :: rq) rx) (y : List Byte) (hl : rq.length + 1 + y.length ≤ rx) :
    (s.more y).read1 = (s.read1.1.more y, s.read1.2) := by
  have e : (s.more y).sync = s.more y := sync_empty (s := s.more y) h.sched
  have p := LineBuf.pull_pushLoop h.q.rx y (by rw [h.rxs]; exact hl)
  unfold Ser.read1
  rw [e, sync_empty h.sched]
  show ((({ s.more y with irqOn := false, rx := (s.rx.pushLoop y).pull.1, taken := s.taken ++ [(s.rx.pushLoop y).pull.2] } : Ser)).enable,
    (s.rx.pushLoop y).pull.2) = _
  rw [p]; rfl

theorem Still.more_readLoop {l : List Byte} (h : Still s (l ++ rq) rx) (y : List Byte) (hl : l.length + rq.length + y.length ≤ rx) :
    (s.more y).readLoop l.length = ((s.readLoop l.length).1.more y, (s.readLoop l.length).2) ∧
      Still (s.readLoop l.length).1 rq rx := by
  induction l generalizing s with
  | nil => exact ⟨rfl, h⟩
  | cons c l ih =>
    simp only [List.length_cons] at hl
    have e := Still.more_read1 (rq := l ++ rq) h y (by simp only [List.length_append]; omega)
    have k := ih (Still.read1 (rq := l ++ rq) h).1 (by omega)
    refine ⟨?_, k.2⟩
    simp only [List.length_cons, readLoop, e, k.1]

end Ser

namespace Dev

variable {S R X : Type}

/-- The bytes `y` arrived and were stored. -/
def more (d : Dev S R X) (y : List Byte) : Dev S R X := { d with ser := d.ser.more y }

variable {d : Dev S R X} {rq : List Byte} {rx : Nat}

theorem more_nil (d : Dev S R X) : d.more [] = d := by unfold more; rw [Ser.more_nil]

theorem more_append (d : Dev S R X) (y z : List Byte) : d.more (y ++ z) = (d.more y).more z := by
  unfold more; rw [Ser.more_append]

theorem more_ite {c : Prop} [Decidable c] {a a' b b' : Dev S R X} {y : List Byte} (h1 : c → a' = a.more y) (h2 : ¬ c → b' = b.more y) :
    (if c then a' else b') = (if c then a else b).more y := by
  split
  · exact h1 ‹_›
  · exact h2 ‹_›

theorem more_ite2 {c : Prop} [Decidable c] {a a' b b' : Dev S R X × Bool} {y : List Byte} (h1 : c → a' = (a.1.more y, a.2))
    (h2 : ¬ c → b' = (b.1.more y, b.2)) :
    (if c then a' else b') = ((if c then a else b).1.more y, (if c then a else b).2) := by
  split
  · exact h1 ‹_›
  · exact h2 ‹_›

theorem more_cmd (h : d.ser.sched = []) (y s : List Byte) : (d.more y).cmd s = (d.cmd s).more y := by
  unfold cmd more; dsimp only; rw [Ser.more_writeStr h]

theorem sched_cmd (h : d.ser.sched = []) (s : List Byte) : (d.cmd s).ser.sched = [] := Ser.sched_writeStr h s

theorem more_arg (h : d.ser.sched = []) (y s : List Byte) : (d.more y).arg s = (d.arg s).more y := by
  unfold arg more; dsimp only; rw [Ser.more_writeStr h]

theorem sched_arg (h : d.ser.sched = []) (s : List Byte) : (d.arg s).ser.sched = [] := Ser.sched_writeStr h s

theorem more_cmdN (h : d.ser.sched = []) (y s : List Byte) : (d.more y).cmdN s = (d.cmdN s).more y := by
  unfold cmdN more; dsimp only; rw [Ser.more_write h]

theorem sched_cmdN (h : d.ser.sched = []) (s : List Byte) : (d.cmdN s).ser.sched = [] := Ser.sched_write h s

theorem more_argN (h : d.ser.sched = []) (y s : List Byte) : (d.more y).argN s = (d.argN s).more y := by
  unfold argN more; dsimp only; rw [Ser.more_write h]

theorem sched_argN (h : d.ser.sched = []) (s : List Byte) : (d.argN s).ser.sched = [] := Ser.sched_write h s

theorem more_sendCommand (h : d.ser.sched = []) (y s : List Byte) : (d.more y).sendCommand s = (d.sendCommand s).more y := by
  unfold sendCommand; rw [more_cmd h, more_arg (sched_cmd h s)]

theorem sched_sendCommand (h : d.ser.sched = []) (s : List Byte) : (d.sendCommand s).ser.sched = [] :=
  sched_arg (sched_cmd h s) _

theorem more_serSpace (h : d.ser.sched = []) (y : List Byte) : (d.more y).serSpace = d.serSpace := by
  unfold serSpace more; dsimp only; rw [Ser.more_spaceAvailable h]

theorem more_askSpace (h : d.ser.sched = []) (y : List Byte) : (d.more y).askSpace = d.askSpace.more y := by
  unfold askSpace more; dsimp only; rw [Ser.more_spaceAvailable h]

theorem sched_askSpace (h : d.ser.sched = []) : d.askSpace.ser.sched = [] := Ser.sched_spaceAvailable h

theorem more_sendData (h : d.ser.sched = []) (y : List Byte) : d.sendData.more y = (d.more y).sendData := by
  unfold sendData more; dsimp only; rw [Ser.more_writeLoop h]

/-- The second half of `prepareSending`. -/
def prepTail (d : Dev S R X) (n : Nat) (b : Bool) : Dev S R X :=
  let d5 := ({ d with bytesToWrite := n } : Dev S R X).cmd b!"AT+CIPSEND="
  let d6 := if b then d5.arg b!"0," else d5
  let d7 := d6.arg (dec5 n)
  { d7 with wait := some b!">" }

theorem more_prepTail (h : d.ser.sched = []) (y : List Byte) (n : Nat) (b : Bool) :
    (d.more y).prepTail n b = (d.prepTail n b).more y := by
  unfold prepTail
  dsimp only
  have e2 : ({ d.more y with bytesToWrite := n } : Dev S R X) = ({ d with bytesToWrite := n } : Dev S R X).more y := rfl
  have he' : ({ d with bytesToWrite := n } : Dev S R X).ser.sched = [] := h
  rw [e2]
  generalize ({ d with bytesToWrite := n } : Dev S R X) = e' at he'
  rw [more_cmd he']
  have h5 := sched_cmd he' b!"AT+CIPSEND="
  generalize e'.cmd b!"AT+CIPSEND=" = e5 at h5
  cases b
  · simp only [Bool.false_eq_true, if_false]
    rw [more_arg h5]; rfl
  · simp only [if_true]
    rw [more_arg h5, more_arg (sched_arg h5 _)]; rfl

theorem sched_prepTail (h : d.ser.sched = []) (n : Nat) (b : Bool) : (d.prepTail n b).ser.sched = [] := by
  unfold prepTail
  have he' : ({ d with bytesToWrite := n } : Dev S R X).ser.sched = [] := h
  generalize ({ d with bytesToWrite := n } : Dev S R X) = e' at he'
  have h5 := sched_cmd he' b!"AT+CIPSEND="
  generalize e'.cmd b!"AT+CIPSEND=" = e5 at h5
  cases b
  · exact sched_arg h5 _
  · exact sched_arg (sched_arg h5 _) _

theorem prepareSending_tail (d : Dev S R X) (b : Bool) :
    d.prepareSending b =
      if d.serSpace < minSpace then (d.askSpace, false)
      else (prepTail
        (if d.askSpace.wbuf.bytesAvailable > d.askSpace.serSpace - minSpace then d.askSpace.askSpace.askSpace else d.askSpace.askSpace)
        (amount d.askSpace.wbuf.bytesAvailable d.askSpace.serSpace d.askSpace.askSpace.serSpace) b, true) := rfl

theorem more_prepareSending (h : d.ser.sched = []) (y : List Byte) (b : Bool) :
    (d.more y).prepareSending b = ((d.prepareSending b).1.more y, (d.prepareSending b).2) := by
  have h1 := sched_askSpace h
  have h2 := sched_askSpace h1
  have h3 := sched_askSpace h2
  rw [prepareSending_tail, prepareSending_tail d, more_serSpace h, more_askSpace h, more_serSpace h1, more_askSpace h1,
    more_serSpace h2, more_askSpace h2]
  have e1 : (d.askSpace.more y).wbuf = d.askSpace.wbuf := rfl
  rw [e1]
  split
  · rfl
  · split
    · rw [more_prepTail h3]
    · rw [more_prepTail h2]

theorem sched_prepareSending (h : d.ser.sched = []) (b : Bool) : (d.prepareSending b).1.ser.sched = [] := by
  have h1 := sched_askSpace h
  have h2 := sched_askSpace h1
  rw [prepareSending_tail]
  split
  · exact h1
  · split
    · exact sched_prepTail (sched_askSpace h2) _ _
    · exact sched_prepTail h2 _ _

theorem more_handleDisconnect (d : Dev S R X) (y : List Byte) (next : S) :
    (d.more y).handleDisconnect next = (d.handleDisconnect next).more y := by
  unfold handleDisconnect
  show (if d.disconnectPending = true then _ else _) = _
  split <;> rfl

theorem more_handleConnect (d : Dev S R X) (y : List Byte) (next : S) :
    (d.more y).handleConnect next = (d.handleConnect next).more y := by
  unfold handleConnect
  show (if d.connectPending = true then _ else _) = _
  split <;> rfl

/-- Receiving the block does not depend on what is behind it. -/
theorem more_receive (h : Ser.Still d.ser rq rx) (y : List Byte) (hl : rq.length + y.length ≤ rx) (hr : d.bytesToRead ≤ rq.length) :
    (d.more y).receive = (d.receive.1.more y, true) ∧ d.receive.2 = true := by
  have a := h.bytesAvailable
  have b := (h.arrive y hl).2.bytesAvailable
  have c1 : d.serAvail ≥ d.bytesToRead := by unfold serAvail; rw [a.1]; exact hr
  have c2 : (d.more y).serAvail ≥ (d.more y).bytesToRead := by
    show (d.ser.more y).bytesAvailable.2 ≥ d.bytesToRead
    rw [b.1, List.length_append]; omega
  unfold receive
  rw [if_pos c1, if_pos c2]
  refine ⟨?_, rfl⟩
  have e : (d.more y).askAvail = d.askAvail.more y := by
    unfold askAvail more; dsimp only; rw [Ser.more_askAvail h.sched]
  have hl' : (rq.take d.bytesToRead).length = d.bytesToRead := List.length_take_of_le hr
  have hh : Ser.Still d.askAvail.ser (rq.take d.bytesToRead ++ rq.drop d.bytesToRead) rx := by
    rw [List.take_append_drop]; exact a.2
  have k := (hh.more_readLoop y (by rw [hl', List.length_drop]; omega)).1
  rw [hl'] at k
  dsimp only
  rw [e]
  have k' : (d.askAvail.more y).ser.readLoop (d.askAvail.more y).bytesToRead =
      ((d.askAvail.ser.readLoop d.askAvail.bytesToRead).1.more y, (d.askAvail.ser.readLoop d.askAvail.bytesToRead).2) := k
  rw [k']; rfl

/-- The block being taken, if any, is complete. -/
def Takes (d : Dev S R X) (y : List Byte) : Prop :=
  d.bytesToRead = 0 ∨ ∃ rq rx, Ser.Still d.ser rq rx ∧ rq.length + y.length ≤ rx ∧ d.bytesToRead ≤ rq.length

theorem Takes.congr {e : Dev S R X} {y : List Byte} (h : Takes d y) (hs : e.ser = d.ser) (hb : e.bytesToRead = d.bytesToRead) : Takes e y := by
  unfold Takes; rw [hs, hb]; exact h

theorem Takes.askSpace {y : List Byte} (h : Takes d y) : Takes d.askSpace y := by
  rcases h with h | ⟨rq, rx, h, h1, h2⟩
  · exact Or.inl h
  · refine Or.inr ⟨rq, rx, ?_, h1, h2⟩
    show Ser.Still d.ser.spaceAvailable.1 rq rx
    unfold Ser.spaceAvailable
    rw [Ser.sync_empty h.sched]
    exact ⟨h.sched, ⟨h.q.rx, h.q.rxs⟩, h.tb, h.rxs⟩


/-- Too few bytes: nothing is received. -/
theorem receive_few (h : Ser.Still d.ser rq rx) (hr : rq.length < d.bytesToRead) : d.receive = (d.askAvail, false) := by
  unfold receive
  rw [if_neg]
  unfold serAvail; rw [h.bytesAvailable.1]; omega

/-- Reading a line that is complete does not depend on what is behind it. -/
theorem more_fillLoop (stop : Mem → Nat → Byte → Option R) (fuel : Nat) {s : Ser} {rq : List Byte} {rx : Nat} (h : Ser.Still s rq rx)
    (y : List Byte) (hl : rq.length + y.length ≤ rx) (l : Mem) (k : Nat) (hc : (fillLoop stop fuel s l k).2.2.2 ≠ none) :
    fillLoop stop fuel (s.more y) l k =
      ((fillLoop stop fuel s l k).1.more y, (fillLoop stop fuel s l k).2) ∧
    ∃ rq', Ser.Still (fillLoop stop fuel s l k).1 rq' rx ∧ rq'.length ≤ rq.length := by
  induction fuel generalizing s rq l k with
  | zero => exact absurd rfl hc
  | succ fuel ih =>
    have a := h.bytesAvailable
    have b := (h.arrive y hl).2.bytesAvailable
    cases rq with
    | nil =>
      exfalso; apply hc
      rw [fillLoop]
      simp only [a.1, List.length_nil, if_true]
    | cons c rq =>
      simp only [List.length_cons] at hl
      have e1 : s.bytesAvailable.2 ≠ 0 := by rw [a.1]; simp
      have e2 : (s.more y).bytesAvailable.2 ≠ 0 := by rw [b.1]; simp
      have e3 := a.2.more_read1 y (by omega)
      have r := a.2.read1
      have u1 : fillLoop stop (fuel + 1) s l k =
          (match stop (l.store k s.bytesAvailable.1.read1.2) (k + 1) s.bytesAvailable.1.read1.2 with
            | some x => (s.bytesAvailable.1.read1.1, (l.store k s.bytesAvailable.1.read1.2).store (k + 1) 0, 0, some (x, k + 1))
            | none => fillLoop stop fuel s.bytesAvailable.1.read1.1 (l.store k s.bytesAvailable.1.read1.2) (k + 1)) := by
        rw [fillLoop]; simp only [if_neg e1]; rfl
      have u2 : fillLoop stop (fuel + 1) (s.more y) l k =
          (match stop (l.store k s.bytesAvailable.1.read1.2) (k + 1) s.bytesAvailable.1.read1.2 with
            | some x => (s.bytesAvailable.1.read1.1.more y, (l.store k s.bytesAvailable.1.read1.2).store (k + 1) 0, 0, some (x, k + 1))
            | none => fillLoop stop fuel (s.bytesAvailable.1.read1.1.more y) (l.store k s.bytesAvailable.1.read1.2) (k + 1)) := by
        rw [fillLoop]; simp only [if_neg e2, Ser.more_askAvail h.sched, e3]; rfl
      rw [u1] at hc ⊢
      rw [u2]
      split
      · exact ⟨rfl, rq, r.1, by simp⟩
      · rename_i hs
        rw [hs] at hc
        obtain ⟨i1, rq', i2, i3⟩ := ih r.1 (by omega) _ _ hc
        exact ⟨i1, rq', i2, by simp; omega⟩

theorem more_fillLine (stop : Mem → Nat → Byte → Option R) (h : Ser.Still d.ser rq rx) (y : List Byte) (hl : rq.length + y.length ≤ rx)
    (hc : (d.fillLine stop).2 = true) :
    (d.more y).fillLine stop = ((d.fillLine stop).1.more y, true) ∧
      ∃ rq', Ser.Still (d.fillLine stop).1.ser rq' rx ∧ rq'.length ≤ rq.length := by
  unfold fillLine at hc ⊢
  have e0 : (d.more y).lineRead = d.lineRead := rfl
  rw [e0]
  by_cases hr : d.lineRead = true
  · simp only [hr, if_true] at hc ⊢
    have hn : (fillLoop stop (lineMax - d.lbFill) d.ser d.line d.lbFill).2.2.2 ≠ none := by
      intro e; rw [e] at hc; simp at hc
    obtain ⟨k1, rq', k2, k3⟩ := more_fillLoop stop _ h y hl d.line d.lbFill hn
    have e1 : fillLoop stop (lineMax - (d.more y).lbFill) (d.more y).ser (d.more y).line (d.more y).lbFill =
      ((fillLoop stop (lineMax - d.lbFill) d.ser d.line d.lbFill).1.more y, (fillLoop stop (lineMax - d.lbFill) d.ser d.line d.lbFill).2) := k1
    rw [e1]
    generalize hq : fillLoop stop (lineMax - d.lbFill) d.ser d.line d.lbFill = q at *
    obtain ⟨q1, q2, q3, q4⟩ := q
    cases q4 with
    | none => exact absurd rfl hn
    | some x => exact ⟨rfl, rq', k2, k3⟩
  · simp only [hr] at hc
    simp at hc

end Dev

/-- Goals `f (d.more y) = (f d).more y`, for functions made of case distinctions. -/
macro "early" : tactic =>
  `(tactic| repeat' (first
      | rfl
      | (refine Dev.more_ite2 (fun _ => ?_) (fun _ => ?_))
      | (refine Dev.more_ite (fun _ => ?_) (fun _ => ?_))
      | (refine Prod.ext (Dev.more_ite (fun _ => ?_) (fun _ => ?_)) rfl)))

end Verif
