import Verif.Spec.Chat
import Verif.Lemmas.Whole
import Verif.Lemmas.Stages
import Verif.Lemmas.Language

/-! Drivers in a dialogue with a modem: nothing happens but what the modem says. -/

namespace Verif

open Spec

namespace Ser

/-- No interrupts during calls; `rq` is in the receive buffer. -/
structure Calm (s : Ser) (rq : List Byte) (rx tx : Nat) : Prop where
  sched : s.sched = []
  irq : s.irqOn = true
  q : RxRep s rq
  out : ∃ tq, LineBuf.Rep s.tx tq ∧ s.wire ++ tq = s.sent
  pos : 0 < tx
  rxs : s.rx.ring.size = rx
  txs : s.tx.ring.size = tx

variable {s : Ser} {rq : List Byte} {rx tx : Nat}

theorem Calm.bnd (h : Calm s rq rx tx) : TxBnd s := by
  obtain ⟨tq, h1, _⟩ := h.out
  exact h1.ring.bnd (by rw [h.txs]; exact h.pos)

theorem Calm.txFree (h : Calm s rq rx tx) {tq : List Byte} (h1 : LineBuf.Rep s.tx tq) : s.txFree = tx - tq.length := by
  unfold Ser.txFree
  rw [h.txs, h1.ring.av]

theorem Calm.sync (h : Calm s rq rx tx) : s.sync = s := by
  unfold Ser.sync; simp [h.sched]

theorem Calm.noop (h : Calm s rq rx tx) : s.sync.disable.enable = s := by
  rw [h.sync]
  have := h.irq
  cases s; simp only at this; subst this; rfl

theorem Calm.spaceAvailable (h : Calm s rq rx tx) : s.spaceAvailable = (s, s.txFree) :=
  Prod.ext h.noop (by show s.sync.txFree = _; rw [h.sync])

theorem Calm.bytesAvailable (h : Calm s rq rx tx) : s.bytesAvailable = (s, rq.length) :=
  Prod.ext h.noop (by
    show s.sync.rx.ring.bytesAvailable = _
    rw [h.sync]; exact h.q.rx.ring.bytesAvailable)

theorem Calm.read1 {c : Byte} (h : Calm s (c :: rq) rx tx) :
    Calm s.read1.1 rq rx tx ∧ s.read1.2 = c ∧ s.read1.1.tx = s.tx := by
  obtain ⟨hp1, hp2⟩ := LineBuf.rep_pull h.q.rx
  have e : s.read1 = ({ s with rx := s.rx.pull.1, taken := s.taken ++ [s.rx.pull.2] }, s.rx.pull.2) := by
    show ({ s.sync.disable with rx := s.sync.rx.pull.1, taken := s.sync.taken ++ [s.sync.rx.pull.2] }.enable, _) = _
    rw [h.sync]
    have := h.irq
    cases s; simp only at this; subst this; rfl
  rw [e]
  refine ⟨⟨h.sched, h.irq, ⟨hp1, ?_⟩, h.out, h.pos, ?_, h.txs⟩, hp2, rfl⟩
  · show s.taken ++ [s.rx.pull.2] ++ rq = s.accepted
    rw [hp2, ← h.q.rxs]; simp
  · show s.rx.pull.1.ring.size = rx
    rw [← h.rxs]; rfl

theorem Calm.readLoop {l : List Byte} (h : Calm s (l ++ rq) rx tx) :
    Calm (s.readLoop l.length).1 rq rx tx ∧ (s.readLoop l.length).2 = l ∧ (s.readLoop l.length).1.tx = s.tx ∧
      (s.readLoop l.length).1.sent = s.sent := by
  induction l generalizing s with
  | nil => exact ⟨h, rfl, rfl, rfl⟩
  | cons c l ih =>
    obtain ⟨h1, h2, h3⟩ := Calm.read1 (c := c) (rq := l ++ rq) h
    have h4 : s.read1.1.sent = s.sent := by
      show s.sync.sent = s.sent
      rw [h.sync]
    obtain ⟨a, b, c1, d⟩ := ih h1
    refine ⟨a, ?_, c1.trans h3, d.trans h4⟩
    show s.read1.2 :: (s.read1.1.readLoop l.length).2 = _
    rw [h2, b]

theorem Calm.copyToBuffer (h : Calm s rq rx tx) (c : Byte) (hf : 1 ≤ s.txFree) :
    Calm (s.copyToBuffer c) rq rx tx ∧ (s.copyToBuffer c).sent = s.sent ++ [c] ∧ (s.copyToBuffer c).txFree = s.txFree - 1 := by
  have e : s.copyToBuffer c = { s with tx := s.tx.push c, sent := s.sent ++ [c] } := by
    show { s.sync.disable with tx := s.sync.tx.push c, sent := s.sync.sent ++ [c] }.enable = _
    rw [h.sync]
    have := h.irq
    cases s; simp only at this; subst this; rfl
  obtain ⟨tq, h1, h2⟩ := h.out
  have h3 := h.txFree h1
  have h4 := LineBuf.rep_push h1 c (by rw [h.txs]; omega)
  rw [e]
  refine ⟨⟨h.sched, h.irq, ⟨h.q.rx, h.q.rxs⟩, ⟨tq ++ [c], h4, ?_⟩, h.pos, h.rxs, by rw [← h.txs]; rfl⟩, rfl, ?_⟩
  · show s.wire ++ (tq ++ [c]) = s.sent ++ [c]
    rw [← h2]; simp
  · unfold Ser.txFree
    show s.tx.ring.size - (s.tx.push c).ring.avail = _
    rw [h4.ring.av, h1.ring.av]; simp; omega

theorem Calm.writeLoop (h : Calm s rq rx tx) (cs : List Byte) (hf : cs.length ≤ s.txFree) :
    Calm (s.writeLoop cs) rq rx tx ∧ (s.writeLoop cs).sent = s.sent ++ cs ∧ (s.writeLoop cs).txFree = s.txFree - cs.length := by
  induction cs generalizing s with
  | nil => exact ⟨h, by simp [Ser.writeLoop], rfl⟩
  | cons c cs ih =>
    simp only [List.length_cons] at hf
    obtain ⟨h1, h2, h3⟩ := h.copyToBuffer c (by omega)
    obtain ⟨h4, h5, h6⟩ := ih h1 (by omega)
    refine ⟨h4, ?_, ?_⟩
    · show ((s.copyToBuffer c).writeLoop cs).sent = _
      rw [h5, h2]; simp
    · show ((s.copyToBuffer c).writeLoop cs).txFree = _
      rw [h6, h3, List.length_cons]; omega

theorem Calm.write (h : Calm s rq rx tx) (cs : List Byte) :
    Calm (s.write cs).1 rq rx tx ∧ (cs.length ≤ s.txFree → (s.write cs).1.sent = s.sent ++ cs) := by
  unfold Ser.write
  rw [h.spaceAvailable]
  dsimp only
  generalize hn : (if cs.length > s.txFree then s.txFree else cs.length) = n
  have h1 : n ≤ s.txFree ∧ (cs.length ≤ s.txFree → n = cs.length) := by
    subst hn
    split <;> exact ⟨by omega, fun _ => by omega⟩
  obtain ⟨h2, h3, _⟩ := h.writeLoop (cs.take n) (by rw [List.length_take]; omega)
  refine ⟨h2, fun x => ?_⟩
  rw [h3, h1.2 x, List.take_length]

theorem Calm.writeStr (h : Calm s rq rx tx) (cs : List Byte) :
    Calm (s.writeStr cs).1 rq rx tx ∧ ((0 : Byte) ∉ cs → cs.length ≤ s.txFree → (s.writeStr cs).1.sent = s.sent ++ cs) := by
  rw [writeStr_eq]
  refine ⟨(h.write _).1, fun h0 hl => ?_⟩
  have e : cs.takeWhile (fun c : Byte => decide (c ≠ 0)) = cs := by
    clear h
    induction cs with
    | nil => rfl
    | cons c cs ih =>
      simp only [List.mem_cons, not_or] at h0
      rw [List.takeWhile_cons_of_pos (by simpa using fun x => h0.1 x.symm), ih h0.2 (by simp at hl; omega)]
  rw [e]
  exact (h.write cs).2 hl

/-- The hardware delivers bytes. -/
theorem Calm.arrive (h : Calm s rq rx tx) (l : List Byte) (hl : rq.length + l.length ≤ rx) :
    Calm (s.transfers (l.map fun c => ⟨some c, false⟩)) (rq ++ l) rx tx ∧
    (s.transfers (l.map fun c => ⟨some c, false⟩)).txFree = s.txFree ∧
    (s.transfers (l.map fun c => ⟨some c, false⟩)).sent = s.sent := by
  induction l generalizing s rq with
  | nil => rw [List.append_nil]; exact ⟨h, rfl, rfl⟩
  | cons c l ih =>
    simp only [List.length_cons] at hl
    have hnf : s.rx.ring.isFull = false := by
      have := h.q.rx.ring.av
      have := h.rxs
      simp only [Ring.isFull, beq_eq_false_iff_ne, ne_eq]; omega
    have hlt : rq.length < s.rx.ring.size := by rw [h.rxs]; omega
    have h1 : Calm (s.transferRx (some c)) (rq ++ [c]) rx tx := by
      simp only [transferRx, hnf, Bool.not_false, if_true]
      refine ⟨h.sched, h.irq, ⟨LineBuf.rep_push h.q.rx c hlt, ?_⟩, h.out, h.pos, ?_, h.txs⟩
      · show s.taken ++ (rq ++ [c]) = s.accepted ++ [c]
        rw [← h.q.rxs]; simp
      · rw [← h.rxs]; rfl
    have f1 : (s.transferRx (some c)).txFree = s.txFree := by
      unfold Ser.txFree; rw [txAvail_transferRx]
    have g1 : (s.transferRx (some c)).sent = s.sent := (frame_transferRx s _).sent
    have h2 : Calm ((s.transferRx (some c)).transferTx false) (rq ++ [c]) rx tx ∧
        ((s.transferRx (some c)).transferTx false).txFree = s.txFree ∧
        ((s.transferRx (some c)).transferTx false).sent = s.sent := by
      generalize s.transferRx (some c) = s1 at h1 f1 g1
      obtain ⟨tq, k1, k2⟩ := h1.out
      obtain ⟨m1, m2, m3⟩ := rep_transferTx (s := s1) (rq := rq ++ [c]) (tq := tq) ⟨h1.q.rx, k1, h1.q.rxs, k2⟩ false
      simp only [Bool.false_eq_true, if_false] at m1
      have fr := frame_transferTx s1 false
      have hc : Calm (s1.transferTx false) (rq ++ [c]) rx tx :=
        ⟨(sched_transferTx _ _).trans h1.sched, fr.irq.trans h1.irq, ⟨m1.rx, m1.rxs⟩, ⟨tq, m1.tx, m1.txs⟩, h1.pos, fr.rxSize.trans h1.rxs,
          fr.txSize.trans h1.txs⟩
      exact ⟨hc, by rw [hc.txFree m1.tx, ← h1.txFree k1]; exact f1, fr.sent.trans g1⟩
    have h3 := ih h2.1 (by simp; omega)
    rw [List.append_assoc] at h3
    exact ⟨h3.1, h3.2.1.trans h2.2.1, h3.2.2.trans h2.2.2⟩

/-- The hardware takes bytes. -/
theorem Calm.drain1 (h : Calm s rq rx tx) :
    Calm (s.transfer ⟨none, true⟩) rq rx tx ∧ (s.transfer ⟨none, true⟩).sent = s.sent ∧
    (s.transfer ⟨none, true⟩).tx.ring.avail = s.tx.ring.avail - 1 := by
  unfold transfer
  show Calm (s.transferTx true) rq rx tx ∧ (s.transferTx true).sent = s.sent ∧ (s.transferTx true).tx.ring.avail = _
  obtain ⟨tq, k1, k2⟩ := h.out
  obtain ⟨m1, m2, m3⟩ := rep_transferTx (s := s) (rq := rq) (tq := tq) ⟨h.q.rx, k1, h.q.rxs, k2⟩ true
  simp only [if_true] at m1
  have fr := frame_transferTx s true
  refine ⟨⟨(sched_transferTx _ _).trans h.sched, fr.irq.trans h.irq, ⟨m1.rx, m1.rxs⟩, ⟨_, m1.tx, m1.txs⟩, h.pos, fr.rxSize.trans h.rxs,
    fr.txSize.trans h.txs⟩, fr.sent, ?_⟩
  rw [m1.tx.ring.av, k1.ring.av, List.length_tail]

theorem Calm.drain (h : Calm s rq rx tx) (n : Nat) :
    Calm (s.transfers (List.replicate n ⟨none, true⟩)) rq rx tx ∧ (s.transfers (List.replicate n ⟨none, true⟩)).sent = s.sent ∧
    (s.transfers (List.replicate n ⟨none, true⟩)).tx.ring.avail = s.tx.ring.avail - n := by
  induction n generalizing s with
  | zero => exact ⟨h, rfl, rfl⟩
  | succ n ih =>
    have h1 := h.drain1
    have h2 := ih h1.1
    have : (s.transfers (List.replicate (n + 1) ⟨none, true⟩)) =
      (s.transfer ⟨none, true⟩).transfers (List.replicate n ⟨none, true⟩) := rfl
    refine ⟨h2.1, by rw [this, h2.2.1, h1.2.1], ?_⟩
    rw [this, h2.2.2, h1.2.2]; omega

end Ser

namespace Dev

variable {S R X : Type}

/-- The rest of a text with the last byte `z` is read, and nothing behind it. -/
theorem fillLoop_text (stop : Mem → Nat → Byte → Option R) (r : R) (fuel : Nat) {s : Ser} {t : List Byte} {z : Byte} {y : List Byte} {rx tx : Nat}
    (h : Ser.Calm s (t ++ z :: y) rx tx) (m : Mem) (k : Nat) (hm : m.cells.length = lineMax + 1)
    (hf : t.length + 1 ≤ fuel) (hk : k + t.length + 1 ≤ lineMax)
    (hs : ∀ m' a c b, t = a ++ c :: b → m'.cells.take (k + a.length + 1) = m.cells.take k ++ a ++ [c] → stop m' (k + a.length + 1) c = none)
    (hn : ∀ m', m'.cells.take (k + t.length + 1) = m.cells.take k ++ t ++ [z] → stop m' (k + t.length + 1) z = some r) :
    ∃ s' m', fillLoop stop fuel s m k = (s', m', 0, some (r, k + t.length + 1)) ∧ Ser.Calm s' y rx tx ∧
      s'.tx = s.tx ∧ m'.cells.length = lineMax + 1 ∧ m'.oob = m.oob ∧
      m'.cells.take (k + t.length + 1) = m.cells.take k ++ t ++ [z] ∧ m'.cells[k + t.length + 1]? = some 0 := by
  induction t generalizing s m k fuel with
  | nil =>
    cases fuel with
    | zero => simp at hf
    | succ fuel =>
      simp only [List.length_nil] at hk
      have e1 : (m.store k z).cells.take (k + 1) = m.cells.take k ++ [z] := by
        show ((m.cells.set k z).take (k + 1)) = _
        rw [take_set_self _ (by omega)]
      have e2 := hn (m.store k z) (by simpa using e1)
      simp only [List.length_nil, Nat.add_zero] at e2
      unfold fillLoop
      rw [h.bytesAvailable]
      obtain ⟨h1, h2, h3⟩ := Ser.Calm.read1 (c := z) (rq := y) h
      simp only [List.nil_append, List.length_cons, Nat.add_eq_zero_iff, Nat.one_ne_zero, and_false, if_false, h2, e2]
      refine ⟨_, _, rfl, h1, h3, ?_, ?_, ?_, ?_⟩
      · rw [Mem.store_length, Mem.store_length, hm]
      · rw [Mem.store_oob _ (by rw [Mem.store_length]; omega), Mem.store_oob _ (by omega)]
      · show (((m.store k z).cells.set (k + 1) 0).take (k + 1)) = _
        rw [take_set_lt _ (Nat.le_refl _), e1]; simp
      · show (((m.cells.set k z).set (k + 1) 0)[k + 1]?) = _
        rw [List.getElem?_set_self (by simp; omega)]
  | cons c t ih =>
    cases fuel with
    | zero => simp at hf
    | succ fuel =>
      simp only [List.length_cons] at hf hk
      have e1 : (m.store k c).cells.take (k + 1) = m.cells.take k ++ [c] := take_set_self _ (by omega)
      have e2 := hs (m.store k c) [] c t rfl (by simpa using e1)
      simp only [List.length_nil, Nat.add_zero] at e2
      unfold fillLoop
      rw [h.bytesAvailable]
      obtain ⟨h1, h2, h3⟩ := Ser.Calm.read1 (c := c) (rq := t ++ z :: y) h
      simp only [List.cons_append, List.length_cons, Nat.add_eq_zero_iff, Nat.one_ne_zero, and_false, if_false, h2, e2]
      obtain ⟨s', m', e, h4, h5, h6, h7, h8, h9⟩ := ih fuel h1 (m.store k c) (k + 1) (by rw [Mem.store_length, hm])
        (by omega) (by omega)
        (fun m' a x b hab hm' => by
          have := hs m' (c :: a) x b (by rw [hab]; rfl) (by
            rw [List.length_cons, show k + (a.length + 1) + 1 = k + 1 + a.length + 1 by omega, hm', e1]; simp)
          rwa [List.length_cons, show k + (a.length + 1) + 1 = k + 1 + a.length + 1 by omega] at this)
        (fun m' hm' => by
          have := hn m' (by
            rw [List.length_cons, show k + (t.length + 1) + 1 = k + 1 + t.length + 1 by omega, hm', e1]; simp)
          rwa [List.length_cons, show k + (t.length + 1) + 1 = k + 1 + t.length + 1 by omega] at this)
      rw [show k + 1 + t.length + 1 = k + (t.length + 1) + 1 by omega] at e h8 h9
      refine ⟨s', m', e, h4, h5.trans h3, h6, by rw [h7, Mem.store_oob _ (by omega)], ?_, h9⟩
      rw [h8, e1]
      simp

/-- Bytes that do not complete a text are stored. -/
theorem fillLoop_more (stop : Mem → Nat → Byte → Option R) (fuel : Nat) {s : Ser} {t : List Byte} {rx tx : Nat}
    (h : Ser.Calm s t rx tx) (m : Mem) (k : Nat) (hm : m.cells.length = lineMax + 1)
    (hf : t.length < fuel) (hk : k + t.length ≤ lineMax)
    (hs : ∀ m' a c b, t = a ++ c :: b → m'.cells.take (k + a.length + 1) = m.cells.take k ++ a ++ [c] → stop m' (k + a.length + 1) c = none) :
    ∃ s' m', fillLoop stop fuel s m k = (s', m', k + t.length, none) ∧ Ser.Calm s' [] rx tx ∧
      s'.tx = s.tx ∧ m'.cells.length = lineMax + 1 ∧ m'.oob = m.oob ∧ m'.cells.take (k + t.length) = m.cells.take k ++ t := by
  induction t generalizing s m k fuel with
  | nil =>
    cases fuel with
    | zero => simp at hf
    | succ fuel =>
      unfold fillLoop
      rw [h.bytesAvailable]
      exact ⟨s, m, rfl, h, rfl, hm, rfl, by simp⟩
  | cons c t ih =>
    cases fuel with
    | zero => simp at hf
    | succ fuel =>
      simp only [List.length_cons] at hf hk
      have e1 : (m.store k c).cells.take (k + 1) = m.cells.take k ++ [c] := take_set_self _ (by omega)
      have e2 := hs (m.store k c) [] c t rfl (by simpa using e1)
      simp only [List.length_nil, Nat.add_zero] at e2
      unfold fillLoop
      rw [h.bytesAvailable]
      obtain ⟨h1, h2, h3⟩ := Ser.Calm.read1 (c := c) (rq := t) h
      simp only [List.length_cons, Nat.add_eq_zero_iff, Nat.one_ne_zero, and_false, if_false, h2, e2]
      obtain ⟨s', m', e, h4, h5, h6, h7, h8⟩ := ih fuel h1 (m.store k c) (k + 1) (by rw [Mem.store_length, hm])
        (by omega) (by omega)
        (fun m' a x b hab hm' => by
          have := hs m' (c :: a) x b (by rw [hab]; rfl) (by
            rw [List.length_cons, show k + (a.length + 1) + 1 = k + 1 + a.length + 1 by omega, hm', e1]; simp)
          rwa [List.length_cons, show k + (a.length + 1) + 1 = k + 1 + a.length + 1 by omega] at this)
      rw [show k + 1 + t.length = k + (t.length + 1) by omega] at e h8
      refine ⟨s', m', e, h4, h5.trans h3, h6, by rw [h7, Mem.store_oob _ (by omega)], ?_⟩
      rw [h8, e1]
      simp

/-- A driver in a dialogue. Nothing is requested, nothing is to be sent; of the next line of the modem the part `u` has
been read. -/
structure Calm (d : Dev S R X) (u : List Byte) (rx tx : Nat) : Prop where
  isOpen : d.isOpen = true
  lock : d.serialLocked = false
  reset : d.resetPending = false
  lineRead : d.lineRead = true
  line : LineOk d
  fill : d.lbFill = u.length ∧ d.line.cells.take u.length = u
  ser : Ser.Calm d.ser [] rx tx

variable {d : Dev S R X} {u : List Byte} {rx tx : Nat}

theorem Calm.askSpace (h : Calm d u rx tx) : d.askSpace = d := by
  unfold Dev.askSpace; rw [h.ser.spaceAvailable]

theorem Calm.serSpace (h : Calm d u rx tx) : d.serSpace = d.ser.txFree := by
  unfold Dev.serSpace; rw [h.ser.spaceAvailable]

/-- Without input from the modem nothing is read. -/
theorem Calm.fillLine (h : Calm d u rx tx) (stop : Mem → Nat → Byte → Option R) : d.fillLine stop = (d, false) := by
  unfold Dev.fillLine
  rw [if_pos h.lineRead]
  have e : ∀ fuel, fillLoop stop fuel d.ser d.line d.lbFill = (d.ser, d.line, d.lbFill, none) := by
    intro fuel
    cases fuel with
    | zero => rfl
    | succ fuel =>
      unfold fillLoop
      rw [h.ser.bytesAvailable]; rfl
  rw [e]

/-- The state after a piece of a line of the modem has arrived. -/
abbrev hearing (d : Dev S R X) (n : Nat) (l : List Byte) : Dev S R X :=
  { d with ser := (d.ser.transfers (List.replicate n ⟨none, true⟩)).transfers (l.map fun c => ⟨some c, false⟩) }

theorem Calm.arrived (h : Calm d u rx tx) {n : Nat} {v : List Byte} (hn : tx ≤ n) (hr : v.length ≤ rx) :
    Ser.Calm (hearing d n v).ser v rx tx ∧ (hearing d n v).ser.txFree = tx := by
  have h1 := h.ser.drain n
  have h2 := h1.1.arrive v (by simpa using hr)
  refine ⟨h2.1, ?_⟩
  rw [h2.2.1]
  unfold Ser.txFree
  rw [h1.1.txs, h1.2.2]
  have := h.ser.bnd.av
  have := h.ser.txs
  omega

/-- The rest `v` of a text with the last byte `z`. -/
theorem Calm.heardText (h : Calm d u rx tx) {n : Nat} {v t : List Byte} {z : Byte} (hn : tx ≤ n) (hv : u ++ v = t ++ [z])
    (hv0 : v ≠ []) (hlen : t.length + 1 ≤ 60)
    (hr : 60 ≤ rx) (stop : Mem → Nat → Byte → Option R) {r : R}
    (hs : ∀ m a c b, t = a ++ c :: b → m.cells.take (a.length + 1) = a ++ [c] → stop m (a.length + 1) c = none)
    (hnl : ∀ m, m.cells.take (t.length + 1) = t ++ [z] → stop m (t.length + 1) z = some r) :
    ∃ s m, (hearing d n v).fillLine stop = (d.gotLine s m r (t ++ [z]), true) ∧ Calm (d.gotLine s m r (t ++ [z])) [] rx tx ∧
      LineDone (d.gotLine s m r (t ++ [z])) (t ++ [z]) ∧ s.txFree = tx := by
  obtain ⟨w, rfl⟩ : ∃ w, v = w ++ [z] := by
    refine ⟨v.dropLast, ?_⟩
    have h1 := List.dropLast_concat_getLast hv0
    have h2 : (u ++ v).getLast (by simp [hv0]) = z := by simp [hv]
    rw [List.getLast_append_of_ne_nil _ hv0] at h2
    rw [h2] at h1; exact h1.symm
  rw [← List.append_assoc] at hv
  have hu : u ++ w = t := List.append_cancel_right hv
  subst hu
  rw [List.length_append] at hlen
  obtain ⟨h1, h2⟩ := h.arrived (v := w ++ [z]) hn (by simp; omega)
  have hlm : lineMax = 60 := rfl
  have hf := h.fill.1
  have ha := h.fill.2
  obtain ⟨s, m, e, h3, h4, h5, h6, h7, h8⟩ := fillLoop_text stop r (lineMax - d.lbFill) h1 d.line d.lbFill h.line.len
    (by omega) (by omega)
    (by
      rw [hf, ha]; intro m' a c b hab hm
      have := hs m' (u ++ a) c b (by rw [hab, List.append_assoc]) (by rw [List.length_append]; exact hm)
      rwa [List.length_append] at this)
    (by
      rw [hf, ha]; intro m' hm
      have := hnl m' (by rw [List.length_append]; exact hm)
      rwa [List.length_append] at this)
  rw [hf] at h7 h8
  rw [ha] at h7
  have e2 : (hearing d n (w ++ [z])).fillLine stop = (d.gotLine s m r (u ++ w ++ [z]), true) := by
    unfold Dev.fillLine
    rw [if_pos h.lineRead]
    rw [e]
    dsimp only
    rw [hf, h7]
  have hlen2 : (u ++ w ++ [z]).length = u.length + w.length + 1 := by simp; omega
  refine ⟨s, m, e2, ⟨h.isOpen, h.lock, h.reset, h.lineRead, ⟨h5, (show 0 < lineMax by decide), h6.trans h.line.oob⟩, ⟨rfl, rfl⟩, h3⟩,
    ⟨by rw [hlen2]; exact h7, by rw [hlen2]; exact h8, rfl⟩, ?_⟩
  unfold Ser.txFree at h2 ⊢
  rw [h4]; exact h2

/-- The state after a piece of a line was stored. -/
abbrev gotPart (d : Dev S R X) (s : Ser) (m : Mem) (k : Nat) : Dev S R X := { d with ser := s, line := m, lbFill := k }

/-- A piece `v` of a text that does not complete it. -/
theorem Calm.heardMore (h : Calm d u rx tx) {n : Nat} {v : List Byte} (hn : tx ≤ n) (hlen : (u ++ v).length < 60)
    (hr : 60 ≤ rx) (stop : Mem → Nat → Byte → Option R)
    (hs : ∀ m a c b, u ++ v = a ++ c :: b → m.cells.take (a.length + 1) = a ++ [c] → stop m (a.length + 1) c = none) :
    ∃ s m k, (hearing d n v).fillLine stop = (d.gotPart s m k, false) ∧ Calm (d.gotPart s m k) (u ++ v) rx tx ∧ s.txFree = tx := by
  rw [List.length_append] at hlen
  obtain ⟨h1, h2⟩ := h.arrived (v := v) hn (by omega)
  have hlm : lineMax = 60 := rfl
  have hf := h.fill.1
  have ha := h.fill.2
  obtain ⟨s, m, e, h3, h4, h5, h6, h7⟩ := fillLoop_more stop (lineMax - d.lbFill) h1 d.line d.lbFill h.line.len
    (by omega) (by omega)
    (by
      rw [hf, ha]; intro m' a c b hab hm
      have := hs m' (u ++ a) c b (by rw [hab, List.append_assoc]) (by rw [List.length_append]; exact hm)
      rwa [List.length_append] at this)
  rw [hf] at h7
  rw [ha] at h7
  refine ⟨s, m, d.lbFill + v.length, ?_, ⟨h.isOpen, h.lock, h.reset, h.lineRead, ⟨h5, by show d.lbFill + v.length < lineMax; omega, h6.trans h.line.oob⟩,
    ⟨by show d.lbFill + v.length = _; rw [List.length_append, hf], by rw [List.length_append]; exact h7⟩, h3⟩, ?_⟩
  · unfold Dev.fillLine
    rw [if_pos h.lineRead]
    rw [e]
  · unfold Ser.txFree at h2 ⊢
    rw [h4]; exact h2

theorem LineDone.has_true {l lit : List Byte} (h : LineDone d l) (h0 : (0 : Byte) ∉ lit) (hp : lit <+: l) :
    d.has lit = true := by rw [h.has_iff h0]; exact List.isPrefixOf_iff_prefix.mpr hp

theorem LineDone.has_false {l lit : List Byte} (h : LineDone d l) (h0 : (0 : Byte) ∉ lit) (hp : ¬ lit <+: l) :
    d.has lit = false := by
  cases e : d.has lit with
  | false => rfl
  | true => rw [h.has_iff h0] at e; exact absurd (List.isPrefixOf_iff_prefix.mp e) hp

theorem LineDone.waitMatches_iff {l w : List Byte} (h : LineDone d l) (h0 : (0 : Byte) ∉ w) (hw : d.wait = some w) :
    d.waitMatches = true ↔ w <+: l := by
  unfold Dev.waitMatches
  rw [hw]
  show d.has w = true ↔ _
  rw [h.has_iff h0]
  exact List.isPrefixOf_iff_prefix

/-- One command with the text `txt` was written between `d` and a state with trace `tr` and serial device `s`. -/
def Wrote (rx tx : Nat) (d : Dev S R X) (txt : List Byte) (tr : List Ev) (s : Ser) : Prop :=
  Ser.Calm s [] rx tx ∧ ∃ w g rest, tr = d.trace ++ .cmd w g :: rest ∧ rest.all isArg = true ∧ txt = w ++ args rest ∧
    (txt.length ≤ d.ser.txFree → Whole (.cmd w g :: rest) ∧ d.ser.txFree ≤ s.txFree + txt.length)

theorem args_append (a b : List Ev) : args (a ++ b) = args a ++ args b := by
  induction a with
  | nil => rfl
  | cons e a ih => cases e <;> simp [args, ih]

theorem Wrote.cmd (h : Ser.Calm d.ser [] rx tx) (s : List Byte) (h0 : (0 : Byte) ∉ s) :
    Wrote rx tx d s (d.cmd s).trace (d.cmd s).ser := by
  refine ⟨(h.writeStr s).1, s, s.take (d.ser.writeStr s).2, [], rfl, rfl, by simp [args], fun hl => ?_⟩
  have h1 := Ser.writeStr_all d.ser s h0 hl
  refine ⟨?_, h1.2⟩
  rw [h1.1, List.take_length]
  intro w g x; simp at x; simp [x]

theorem Wrote.cmdN (h : Ser.Calm d.ser [] rx tx) (s : List Byte) :
    Wrote rx tx d s (d.cmdN s).trace (d.cmdN s).ser := by
  refine ⟨(h.write s).1, s, s.take (d.ser.write s).2, [], rfl, rfl, by simp [args], fun hl => ?_⟩
  have h1 := Ser.write_all d.ser s hl
  refine ⟨?_, h1.2⟩
  rw [h1.1, List.take_length]
  intro w g x; simp at x; simp [x]

theorem Wrote.arg {e : Dev S R X} {t : List Byte} (h : Wrote rx tx d t e.trace e.ser) (s : List Byte)
    (h0 : (0 : Byte) ∉ s) : Wrote rx tx d (t ++ s) (e.arg s).trace (e.arg s).ser := by
  obtain ⟨hc, w, g, rest, ht, hr, rfl, hw⟩ := h
  refine ⟨(hc.writeStr s).1, w, g, rest ++ [.arg s (s.take (e.ser.writeStr s).2)], ?_, ?_, ?_, fun hl => ?_⟩
  · rw [arg_trace, ht]; simp
  · simp [hr, isArg]
  · rw [args_append]; simp [args]
  · rw [List.length_append] at hl
    have g1 := hw (by omega)
    have h1 := Ser.writeStr_all e.ser s h0 (by omega)
    have h2 : (e.arg s).ser.txFree = (e.ser.writeStr s).1.txFree := rfl
    refine ⟨?_, by rw [h2, List.length_append]; omega⟩
    rw [h1.1, List.take_length, ← List.cons_append]
    refine whole_append.mpr ⟨g1.1, ?_⟩
    intro w g x; simp at x; simp [x]

theorem Wrote.argN {e : Dev S R X} {t : List Byte} (h : Wrote rx tx d t e.trace e.ser) (s : List Byte) :
    Wrote rx tx d (t ++ s) (e.argN s).trace (e.argN s).ser := by
  obtain ⟨hc, w, g, rest, ht, hr, rfl, hw⟩ := h
  refine ⟨(hc.write s).1, w, g, rest ++ [.arg s (s.take (e.ser.write s).2)], ?_, ?_, ?_, fun hl => ?_⟩
  · rw [argN_trace, ht]; simp
  · simp [hr, isArg]
  · rw [args_append]; simp [args]
  · rw [List.length_append] at hl
    have g1 := hw (by omega)
    have h1 := Ser.write_all e.ser s (by omega)
    have h2 : (e.argN s).ser.txFree = (e.ser.write s).1.txFree := rfl
    refine ⟨?_, by rw [h2, List.length_append]; omega⟩
    rw [h1.1, List.take_length, ← List.cons_append]
    refine whole_append.mpr ⟨g1.1, ?_⟩
    intro w g x; simp at x; simp [x]

theorem Wrote.command (h : Ser.Calm d.ser [] rx tx) (s : List Byte) (h0 : (0 : Byte) ∉ s) :
    Wrote rx tx d (s ++ b!"\r\n") (d.sendCommand s).trace (d.sendCommand s).ser :=
  (Wrote.cmd h s h0).arg lineEnd (by decide)

/-- Since `t0` the commands and blocks of payload `T` were said, the commands whole; the application has handed over `W`
and got `G`. -/
def Told (t0 : List Ev) (T : List (List Byte)) (W G : List Byte) (tr : List Ev) : Prop :=
  ∃ new, tr = t0 ++ new ∧ utter new = T ∧ Whole new ∧ accepted new = W ∧ handed new = G

theorem utter_append {a b : List Ev} (h : (b.headD .flush |> isArg) = false) : utter (a ++ b) = utter a ++ utter b := by
  have hm : ∀ a : List Ev, more (a ++ b) = more a := by
    intro a
    induction a with
    | nil =>
      cases b with
      | nil => rfl
      | cons x l => cases x <;> first | rfl | simp [isArg] at h
    | cons x l ih => cases x <;> simp [more, ih]
  induction a with
  | nil => rfl
  | cons x l ih => cases x <;> simp [utter, ih, hm]

theorem accepted_append (a b : List Ev) : accepted (a ++ b) = accepted a ++ accepted b := by
  induction a with
  | nil => rfl
  | cons x l ih => cases x <;> simp [accepted, ih]

theorem handed_append (a b : List Ev) : handed (a ++ b) = handed a ++ handed b := by
  induction a with
  | nil => rfl
  | cons x l ih => cases x <;> simp [handed, ih]

theorem utter_args {rest : List Ev} (h : rest.all isArg = true) :
    more rest = args rest ∧ utter rest = [] ∧ accepted rest = [] ∧ handed rest = [] := by
  induction rest with
  | nil => exact ⟨rfl, rfl, rfl, rfl⟩
  | cons x l ih =>
    simp only [List.all_cons, Bool.and_eq_true] at h
    obtain ⟨a, b, c, d⟩ := ih h.2
    cases x <;> first | (simp [isArg] at h; done) | (simp [more, args, utter, accepted, handed, a, b, c, d])

section
variable {t0 : List Ev} {T : List (List Byte)} {W G : List Byte} {tr : List Ev}

/-- An event that is not part of a command. -/
theorem Told.event (h : Told t0 T W G tr) (x : Ev) (h1 : ∀ w g, x ≠ .cmd w g) (h2 : isArg x = false) :
    Told t0 (T ++ utter [x]) (W ++ accepted [x]) (G ++ handed [x]) (tr ++ [x]) := by
  obtain ⟨new, e, h3, h4, h5, h6⟩ := h
  refine ⟨new ++ [x], by rw [e, List.append_assoc], ?_, whole_append.mpr ⟨h4, ?_⟩, ?_, ?_⟩
  · rw [utter_append (by simpa using h2), h3]
  · intro w g y
    cases x <;> simp [isArg] at *
  · rw [accepted_append, h5]
  · rw [handed_append, h6]

theorem Told.line (h : Told t0 T W G tr) (l : List Byte) : Told t0 T W G (tr ++ [.line l]) := by
  have := h.event (.line l) (by simp) rfl
  simpa [utter, accepted, handed] using this

theorem Told.quiet (h : Told t0 T W G tr) (x : Ev)
    (h1 : (Spec.sent x).isSome = false) (h4 : isArg x = false) (h2 : accepted [x] = []) (h3 : handed [x] = []) :
    Told t0 T W G (tr ++ [x]) := by
  have := h.event x (by intro w g e; subst e; simp [Spec.sent] at h1) h4
  rw [h2, h3, List.append_nil, List.append_nil, show utter [x] = [] by cases x <;> simp [utter, Spec.sent] at *, List.append_nil] at this
  exact this

theorem Told.wrote {txt : List Byte} {s : Ser} (h : Told t0 T W G d.trace)
    (hw : Wrote rx tx d txt tr s) (hl : txt.length ≤ d.ser.txFree) : Told t0 (T ++ [txt]) W G tr := by
  obtain ⟨new, h1, h2, h3, h5, h6⟩ := h
  obtain ⟨_, w, g, rest, ht, hr, rfl, hw⟩ := hw
  have hm := utter_args hr
  refine ⟨new ++ .cmd w g :: rest, by rw [ht, h1, List.append_assoc], ?_, whole_append.mpr ⟨h3, (hw hl).1⟩, ?_, ?_⟩
  · rw [utter_append rfl, h2]
    simp only [utter, hm.1, hm.2]
  · rw [accepted_append, h5]; simp [accepted, hm]
  · rw [handed_append, h6]; simp [handed, hm]

end

/-- The settings of a connection and the sizes of the serial buffers. -/
structure Conf where
  rx : Nat
  tx : Nat
  host : Option (List Byte)
  port : Nat
  typ : ConnType
  /-- Sizes of the write and the read buffer. -/
  wcap : Nat
  rcap : Nat
  /-- Contents of the write and the read buffer. -/
  wq : List Byte
  rq : List Byte
  /-- Data was announced. -/
  data : Bool
  /-- Number of bytes the modem has. -/
  rcv : Nat
  /-- Number of bytes of the current block that are still to be read. -/
  rd : Nat
  /-- Number of bytes to be sent next. -/
  bw : Nat
  /-- What the application has handed over and what it got. -/
  took : List Byte
  gave : List Byte
  /-- The part of the next line of the modem that has been read. -/
  part : List Byte

/-- Nothing is to be sent or received. -/
def Conf.Idle (c : Conf) : Prop := c.wq = [] ∧ c.data = false ∧ c.rcv = 0

/-- The settings after the constructor. -/
abbrev Conf.start (rx tx wcap rcap : Nat) (typ : ConnType) : Conf :=
  ⟨rx, tx, none, 0, typ, wcap, rcap, [], [], false, 0, 0, 0, [], [], []⟩

/-- The settings for a server. -/
abbrev Conf.to (c : Conf) (r : Peer) : Conf := { c with host := some r.host, port := r.port.toNat, typ := r.typ }

/-- The part `u` of the next line has been read. -/
abbrev Conf.mid (c : Conf) (u : List Byte) : Conf := { c with part := u }

theorem Conf.mid_nil {c : Conf} (h : c.part = []) : c.mid [] = c := by
  cases c; simp only at h; subst h; rfl

/-- The state of a dialogue. -/
structure St (S R : Type) where
  snd : S
  rep : R
  wait : Option (List Byte)
  cs : ConnState
  disc : Bool
  conn : Bool
  /-- The signal strength is asked for. -/
  ask : Bool

def st (d : Dev S R X) : St S R :=
  ⟨d.snd, d.rep, d.wait, d.cs, d.disconnectPending, d.connectPending, decide (d.rssi = int16Max)⟩

/-- A driver in a dialogue: the commands `T` were said since `t0`. -/
structure Talk (c : Conf) (E : X → Prop) (t0 : List Ev) (T : List (List Byte)) (q : St S R) (d : Dev S R X) : Prop where
  calm : Calm d c.part c.rx c.tx
  told : Told t0 T c.took c.gave d.trace
  st : d.st = q
  host : d.host = c.host
  port : d.port = c.port
  typ : d.typ = c.typ
  data : d.dataPending = c.data
  wbuf : Ring.Rep d.wbuf c.wq
  wcap : d.wbuf.size = c.wcap
  rbuf : Ring.Rep d.rbuf c.rq
  rcap : d.rbuf.size = c.rcap
  rcv : d.bytesToReceive = c.rcv
  rd : d.bytesToRead = c.rd
  bw : d.bytesToWrite = c.bw
  ext : E d.ext

variable {c : Conf} {E : X → Prop} {t0 : List Ev} {T : List (List Byte)} {q : St S R}

theorem Talk.snd (h : Talk c E t0 T q d) : d.snd = q.snd := congrArg St.snd h.st
theorem Talk.rep (h : Talk c E t0 T q d) : d.rep = q.rep := congrArg St.rep h.st
theorem Talk.wait (h : Talk c E t0 T q d) : d.wait = q.wait := congrArg St.wait h.st
theorem Talk.cs (h : Talk c E t0 T q d) : d.cs = q.cs := congrArg St.cs h.st
theorem Talk.disc (h : Talk c E t0 T q d) : d.disconnectPending = q.disc := congrArg St.disc h.st
theorem Talk.wempty (h : Talk c E t0 T q d) (hc : c.Idle) : d.wbuf.bytesAvailable = 0 := by
  unfold Ring.bytesAvailable; rw [h.wbuf.av, hc.1]; rfl
theorem Talk.quiet (h : Talk c E t0 T q d) (hc : c.Idle) : d.dataPending = false := h.data.trans hc.2.1
theorem Talk.conn (h : Talk c E t0 T q d) : d.connectPending = q.conn := congrArg St.conn h.st
theorem Talk.ask (h : Talk c E t0 T q d) : (d.rssi = int16Max) = (q.ask = true) := by
  rw [← show decide (d.rssi = int16Max) = q.ask from congrArg St.ask h.st, decide_eq_true_eq]

/-- Everything but the members that change in a dialogue. -/
def Frame (d e : Dev S R X) : Prop :=
  e = { d with
    ser := e.ser, trace := e.trace, snd := e.snd, rep := e.rep, wait := e.wait, cs := e.cs, delay := e.delay
    ipConnected := e.ipConnected, lineRead := e.lineRead, disconnectPending := e.disconnectPending
    connectPending := e.connectPending }

theorem Talk.set (h : Talk c E t0 T q d) (e : Dev S R X) (hf : Frame d e) (h1 : e.ser = d.ser)
    (h2 : e.trace = d.trace) (h3 : e.lineRead = true) : Talk c E t0 T e.st e := by
  obtain ⟨⟨a1, a2, a3, a4, a5, a6, a7⟩, b1, b2, b3, b4, b5, b6, b7, b8, b9, b10, b11, b12, b13, b14⟩ := h
  unfold Frame at hf
  rw [h1, h2, h3] at hf
  rw [hf]
  exact ⟨⟨a1, a2, a3, rfl, ⟨a5.len, a5.fill, a5.oob⟩, a6, a7⟩, b1, rfl, b3, b4, b5, b6, b7, b8, b9, b10, b11, b12, b13, b14⟩

theorem Talk.send (h : Talk c E t0 T q d) (e : Dev S R X) (hf : Frame d e) (h3 : e.lineRead = true)
    {txt : List Byte} (hw : Wrote c.rx c.tx d txt e.trace e.ser) (hl : txt.length ≤ d.ser.txFree) :
    Talk c E t0 (T ++ [txt]) e.st e := by
  have ht := h.told.wrote hw hl
  have hc := hw.1
  obtain ⟨⟨a1, a2, a3, a4, a5, a6, a7⟩, b1, b2, b3, b4, b5, b6, b7, b8, b9, b10, b11, b12, b13, b14⟩ := h
  unfold Frame at hf
  generalize e.ser = s' at *
  generalize e.trace = t' at *
  rw [h3] at hf
  rw [hf]
  exact ⟨⟨a1, a2, a3, rfl, ⟨a5.len, a5.fill, a5.oob⟩, a6, hc⟩, ht, rfl, b3, b4, b5, b6, b7, b8, b9, b10, b11, b12, b13, b14⟩

theorem Talk.at {q' : St S R} (h : Talk c E t0 T q d) (e : q = q') : Talk c E t0 T q' d := e ▸ h

theorem Talk.ext_mono {E' : X → Prop} (h : Talk c E t0 T q d) (e : ∀ x, E x → E' x) : Talk c E' t0 T q d :=
  ⟨h.calm, h.told, h.st, h.host, h.port, h.typ, h.data, h.wbuf, h.wcap, h.rbuf, h.rcap, h.rcv, h.rd, h.bw, e _ h.ext⟩

theorem Talk.setAt (h : Talk c E t0 T q d) (e : Dev S R X) (hf : Frame d e) (h1 : e.ser = d.ser)
    (h2 : e.trace = d.trace) (h3 : e.lineRead = true) {q' : St S R} (hq : e.st = q') : Talk c E t0 T q' e :=
  (h.set e hf h1 h2 h3).at hq

theorem Talk.sendAt (h : Talk c E t0 T q d) (e : Dev S R X) (hf : Frame d e) (h3 : e.lineRead = true) {txt : List Byte}
    (hw : Wrote c.rx c.tx d txt e.trace e.ser) (hl : txt.length ≤ d.ser.txFree) {q' : St S R} (hq : e.st = q') :
    Talk c E t0 (T ++ [txt]) q' e := (h.send e hf h3 hw hl).at hq

/-- `simp` call that computes the state of a dialogue. -/
macro "st_simp" h:ident : tactic =>
  `(tactic| simp [Dev.st, Dev.sendCommand, Dev.cmd, Dev.cmdN, Dev.arg, Dev.argN, Dev.log, okStr, ($h).snd, ($h).rep, ($h).cs, ($h).disc,
    ($h).conn, ($h).wait, ($h).ask])

/-- The state after a command. -/
macro "said" h:ident hx:ident w:term : tactic =>
  `(tactic| (
    refine Talk.sendAt $h _ ?_ ?_ ?_ ?_ ?_
    · rfl
    · first | rfl | exact ($h).calm.lineRead
    · exact $w
    · exact $hx
    · st_simp $h))

/-- The state after assignments. -/
macro "moved" h:ident : tactic =>
  `(tactic| (
    refine Talk.setAt $h _ ?_ ?_ ?_ ?_ ?_
    · rfl
    · rfl
    · rfl
    · first | rfl | exact ($h).calm.lineRead
    · st_simp $h))

/-- The rest `v` of a text of the modem with the last byte `z`; the reply state changes to `r`. Whether the text is
complete may depend on what was read. -/
theorem Talk.heardText (h : Talk c E t0 T q d) {n : Nat} {v t : List Byte} {z : Byte} (hn : c.tx ≤ n) (hv : c.part ++ v = t ++ [z])
    (hv0 : v ≠ []) (hlen : t.length + 1 ≤ 60) (hr : 60 ≤ c.rx) (stop : Mem → Nat → Byte → Option R) {r : R}
    (hs : ∀ m a x b, t = a ++ x :: b → m.cells.take (a.length + 1) = a ++ [x] → stop m (a.length + 1) x = none)
    (hnl : ∀ m, m.cells.take (t.length + 1) = t ++ [z] → stop m (t.length + 1) z = some r) :
    ∃ g, (hearing d n v).fillLine stop = (g, true) ∧ Talk (c.mid []) E t0 T { q with rep := r } g ∧ LineDone g (t ++ [z]) ∧
      g.ser.txFree = c.tx ∧ g.ipConnected = d.ipConnected ∧ g.ext = d.ext := by
  obtain ⟨s', m, e, h1, h2, h3⟩ := h.calm.heardText hn hv hv0 hlen hr stop hs hnl
  refine ⟨_, e, ⟨h1, h.told.line _, ?_, h.host, h.port, h.typ, h.data, h.wbuf, h.wcap, h.rbuf, h.rcap, h.rcv, h.rd, h.bw, h.ext⟩, h2, h3, rfl, rfl⟩
  show (⟨d.snd, r, d.wait, d.cs, d.disconnectPending, d.connectPending, decide (d.rssi = int16Max)⟩ : St S R) = _
  simp [h.snd, h.wait, h.cs, h.disc, h.conn, h.ask]

/-- A text whose end depends on the last byte only. -/
theorem Talk.heardEnd (h : Talk c E t0 T q d) {n : Nat} {v t : List Byte} {z : Byte} (hn : c.tx ≤ n) (hv : c.part ++ v = t ++ [z])
    (hv0 : v ≠ []) (hlen : t.length + 1 ≤ 60) (hr : 60 ≤ c.rx) (stop : Mem → Nat → Byte → Option R) {r : R}
    (hs : ∀ m k x, x ∈ t → k < lineMax → stop m k x = none) (hnl : ∀ m k, stop m k z = some r) :
    ∃ g, (hearing d n v).fillLine stop = (g, true) ∧ Talk (c.mid []) E t0 T { q with rep := r } g ∧ LineDone g (t ++ [z]) ∧
      g.ser.txFree = c.tx ∧ g.ipConnected = d.ipConnected ∧ g.ext = d.ext :=
  h.heardText hn hv hv0 hlen hr stop (fun m a x b hab _ => hs m _ x (by rw [hab]; simp) (by
    have : lineMax = 60 := rfl
    rw [hab] at hlen; simp at hlen; omega)) fun m _ => hnl m _

/-- The rest of a line of the modem. -/
theorem Talk.heard {u : List Byte} (h : Talk (c.mid u) E t0 T q d) {n : Nat} {v : List Byte} (hn : c.tx ≤ n) (hl : IsLine (u ++ v))
    (hv0 : v ≠ []) (hr : 60 ≤ c.rx) (stop : Mem → Nat → Byte → Option R)
    (hs : ∀ m k x, x ∈ u ++ v → x ≠ nl → x ≠ gt → k < lineMax → stop m k x = none)
    (hnl : ∀ m k, stop m k nl = some d.rep) :
    ∃ g, (hearing d n v).fillLine stop = (g, true) ∧ Talk (c.mid []) E t0 T q g ∧ LineDone g (u ++ v) ∧ g.ser.txFree = c.tx ∧
      g.ipConnected = d.ipConnected := by
  obtain ⟨t, ht, ht1, ht2, ht3⟩ := hl.text
  have hlen := hl.len
  rw [ht, List.length_append, List.length_singleton] at hlen
  obtain ⟨g, e, h1, h2, h3, h4, _⟩ := h.heardEnd hn ht hv0 hlen hr stop
    (fun m k x hx hk => hs m k x (by rw [ht]; exact List.mem_append_left _ hx) (fun y => ht1 (y ▸ hx)) (fun y => ht2 (y ▸ hx)) hk) hnl
  rw [h.rep] at h1
  exact ⟨g, e, h1, ht ▸ h2, h3, h4⟩

/-- A piece of a text that does not complete it. -/
theorem Talk.heardMore (h : Talk c E t0 T q d) {n : Nat} {v : List Byte} (hn : c.tx ≤ n) (hlen : (c.part ++ v).length < 60)
    (hr : 60 ≤ c.rx) (stop : Mem → Nat → Byte → Option R)
    (hs : ∀ m a x b, c.part ++ v = a ++ x :: b → m.cells.take (a.length + 1) = a ++ [x] → stop m (a.length + 1) x = none) :
    ∃ g, (hearing d n v).fillLine stop = (g, false) ∧ Talk (c.mid (c.part ++ v)) E t0 T q g ∧
      g.ser.txFree = c.tx ∧ g.ipConnected = d.ipConnected ∧ g.ext = d.ext := by
  obtain ⟨s', m, k, e, h1, h3⟩ := h.calm.heardMore hn hlen hr stop hs
  exact ⟨_, e, ⟨h1, h.told, h.st, h.host, h.port, h.typ, h.data, h.wbuf, h.wcap, h.rbuf, h.rcap, h.rcv, h.rd, h.bw, h.ext⟩, h3, rfl, rfl⟩

/-- A piece of a line that does not complete it. -/
theorem Talk.more {u : List Byte} (h : Talk (c.mid u) E t0 T q d) {n : Nat} {v w : List Byte} (hn : c.tx ≤ n) (hl : IsLine (u ++ v ++ w))
    (hw : w ≠ []) (hr : 60 ≤ c.rx) (stop : Mem → Nat → Byte → Option R)
    (hs : ∀ m k x, x ∈ u ++ v → x ≠ nl → x ≠ gt → k < lineMax → stop m k x = none) :
    ∃ g, (hearing d n v).fillLine stop = (g, false) ∧ Talk (c.mid (u ++ v)) E t0 T q g ∧ g.ser.txFree = c.tx ∧
      g.ipConnected = d.ipConnected := by
  obtain ⟨t, ht, ht1, ht2, ht3⟩ := hl.text
  have hlen := hl.len
  have hw1 := List.length_pos_iff.mpr hw
  have hsub : ∀ x ∈ u ++ v, x ∈ t := by
    have h1 := List.dropLast_concat_getLast hw
    have h2 : u ++ v ++ w.dropLast ++ [w.getLast hw] = t ++ [nl] := by rw [List.append_assoc, h1, ht]
    have h3 := List.append_inj_left' h2 rfl
    intro x hx
    rw [← h3]; exact List.mem_append_left _ hx
  have hlm : lineMax = 60 := rfl
  rw [List.length_append] at hlen
  obtain ⟨g, e, h1, h3, h4, _⟩ := h.heardMore (v := v) hn (by show (u ++ v).length < 60; omega) hr stop
    (fun m a x b hab _ => by
      have hx : x ∈ u ++ v := by
        have hab : u ++ v = a ++ x :: b := hab
        rw [hab]; simp
      have hk : (u ++ v).length = (a ++ x :: b).length := congrArg List.length hab
      exact hs m _ x hx (fun y => ht1 (y ▸ hsub x hx)) (fun y => ht2 (y ▸ hsub x hx)) (by
        rw [List.length_append (bs := x :: b), List.length_cons] at hk; omega))
  exact ⟨g, e, h1, h3, h4⟩

/-- A ghost event that is not part of a command. -/
theorem Talk.log (h : Talk c E t0 T q d) (x : Ev) (h1 : (Spec.sent x).isSome = false) (h2 : isArg x = false)
    (h3 : accepted [x] = [] := by rfl) (h4 : handed [x] = [] := by rfl) : Talk c E t0 T q (d.log x) :=
  ⟨⟨h.calm.isOpen, h.calm.lock, h.calm.reset, h.calm.lineRead, ⟨h.calm.line.len, h.calm.line.fill, h.calm.line.oob⟩, h.calm.fill,
    h.calm.ser⟩, h.told.quiet x h1 h2 h3 h4, h.st, h.host, h.port, h.typ, h.data, h.wbuf, h.wcap, h.rbuf, h.rcap, h.rcv, h.rd, h.bw, h.ext⟩

/-! ### Stages of a dialogue -/

section
variable {step : Dev S R X → Op → Dev S R X} {n : Nat}

theorem exec_hear (hi : ∀ d hs, step d (.irq hs) = { d with ser := d.ser.transfers hs }) (d : Dev S R X) (l : List Byte)
    (k : Nat) : exec step d (hear n l k) = exec step (step (hearing d n l) (.run true)) (List.replicate k (.run true)) := by
  show exec step (step (step d _) _) (List.replicate (k + 1) _) = _
  rw [hi, hi]; rfl

theorem exec_runs {P : Dev S R X → Prop} (h : ∀ d, P d → P (step d (.run true))) {d : Dev S R X} (hd : P d) (k : Nat) :
    P (exec step d (List.replicate k (.run true))) := by
  induction k generalizing d with
  | zero => exact hd
  | succ k ih => exact ih (h d hd)

/-- The pieces of a line before the last one. -/
theorem exec_head {P : List Byte → Dev S R X → Prop} {ok : List Byte → Prop}
    (hi : ∀ d hs, step d (.irq hs) = { d with ser := d.ser.transfers hs }) (h : ∀ u d, P u d → P u (step d (.run true)))
    (hm : ∀ u v w d, P u d → IsLine (u ++ v ++ w) → w ≠ [] → ok (u ++ v ++ w) → P (u ++ v) (step (hearing d n v) (.run true)))
    {hs : List (List Byte × Nat)} {u w : List Byte} {d : Dev S R X} (hd : P u d) (hw : w ≠ [])
    (hl : IsLine (u ++ hs.flatMap (·.1) ++ w)) (hok : ok (u ++ hs.flatMap (·.1) ++ w)) :
    P (u ++ hs.flatMap (·.1)) (exec step d (hs.flatMap fun x => hear n x.1 x.2)) := by
  induction hs generalizing u d with
  | nil => rw [List.flatMap_nil, List.append_nil]; exact hd
  | cons x hs ih =>
    rw [List.flatMap_cons] at hl hok ⊢
    rw [List.flatMap_cons, exec_append, exec_hear hi]
    have h1 := hm u x.1 (hs.flatMap (·.1) ++ w) d hd (by simpa using hl) (by simp [hw]) (by simpa using hok)
    rw [← List.append_assoc] at hl hok ⊢
    exact ih (exec_runs (h _) h1 x.2) hl hok

/-- A line before its last piece. -/
theorem exec_last {P : List Byte → Dev S R X → Prop} {ok : List Byte → Prop}
    (hi : ∀ d hs, step d (.irq hs) = { d with ser := d.ser.transfers hs }) (h : ∀ u d, P u d → P u (step d (.run true)))
    (hm : ∀ u v w d, P u d → IsLine (u ++ v ++ w) → w ≠ [] → ok (u ++ v ++ w) → P (u ++ v) (step (hearing d n v) (.run true)))
    {d : Dev S R X} (hd : P [] d) {x : Spoken} (hx : x.Is ok) :
    ∃ u g, P u g ∧ IsLine (u ++ x.last) ∧ x.last ≠ [] ∧ ok (u ++ x.last) ∧
      exec step d (x.ops n) = exec step (step (hearing g n x.last) (.run true)) (List.replicate x.runs (.run true)) := by
  obtain ⟨h1, h2, h3⟩ := hx
  refine ⟨_, _, exec_head hi h hm (hs := x.head) hd h1 h2 h3, h2, h1, h3, ?_⟩
  unfold Spoken.ops
  rw [exec_append, exec_hear hi]

/-- A line, in pieces. -/
theorem exec_said {P : List Byte → Dev S R X → Prop} {Q : Dev S R X → Prop} {ok : List Byte → Prop}
    (hi : ∀ d hs, step d (.irq hs) = { d with ser := d.ser.transfers hs }) (h : ∀ u d, P u d → P u (step d (.run true)))
    (hm : ∀ u v w d, P u d → IsLine (u ++ v ++ w) → w ≠ [] → ok (u ++ v ++ w) → P (u ++ v) (step (hearing d n v) (.run true)))
    (hg : ∀ u v d, P u d → IsLine (u ++ v) → v ≠ [] → ok (u ++ v) → Q (step (hearing d n v) (.run true)))
    (hq : ∀ d, Q d → Q (step d (.run true))) {d : Dev S R X} (hd : P [] d) {x : Spoken} (hx : x.Is ok) :
    Q (exec step d (x.ops n)) := by
  obtain ⟨h1, h2, h3⟩ := hx
  unfold Spoken.ops
  rw [exec_append, exec_hear hi]
  have := exec_head hi h hm (hs := x.head) hd h1 h2 h3
  exact exec_runs hq (hg _ _ _ this h2 h1 h3) x.runs

theorem exec_hearAll {P : List Byte → Dev S R X → Prop} {idle : List Byte → Prop}
    (hi : ∀ d hs, step d (.irq hs) = { d with ser := d.ser.transfers hs }) (h : ∀ u d, P u d → P u (step d (.run true)))
    (hm : ∀ u v w d, P u d → IsLine (u ++ v ++ w) → w ≠ [] → idle (u ++ v ++ w) → P (u ++ v) (step (hearing d n v) (.run true)))
    (hn : ∀ u v d, P u d → IsLine (u ++ v) → v ≠ [] → idle (u ++ v) → P [] (step (hearing d n v) (.run true)))
    {d : Dev S R X} (hd : P [] d) {xs : List Spoken} (hx : ∀ x ∈ xs, x.Is idle) : P [] (exec step d (hearAll n xs)) := by
  induction xs generalizing d with
  | nil => exact hd
  | cons x xs ih =>
    show P [] (exec step d (x.ops n ++ hearAll n xs))
    rw [exec_append]
    exact ih (exec_said hi h hm hn (h _) hd (hx x List.mem_cons_self)) fun y hy => hx y (List.mem_cons_of_mem _ hy)

/-- One answer of the modem leads from `P` to `Q`. -/
theorem exec_beat {P : List Byte → Dev S R X → Prop} {Q : Dev S R X → Prop} {a : Await}
    (hi : ∀ d hs, step d (.irq hs) = { d with ser := d.ser.transfers hs }) (hp : ∀ u d, P u d → P u (step d (.run true)))
    (hm : ∀ u v w d, P u d → IsLine (u ++ v ++ w) → w ≠ [] → a.idle (u ++ v ++ w) ∨ a.good (u ++ v ++ w) →
      P (u ++ v) (step (hearing d n v) (.run true)))
    (hn : ∀ u v d, P u d → IsLine (u ++ v) → v ≠ [] → a.idle (u ++ v) → P [] (step (hearing d n v) (.run true)))
    (hg : ∀ u v d, P u d → IsLine (u ++ v) → v ≠ [] → a.good (u ++ v) → Q (step (hearing d n v) (.run true)))
    (hq : ∀ d, Q d → Q (step d (.run true))) {d : Dev S R X} (hd : P [] d) {b : Beat} (hb : Answers a b) :
    Q (exec step d (b.ops n)) := by
  unfold Beat.ops
  rw [exec_append]
  exact exec_said hi hp (fun u v w d h1 h2 h3 h4 => hm u v w d h1 h2 h3 (.inr h4)) hg hq
    (exec_hearAll hi hp (fun u v w d h1 h2 h3 h4 => hm u v w d h1 h2 h3 (.inl h4)) hn hd hb.noise) hb.answer

/-- A dialogue, stage by stage. -/
theorem exec_dialogue {P : Nat → Dev S R X → Prop} {as : List Exchange}
    (h : ∀ k (hk : k < as.length) d b, P k d → Answers as[k].await b → P (k + 1) (exec step d (b.ops n)))
    {k : Nat} (hk : k ≤ as.length) {bs : List Beat} (hb : Dialogue (as.take k) bs) {d : Dev S R X} (hd : P 0 d) :
    P k (exec step d (Spec.ops n bs)) := by
  induction as generalizing P k bs d with
  | nil =>
    cases k with
    | zero => cases hb; exact hd
    | succ k => simp at hk
  | cons a as ih =>
    cases k with
    | zero => rw [List.take_zero] at hb; cases hb; exact hd
    | succ k =>
      rw [List.take_succ_cons] at hb
      cases hb with
      | cons h1 h2 =>
        rename_i b bs
        have h0 := h 0 (by simp) d b hd h1
        have := ih (P := fun k => P (k + 1)) (fun k hk d b hd ha => h (k + 1) (by simp; omega) d b hd ha)
          (by simp at hk; omega) h2 h0
        show P (k + 1) (exec step d (b.ops n ++ Spec.ops n bs))
        rw [exec_append]
        exact this

end

end Dev

/-- The members of the cellular drivers: no request for an identification; `addr` is known. -/
structure SimDev.ChatExt (apn addr : Option (List Byte)) (x : SimExt) : Prop where
  apn : x.apn = apn
  ip : x.ip.cells.length = 16
  id : x.id.get 1 = 0 ∨ x.id.get 0 ≠ 0
  max : 0 < x.maxRx
  addr : ∀ a, addr = some a → cstr x.ip.cells = a

theorem SimDev.ChatExt.forget {apn addr : Option (List Byte)} {x : SimExt} (h : SimDev.ChatExt apn addr x) :
    SimDev.ChatExt apn none x := ⟨h.apn, h.ip, h.id, h.max, by simp⟩

theorem Spec.Peer.Ok.port_ne {r : Peer} (h : r.Ok) : r.port.toNat ≠ 0 :=
  fun x => h.port (UInt16.toNat_inj.mp x)

theorem says_succ (as : List Exchange) (T : List (List Byte)) (k : Nat) (hk : k < as.length) :
    T ++ says (as.take (k + 1)) = T ++ says (as.take k) ++ as[k].said := by
  unfold says
  rw [List.take_succ_eq_append_getElem hk, List.flatMap_append, List.append_assoc]
  simp

theorem says_mem {as : List Exchange} {k : Nat} (hk : k < as.length) {t : List Byte} (h : t ∈ as[k].said) : t ∈ says as :=
  List.mem_flatMap.mpr ⟨as[k], List.getElem_mem hk, h⟩

theorem not_prefix_of {a b l : List Byte} (ha : a <+: l) (h1 : ¬ a <+: b) (h2 : ¬ b <+: a) : ¬ b <+: l :=
  fun hb => (List.prefix_or_prefix_of_prefix ha hb).elim h1 h2

theorem decAux_decimals (fuel n : Nat) (acc : List Byte) (h : n < 10 ^ fuel) (hf : 0 < fuel) :
    decAux fuel n acc = decimals n ++ acc := by
  induction fuel generalizing n acc with
  | zero => omega
  | succ fuel ih =>
    unfold decAux decimals
    by_cases hn : n < 10
    · have h1 : n / 10 = 0 := by omega
      have h2 : n % 10 = n := by omega
      simp [hn, h1, h2]
    · have h1 : ¬ n / 10 = 0 := by omega
      have h3 : 0 < fuel := by
        cases fuel with
        | zero => simp at h; omega
        | succ f => omega
      have h2 : n / 10 < 10 ^ fuel := by rw [Nat.pow_succ] at h; omega
      simp only [h1, if_false, hn]
      rw [ih _ _ h2 h3]; simp

theorem dec5_decimals {n : Nat} (h : n < 65536) : dec5 n = decimals n := by
  rw [dec5_eq (by omega)]
  unfold dec
  rw [Nat.mod_eq_of_lt (by omega), decAux_decimals 10 n [] (by omega) (by omega), List.append_nil]

end Verif
