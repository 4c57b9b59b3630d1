import Verif.Model.BufferedSerial
import Verif.Lemmas.Line

/-! Lemmas about `BufferedSerial` under arbitrary interrupt schedules. -/

namespace Verif.Ser

open Verif.Spec

/-- The serial device represents receive queue `rq` and transmit queue `tq`, and the ghost streams
agree with them. -/
structure Rep (s : Ser) (rq tq : List Byte) : Prop where
  rx : LineBuf.Rep s.rx rq
  tx : LineBuf.Rep s.tx tq
  rxs : s.taken ++ rq = s.accepted
  txs : s.wire ++ tq = s.sent

theorem rep_init (rmem wmem : List Byte) (sched : List (List Hw)) :
    Rep (init rmem wmem sched) [] [] :=
  ⟨LineBuf.rep_init _, LineBuf.rep_init _, rfl, rfl⟩

theorem rep_setSched {s : Ser} {rq tq} (h : Rep s rq tq) (b : List (List Hw)) :
    Rep { s with sched := b } rq tq := ⟨h.rx, h.tx, h.rxs, h.txs⟩

theorem rep_setIrq {s : Ser} {rq tq} (h : Rep s rq tq) (b : Bool) :
    Rep { s with irqOn := b } rq tq := ⟨h.rx, h.tx, h.rxs, h.txs⟩

/-! ### Frame facts -/

/-- What interrupts cannot change. -/
structure Frame (s s' : Ser) : Prop where
  rxSize : s'.rx.ring.size = s.rx.ring.size
  txSize : s'.tx.ring.size = s.tx.ring.size
  taken : s'.taken = s.taken
  sent : s'.sent = s.sent
  irq : s'.irqOn = s.irqOn

theorem Frame.refl (s : Ser) : Frame s s := ⟨rfl, rfl, rfl, rfl, rfl⟩

theorem Frame.trans {a b c : Ser} (h : Frame a b) (k : Frame b c) : Frame a c :=
  ⟨k.rxSize.trans h.rxSize, k.txSize.trans h.txSize, k.taken.trans h.taken, k.sent.trans h.sent,
    k.irq.trans h.irq⟩

theorem frame_transferRx (s : Ser) (c : Option Byte) : Frame s (s.transferRx c) := by
  cases c with
  | none => exact Frame.refl s
  | some c => simp only [transferRx]; split <;> exact ⟨rfl, rfl, rfl, rfl, rfl⟩

theorem frame_transferTx (s : Ser) (b : Bool) : Frame s (s.transferTx b) := by
  simp only [transferTx]
  split
  · split <;> exact ⟨rfl, rfl, rfl, rfl, rfl⟩
  · exact Frame.refl s

theorem frame_transfer (s : Ser) (h : Hw) : Frame s (s.transfer h) :=
  (frame_transferRx s h.rx).trans (frame_transferTx _ _)

theorem frame_transfers (s : Ser) (hs : List Hw) : Frame s (s.transfers hs) := by
  induction hs generalizing s with
  | nil => exact Frame.refl s
  | cons h hs ih => exact (frame_transfer s h).trans (ih _)

theorem frame_sync (s : Ser) : Frame s s.sync := by
  unfold sync
  split
  · split
    · exact Frame.refl s
    · rename_i b bs _
      have h1 : Frame s { s with sched := bs } := ⟨rfl, rfl, rfl, rfl, rfl⟩
      exact h1.trans (frame_transfers { s with sched := bs } b)
  · exact Frame.refl s

theorem sched_transferRx (s : Ser) (c : Option Byte) : (s.transferRx c).sched = s.sched := by
  cases c with
  | none => rfl
  | some c => simp only [transferRx]; split <;> rfl

theorem sched_transferTx (s : Ser) (b : Bool) : (s.transferTx b).sched = s.sched := by
  simp only [transferTx]
  split
  · split <;> rfl
  · rfl

theorem sched_transfer (s : Ser) (h : Hw) : (s.transfer h).sched = s.sched :=
  (sched_transferTx _ _).trans (sched_transferRx _ _)

theorem sched_transfers (s : Ser) (hs : List Hw) : (s.transfers hs).sched = s.sched := by
  induction hs generalizing s with
  | nil => rfl
  | cons h hs ih => exact (ih _).trans (sched_transfer s h)

/-! ### Interrupts -/

theorem rep_transferRx {s : Ser} {rq tq : List Byte} (h : Rep s rq tq) (c : Option Byte) :
    Rep (s.transferRx c) (rq ++ c.toList.take (s.rx.ring.size - rq.length)) tq ∧
    (s.transferRx c).accepted = s.accepted ++ c.toList.take (s.rx.ring.size - rq.length) ∧
    (s.transferRx c).wire = s.wire := by
  cases c with
  | none => simp [transferRx, h]
  | some c =>
    have hle := h.rx.ring.le
    by_cases hf : rq.length < s.rx.ring.size
    · have hfull : s.rx.ring.isFull = false := by
        simp [Ring.isFull, h.rx.ring.av]; omega
      have e : (some c).toList.take (s.rx.ring.size - rq.length) = [c] := by
        rw [List.take_of_length_le] <;> simp; omega
      rw [e]
      simp only [transferRx, hfull]
      refine ⟨⟨LineBuf.rep_push h.rx c hf, h.tx, ?_, h.txs⟩, by simp, by simp⟩
      simp [← h.rxs]
    · have hfull : s.rx.ring.isFull = true := by
        simp [Ring.isFull, h.rx.ring.av]; omega
      have e : s.rx.ring.size - rq.length = 0 := by omega
      rw [e]
      simp only [transferRx, hfull]
      refine ⟨⟨?_, h.tx, ?_, h.txs⟩, by simp, by simp⟩
      · simpa using h.rx
      · simpa using h.rxs

theorem rep_transferTx {s : Ser} {rq tq : List Byte} (h : Rep s rq tq) (ok : Bool) :
    Rep (s.transferTx ok) rq (if ok then tq.tail else tq) ∧
    (s.transferTx ok).accepted = s.accepted ∧
    (s.transferTx ok).wire = s.wire ++ (if ok then tq.take 1 else []) := by
  cases tq with
  | nil =>
    have : s.tx.ring.bytesAvailable = 0 := h.tx.ring.bytesAvailable
    simp [transferTx, this, h]
  | cons c tq =>
    have hne : s.tx.ring.bytesAvailable ≠ 0 := by rw [h.tx.ring.bytesAvailable]; simp
    have hpk := Ring.rep_peek h.tx.ring
    cases ok with
    | false =>
      simp only [transferTx, hne, ne_eq, not_false_eq_true, if_true, hpk.1]
      exact ⟨⟨h.rx, h.tx, h.rxs, h.txs⟩, rfl, by simp⟩
    | true =>
      simp only [transferTx, hne, ne_eq, not_false_eq_true, if_true, hpk.1, hpk.2]
      have hp := LineBuf.rep_pull h.tx
      refine ⟨⟨h.rx, hp.1, h.rxs, ?_⟩, by simp, by simp⟩
      have := h.txs
      simpa using this

/-- Interrupts append to the receive queue and remove from the front of the transmit queue. -/
structure Ext (s s' : Ser) (rq tq add gone tq' : List Byte) : Prop where
  rep : Rep s' (rq ++ add) tq'
  tq : tq = gone ++ tq'
  acc : s'.accepted = s.accepted ++ add
  wire : s'.wire = s.wire ++ gone
  frame : Frame s s'
  pend : add.length + s'.pending ≤ s.pending

theorem ext_transfer {s : Ser} {rq tq : List Byte} (h : Rep s rq tq) (hw : Hw) :
    ∃ add gone tq', Rep (s.transfer hw) (rq ++ add) tq' ∧ tq = gone ++ tq' ∧
      (s.transfer hw).accepted = s.accepted ++ add ∧ (s.transfer hw).wire = s.wire ++ gone ∧
      add.length ≤ 1 := by
  obtain ⟨h1, a1, w1⟩ := rep_transferRx h hw.rx
  obtain ⟨h2, a2, w2⟩ := rep_transferTx h1 hw.txOk
  refine ⟨_, if hw.txOk then tq.take 1 else [], _, h2, ?_, ?_, ?_, ?_⟩
  · cases hw.txOk
    · rfl
    · cases tq <;> simp
  · exact a2.trans a1
  · rw [transfer, w2, w1]
  · have : hw.rx.toList.length ≤ 1 := by cases hw.rx <;> simp
    simp; omega

theorem ext_transfers {s : Ser} {rq tq : List Byte} (h : Rep s rq tq) (hs : List Hw) :
    ∃ add gone tq', Rep (s.transfers hs) (rq ++ add) tq' ∧ tq = gone ++ tq' ∧
      (s.transfers hs).accepted = s.accepted ++ add ∧ (s.transfers hs).wire = s.wire ++ gone ∧
      add.length ≤ hs.length := by
  induction hs generalizing s rq tq with
  | nil => exact ⟨[], [], tq, by simpa [transfers] using h, rfl, by simp [transfers],
      by simp [transfers], by simp⟩
  | cons hw hs ih =>
    obtain ⟨a1, g1, t1, r1, e1, c1, w1, l1⟩ := ext_transfer h hw
    obtain ⟨a2, g2, t2, r2, e2, c2, w2, l2⟩ := ih r1
    refine ⟨a1 ++ a2, g1 ++ g2, t2, ?_, ?_, ?_, ?_, ?_⟩
    · simpa [transfers] using r2
    · rw [e1, e2]; simp
    · have : (s.transfers (hw :: hs)) = (s.transfer hw).transfers hs := rfl
      rw [this, c2, c1]; simp
    · have : (s.transfers (hw :: hs)) = (s.transfer hw).transfers hs := rfl
      rw [this, w2, w1]; simp
    · simp; omega

theorem ext_sync {s : Ser} {rq tq : List Byte} (h : Rep s rq tq) :
    ∃ add gone tq', Ext s s.sync rq tq add gone tq' := by
  have hfr := frame_sync s
  by_cases hi : s.irqOn = true
  · cases hb : s.sched with
    | nil =>
      have e : s.sync = s := by simp [sync, hi, hb]
      refine ⟨[], [], tq, ?_⟩
      rw [e]
      exact ⟨by simpa using h, rfl, by simp, by simp, Frame.refl s, by simp⟩
    | cons b bs =>
      have e : s.sync = ({ s with sched := bs } : Ser).transfers b := by simp [sync, hi, hb]
      obtain ⟨a, g, t, r, e1, c1, w1, l1⟩ := ext_transfers (rep_setSched h bs) b
      refine ⟨a, g, t, ?_⟩
      refine ⟨by rw [e]; exact r, e1, by rw [e]; exact c1, by rw [e]; exact w1, hfr, ?_⟩
      rw [e]
      have : (({ s with sched := bs } : Ser).transfers b).pending = (bs.map List.length).sum := by
        simp only [pending]; rw [sched_transfers]
      rw [this]
      simp only [pending, hb, List.map_cons, List.sum_cons]; omega
  · have e : s.sync = s := by simp [sync, hi]
    refine ⟨[], [], tq, ?_⟩
    rw [e]
    exact ⟨by simpa using h, rfl, by simp, by simp, Frame.refl s, by simp⟩

/-! ### Calls -/

/-- Sizes never change. -/
def SameSize (s s' : Ser) : Prop :=
  s'.rx.ring.size = s.rx.ring.size ∧ s'.tx.ring.size = s.tx.ring.size

theorem Ext.sameSize {s s' : Ser} {rq tq add gone tq'} (h : Ext s s' rq tq add gone tq') :
    SameSize s s' := ⟨h.frame.rxSize, h.frame.txSize⟩

theorem SameSize.trans {a b c : Ser} (h : SameSize a b) (k : SameSize b c) : SameSize a c :=
  ⟨k.1.trans h.1, k.2.trans h.2⟩

theorem rep_bytesAvailable {s : Ser} {rq tq : List Byte} (h : Rep s rq tq) :
    ∃ add gone tq', Rep s.bytesAvailable.1 (rq ++ add) tq' ∧ tq = gone ++ tq' ∧
      s.bytesAvailable.2 = (rq ++ add).length ∧
      s.bytesAvailable.1.accepted = s.accepted ++ add ∧
      s.bytesAvailable.1.taken = s.taken ∧ s.bytesAvailable.1.sent = s.sent ∧
      SameSize s s.bytesAvailable.1 ∧
      add.length + s.bytesAvailable.1.pending ≤ s.pending := by
  obtain ⟨a, g, t, e⟩ := ext_sync h
  refine ⟨a, g, t, rep_setIrq (rep_setIrq e.rep _) _, e.tq, ?_, e.acc, e.frame.taken,
    e.frame.sent, e.sameSize, e.pend⟩
  exact e.rep.rx.ring.bytesAvailable

theorem rep_spaceAvailable {s : Ser} {rq tq : List Byte} (h : Rep s rq tq) :
    ∃ add gone tq', Rep s.spaceAvailable.1 (rq ++ add) tq' ∧ tq = gone ++ tq' ∧
      s.spaceAvailable.2 = s.tx.ring.size - tq'.length ∧
      s.spaceAvailable.1.accepted = s.accepted ++ add ∧
      s.spaceAvailable.1.taken = s.taken ∧ s.spaceAvailable.1.sent = s.sent ∧
      SameSize s s.spaceAvailable.1 ∧
      add.length + s.spaceAvailable.1.pending ≤ s.pending := by
  obtain ⟨a, g, t, e⟩ := ext_sync h
  refine ⟨a, g, t, rep_setIrq (rep_setIrq e.rep _) _, e.tq, ?_, e.acc, e.frame.taken,
    e.frame.sent, e.sameSize, e.pend⟩
  have := e.rep.tx.ring.spaceAvailable
  rw [e.frame.txSize] at this
  exact this

theorem rep_read1 {s : Ser} {c : Byte} {rq tq : List Byte} (h : Rep s (c :: rq) tq) :
    ∃ add gone tq', Rep s.read1.1 (rq ++ add) tq' ∧ tq = gone ++ tq' ∧ s.read1.2 = c ∧
      s.read1.1.accepted = s.accepted ++ add ∧ s.read1.1.taken = s.taken ++ [c] ∧
      s.read1.1.sent = s.sent ∧ SameSize s s.read1.1 ∧
      add.length + s.read1.1.pending ≤ s.pending := by
  obtain ⟨a, g, t, e⟩ := ext_sync h
  have hp := LineBuf.rep_pull e.rep.rx
  have htk : s.read1.1.taken = s.taken ++ [c] := by
    show s.sync.taken ++ [s.sync.rx.pull.2] = _
    rw [hp.2, e.frame.taken]
  refine ⟨a, g, t, ⟨hp.1, e.rep.tx, ?_, e.rep.txs⟩, e.tq, hp.2, e.acc, htk,
    e.frame.sent, e.sameSize, e.pend⟩
  show s.read1.1.taken ++ (rq ++ a) = s.sync.accepted
  rw [htk, e.acc, ← h.rxs]; simp

theorem rep_readLoop (n : Nat) {s : Ser} {rq tq : List Byte} (h : Rep s rq tq)
    (hn : n ≤ rq.length) :
    ∃ add gone tq', Rep (s.readLoop n).1 (rq.drop n ++ add) tq' ∧ tq = gone ++ tq' ∧
      (s.readLoop n).2 = rq.take n ∧ (s.readLoop n).1.accepted = s.accepted ++ add ∧
      (s.readLoop n).1.taken = s.taken ++ rq.take n ∧ (s.readLoop n).1.sent = s.sent ∧
      SameSize s (s.readLoop n).1 ∧
      add.length + (s.readLoop n).1.pending ≤ s.pending := by
  induction n generalizing s rq tq with
  | zero => exact ⟨[], [], tq, by simpa [readLoop] using h, rfl, by simp [readLoop],
      by simp [readLoop], by simp [readLoop], rfl, ⟨rfl, rfl⟩, by simp [readLoop]⟩
  | succ n ih =>
    match rq, h with
    | [], _ => simp at hn
    | c :: rq, h =>
      simp only [List.length_cons] at hn
      obtain ⟨a1, g1, t1, r1, e1, o1, c1, k1, s1, z1, p1⟩ := rep_read1 h
      obtain ⟨a2, g2, t2, r2, e2, o2, c2, k2, s2, z2, p2⟩ := ih r1 (by simp; omega)
      rw [List.drop_append_of_le_length (by omega), List.append_assoc] at r2
      rw [List.take_append_of_le_length (by omega)] at o2 k2
      refine ⟨a1 ++ a2, g1 ++ g2, t2, ?_, ?_, ?_, ?_, ?_, ?_, ?_, ?_⟩
      · simpa [readLoop] using r2
      · rw [e1, e2]; simp
      · simp [readLoop, o1, o2]
      · simp only [readLoop]; rw [c2, c1]; simp
      · simp only [readLoop]; rw [k2, k1]; simp
      · simp only [readLoop]; rw [s2, s1]
      · exact z1.trans z2
      · simp only [readLoop, List.length_append]; omega

theorem rep_read {s : Ser} {rq tq : List Byte} (h : Rep s rq tq) (n : Nat) :
    ∃ a1 a2 gone tq', Rep (s.read n).1 ((rq ++ a1).drop n ++ a2) tq' ∧ tq = gone ++ tq' ∧
      (s.read n).2 = (rq ++ a1).take n ∧ (s.read n).1.accepted = s.accepted ++ (a1 ++ a2) ∧
      (s.read n).1.taken = s.taken ++ (rq ++ a1).take n ∧ (s.read n).1.sent = s.sent ∧
      SameSize s (s.read n).1 := by
  obtain ⟨a1, g1, t1, r1, e1, o1, c1, k1, s1, z1, p1⟩ := rep_bytesAvailable h
  have hn : (if n > s.bytesAvailable.2 then s.bytesAvailable.2 else n)
      = min n (rq ++ a1).length := by rw [o1]; split <;> omega
  obtain ⟨a2, g2, t2, r2, e2, o2, c2, k2, s2, z2, p2⟩ :=
    rep_readLoop (min n (rq ++ a1).length) r1 (by omega)
  have etk : (rq ++ a1).take (min n (rq ++ a1).length) = (rq ++ a1).take n := by
    rw [← List.take_take, List.take_length]
  have edr : (rq ++ a1).drop (min n (rq ++ a1).length) = (rq ++ a1).drop n := by
    by_cases hh : n ≤ (rq ++ a1).length
    · rw [Nat.min_eq_left hh]
    · rw [Nat.min_eq_right (by omega), List.drop_of_length_le (Nat.le_refl _),
        List.drop_of_length_le (by omega)]
  rw [etk] at o2 k2
  rw [edr] at r2
  refine ⟨a1, a2, g1 ++ g2, t2, ?_, ?_, ?_, ?_, ?_, ?_, ?_⟩
  · simp only [read]; rw [hn]; exact r2
  · rw [e1, e2]; simp
  · simp only [read]; rw [hn]; exact o2
  · simp only [read]; rw [hn, c2, c1]; simp
  · simp only [read]; rw [hn, k2, k1]
  · simp only [read]; rw [hn, s2, s1]
  · simp only [read]; rw [hn]; exact z1.trans z2

theorem rep_copyToBuffer {s : Ser} {rq tq : List Byte} (h : Rep s rq tq) (c : Byte)
    (hr : tq.length < s.tx.ring.size) :
    ∃ add gone tq', Rep (s.copyToBuffer c) (rq ++ add) (tq' ++ [c]) ∧ tq = gone ++ tq' ∧
      (s.copyToBuffer c).accepted = s.accepted ++ add ∧
      (s.copyToBuffer c).taken = s.taken ∧ (s.copyToBuffer c).sent = s.sent ++ [c] ∧
      SameSize s (s.copyToBuffer c) := by
  obtain ⟨a, g, t, e⟩ := ext_sync h
  have hlt : t.length < s.sync.tx.ring.size := by
    rw [e.frame.txSize]
    have := congrArg List.length e.tq
    simp at this; omega
  have hp := LineBuf.rep_push e.rep.tx c hlt
  have hsent : (s.copyToBuffer c).sent = s.sent ++ [c] := by
    show s.sync.sent ++ [c] = _
    rw [e.frame.sent]
  refine ⟨a, g, t, ⟨e.rep.rx, hp, e.rep.rxs, ?_⟩, e.tq, e.acc, e.frame.taken, hsent, e.sameSize⟩
  rw [hsent]
  show s.sync.wire ++ (t ++ [c]) = _
  rw [e.wire, ← h.txs, e.tq]; simp

theorem rep_writeLoop (cs : List Byte) {s : Ser} {rq tq : List Byte} (h : Rep s rq tq)
    (hr : tq.length + cs.length ≤ s.tx.ring.size) :
    ∃ add gone tq', Rep (s.writeLoop cs) (rq ++ add) tq' ∧ tq ++ cs = gone ++ tq' ∧
      (s.writeLoop cs).accepted = s.accepted ++ add ∧
      (s.writeLoop cs).taken = s.taken ∧ (s.writeLoop cs).sent = s.sent ++ cs ∧
      SameSize s (s.writeLoop cs) := by
  induction cs generalizing s rq tq with
  | nil => exact ⟨[], [], tq, by simpa [writeLoop] using h, by simp, by simp [writeLoop], rfl,
      by simp [writeLoop], ⟨rfl, rfl⟩⟩
  | cons c cs ih =>
    simp only [List.length_cons] at hr
    obtain ⟨a1, g1, t1, r1, e1, c1, k1, s1, z1⟩ := rep_copyToBuffer h c (by omega)
    have hl := congrArg List.length e1
    simp at hl
    obtain ⟨a2, g2, t2, r2, e2, c2, k2, s2, z2⟩ := ih r1 (by rw [z1.2]; simp; omega)
    refine ⟨a1 ++ a2, g1 ++ g2, t2, ?_, ?_, ?_, ?_, ?_, z1.trans z2⟩
    · simpa [writeLoop] using r2
    · rw [e1]; simp only [List.append_assoc] at e2 ⊢; rw [← e2]; simp
    · simp only [writeLoop]; rw [c2, c1]; simp
    · simp only [writeLoop]; rw [k2, k1]
    · simp only [writeLoop]; rw [s2, s1]; simp

theorem rep_write {s : Ser} {rq tq : List Byte} (h : Rep s rq tq) (data : List Byte) :
    ∃ add gone tq' , Rep (s.write data).1 (rq ++ add) tq' ∧
      (s.write data).2 = min data.length s.spaceAvailable.2 ∧
      tq ++ data.take (s.write data).2 = gone ++ tq' ∧
      (s.write data).1.accepted = s.accepted ++ add ∧
      (s.write data).1.taken = s.taken ∧
      (s.write data).1.sent = s.sent ++ data.take (s.write data).2 ∧
      SameSize s (s.write data).1 := by
  obtain ⟨a1, g1, t1, r1, e1, o1, c1, k1, s1, z1, p1⟩ := rep_spaceAvailable h
  have hn : (if data.length > s.spaceAvailable.2 then s.spaceAvailable.2 else data.length)
      = min data.length s.spaceAvailable.2 := by split <;> omega
  have hle := r1.tx.ring.le
  rw [z1.2] at hle
  obtain ⟨a2, g2, t2, r2, e2, c2, k2, s2, z2⟩ :=
    rep_writeLoop (data.take (min data.length s.spaceAvailable.2)) r1
      (by rw [z1.2]; simp; omega)
  have hv : (s.write data).2 = min data.length s.spaceAvailable.2 := by
    simp only [write]; rw [hn]
  have hst : (s.write data).1 =
      s.spaceAvailable.1.writeLoop (data.take (min data.length s.spaceAvailable.2)) := by
    simp only [write]; rw [hn]
  refine ⟨a1 ++ a2, g1 ++ g2, t2, ?_, hv, ?_, ?_, ?_, ?_, ?_⟩
  · rw [hst]; simpa using r2
  · rw [hv, e1, List.append_assoc, e2]; simp
  · rw [hst, c2, c1]; simp
  · rw [hst, k2, k1]
  · rw [hst, hv, s2, s1]
  · rw [hst]; exact z1.trans z2

/-- The string loop is the bulk loop on a prefix of the string before its first zero. -/
theorem writeStrLoop_eq (s : Ser) (space n : Nat) (data : List Byte) (hn : n ≤ space) :
    s.writeStrLoop space n data =
      (s.writeLoop ((data.takeWhile (· ≠ 0)).take (space - n)),
        n + min (data.takeWhile (· ≠ 0)).length (space - n)) := by
  induction data generalizing s n with
  | nil => simp [writeStrLoop, writeLoop]
  | cons c cs ih =>
    simp only [writeStrLoop]
    by_cases hc : c = 0
    · simp [hc, writeLoop]
    · by_cases hs : n < space
      · rw [if_pos ⟨hc, hs⟩, ih _ _ (by omega)]
        obtain ⟨k, hk⟩ : ∃ k, space - n = k + 1 := ⟨space - n - 1, by omega⟩
        rw [show space - (n + 1) = k by omega, hk]
        have : (c :: cs).takeWhile (· ≠ 0) = c :: cs.takeWhile (· ≠ 0) := by
          simp [hc]
        rw [this]
        simp only [List.take_succ_cons, writeLoop, List.length_cons, Prod.mk.injEq, true_and]
        omega
      · rw [if_neg (by omega)]
        have : space - n = 0 := by omega
        simp [this, writeLoop]

/-- `write(string)` is `write(data, strlen)`. -/
theorem writeStr_eq (s : Ser) (data : List Byte) :
    s.writeStr data = s.write (data.takeWhile (· ≠ 0)) := by
  simp only [writeStr, write]
  rw [writeStrLoop_eq _ _ _ _ (Nat.zero_le _)]
  have : (if (data.takeWhile (· ≠ 0)).length > s.spaceAvailable.2 then s.spaceAvailable.2
      else (data.takeWhile (· ≠ 0)).length) =
      min (data.takeWhile (· ≠ 0)).length s.spaceAvailable.2 := by split <;> omega
  rw [this]
  simp only [Nat.sub_zero, Nat.zero_add, Prod.mk.injEq, and_true]
  congr 1
  rw [Nat.min_comm, ← List.take_take]; simp

theorem rep_canReadLine {s : Ser} {rq tq : List Byte} (h : Rep s rq tq) :
    ∃ add gone tq', Rep s.canReadLine.1 (rq ++ add) tq' ∧ tq = gone ++ tq' ∧
      s.canReadLine.2 = decide (0 < (rq ++ add).count nl % 65536) ∧
      s.canReadLine.1.accepted = s.accepted ++ add ∧
      s.canReadLine.1.taken = s.taken ∧ s.canReadLine.1.sent = s.sent ∧
      SameSize s s.canReadLine.1 := by
  obtain ⟨a, g, t, e⟩ := ext_sync h
  refine ⟨a, g, t, rep_setIrq (rep_setIrq e.rep _) _, e.tq, ?_, e.acc, e.frame.taken,
    e.frame.sent, e.sameSize⟩
  show decide (s.sync.rx.lines > 0) = _
  rw [e.rep.rx.lines]

theorem rep_readLineLoop (size fuel : Nat) {s : Ser} {rq tq : List Byte} (h : Rep s rq tq)
    (hf : rq.length + s.pending < fuel) (c : Byte) (acc : List Byte)
    (hacc : acc.length ≤ size - 1) :
    ∃ add gone tq', tq = gone ++ tq' ∧
      (readLineLoop size fuel s c acc).1.accepted = s.accepted ++ add ∧
      (readLineLoop size fuel s c acc).1.sent = s.sent ∧
      SameSize s (readLineLoop size fuel s c acc).1 ∧
      (if c = nl then
        Rep (readLineLoop size fuel s c acc).1 (rq ++ add) tq' ∧
        (readLineLoop size fuel s c acc).1.taken = s.taken ∧
        (readLineLoop size fuel s c acc).2 = acc.reverse
      else
        Rep (readLineLoop size fuel s c acc).1 (dropLine (rq ++ add)) tq' ∧
        (readLineLoop size fuel s c acc).1.taken = s.taken ++ takeLine (rq ++ add) ∧
        (readLineLoop size fuel s c acc).2 =
          acc.reverse ++ (takeLine (rq ++ add)).take (size - 1 - acc.length)) := by
  induction fuel generalizing s rq tq c acc with
  | zero => omega
  | succ fuel ih =>
    obtain ⟨a1, g1, t1, r1, e1, o1, c1, k1, s1, z1, p1⟩ := rep_bytesAvailable h
    by_cases hc : c = nl
    · have hstep : readLineLoop size (fuel + 1) s c acc = (s.bytesAvailable.1, acc.reverse) := by
        simp [readLineLoop, hc]
      rw [hstep]
      refine ⟨a1, g1, t1, e1, c1, s1, z1, ?_⟩
      simp only [hc, if_true]
      exact ⟨r1, k1, trivial⟩
    · by_cases hz : rq ++ a1 = []
      · have hstep : readLineLoop size (fuel + 1) s c acc =
            (s.bytesAvailable.1, acc.reverse) := by
          simp only [readLineLoop]
          rw [if_neg]
          rw [o1, hz]; simp
        rw [hstep]
        refine ⟨a1, g1, t1, e1, c1, s1, z1, ?_⟩
        simp only [hc, if_false]
        rw [hz] at r1 ⊢
        exact ⟨r1, by simp [k1, takeLine], by simp [takeLine]⟩
      · obtain ⟨d, l, hd⟩ : ∃ d l, rq ++ a1 = d :: l := List.exists_cons_of_ne_nil hz
        rw [hd] at r1
        obtain ⟨a2, g2, t2, r2, e2, o2, c2, k2, s2, z2, p2⟩ := rep_read1 r1
        have hlen : rq.length + a1.length = l.length + 1 := by
          have := congrArg List.length hd; simpa using this
        obtain ⟨a3, g3, t3, e3, c3, s3, z3, h3⟩ := ih r2 (by simp; omega) d
          (if acc.length < size - 1 then d :: acc else acc)
          (by by_cases ha : acc.length < size - 1 <;>
              simp only [ha, if_true, if_false, List.length_cons] <;> omega)
        have hstep : readLineLoop size (fuel + 1) s c acc =
            readLineLoop size fuel s.bytesAvailable.1.read1.1 d
              (if acc.length < size - 1 then d :: acc else acc) := by
          simp only [readLineLoop]
          rw [if_pos, o2]
          exact ⟨by rw [o1, hd]; simp, hc⟩
        rw [hstep]
        refine ⟨a1 ++ a2 ++ a3, g1 ++ g2 ++ g3, t3, ?_, ?_, ?_, ?_, ?_⟩
        · rw [e1, e2, e3]; simp
        · rw [c3, c2, c1]; simp
        · rw [s3, s2, s1]
        · exact (z1.trans z2).trans z3
        · simp only [hc, if_false]
          have hX : rq ++ (a1 ++ a2 ++ a3) = d :: (l ++ a2 ++ a3) := by
            rw [← List.cons_append, ← List.cons_append, ← hd]; simp
          rw [hX]
          simp only [takeLine, dropLine]
          by_cases hdn : d = nl
          · rw [if_pos hdn] at h3
            rw [if_pos hdn, if_pos hdn]
            refine ⟨h3.1, ?_, ?_⟩
            · rw [h3.2.1, k2, k1]
            · rw [h3.2.2]
              by_cases ha : acc.length < size - 1
              · simp only [ha, if_true, List.reverse_cons]
                rw [List.take_of_length_le (by simp; omega)]
              · have : size - 1 - acc.length = 0 := by omega
                simp [ha, this]
          · rw [if_neg hdn] at h3
            rw [if_neg hdn, if_neg hdn]
            refine ⟨h3.1, ?_, ?_⟩
            · rw [h3.2.1, k2, k1]; simp
            · rw [h3.2.2]
              by_cases ha : acc.length < size - 1
              · simp only [ha, if_true, List.reverse_cons, List.length_cons, List.append_assoc]
                obtain ⟨k, hk⟩ : ∃ k, size - 1 - acc.length = k + 1 :=
                  ⟨size - 1 - acc.length - 1, by omega⟩
                rw [hk, List.take_succ_cons, show size - 1 - (acc.length + 1) = k by omega]
                rfl
              · have : size - 1 - acc.length = 0 := by omega
                simp [ha, this]

theorem rep_readLine {s : Ser} {rq tq : List Byte} (h : Rep s rq tq) (size : Nat)
    (hs : 0 < size) :
    ∃ add gone tq', tq = gone ++ tq' ∧
      (s.readLine size).1.accepted = s.accepted ++ add ∧
      (s.readLine size).1.sent = s.sent ∧
      SameSize s (s.readLine size).1 ∧
      Rep (s.readLine size).1 (dropLine (rq ++ add)) tq' ∧
      (s.readLine size).1.taken = s.taken ++ takeLine (rq ++ add) ∧
      (s.readLine size).2.1 = (takeLine (rq ++ add)).take (size - 1) ++ [0] ∧
      (s.readLine size).2.2 = ((takeLine (rq ++ add)).take (size - 1)).length := by
  obtain ⟨a, g, t, e, c, st, z, h1⟩ := rep_readLineLoop size
    (s.rx.ring.bytesAvailable + s.pending + 1) h (by rw [h.rx.ring.bytesAvailable]; omega) 0 []
    (by simp)
  rw [if_neg (by decide)] at h1
  have hne : size ≠ 0 := by omega
  refine ⟨a, g, t, e, ?_⟩
  simp only [readLine, hne, if_false]
  refine ⟨c, st, z, h1.1, h1.2.1, ?_, ?_⟩
  · rw [h1.2.2]; simp
  · rw [h1.2.2]; simp

theorem rep_flush {s : Ser} {rq tq : List Byte} (h : Rep s rq tq) :
    ∃ gone tq', Rep s.flushReceiveBuffers [] tq' ∧ tq = gone ++ tq' ∧
      s.flushReceiveBuffers.sent = s.sent ∧ SameSize s s.flushReceiveBuffers := by
  obtain ⟨a, g, t, e⟩ := ext_sync h
  exact ⟨g, t, ⟨LineBuf.rep_flush e.rep.rx.ring.len e.rep.rx.ring.ok, e.rep.tx, rfl, e.rep.txs⟩,
    e.tq, e.frame.sent, e.sameSize⟩

end Verif.Ser
