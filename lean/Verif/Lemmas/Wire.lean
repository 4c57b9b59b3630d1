import Verif.Spec.Wire
import Verif.Lemmas.StepInv

/-! What the driver hands to the serial device, and what leaves it. -/

namespace Verif

open Dev Spec

/-- The transmit buffer holds the queue `tq`, and what was transmitted plus the queue is what was put into it. -/
structure Ser.TxRep (s : Ser) (tq : List Byte) : Prop where
  tx : LineBuf.Rep s.tx tq
  txs : s.wire ++ tq = s.sent

/-- From `s` to `s'` the bytes `bs` were put into the transmit buffer; if `safe`, only as far as there was space. -/
structure Ser.Puts (s s' : Ser) (bs : List Byte) (safe : Prop) : Prop where
  sent : s'.sent = s.sent ++ bs
  size : s'.tx.ring.size = s.tx.ring.size
  rep : ∀ tq, s.TxRep tq → safe ∨ tq.length + bs.length ≤ s.tx.ring.size →
    ∃ tq', s'.TxRep tq' ∧ tq'.length ≤ tq.length + bs.length

namespace Ser

theorem Puts.refl (s : Ser) (P : Prop) : Puts s s [] P := ⟨by simp, rfl, fun tq h _ => ⟨tq, h, by simp⟩⟩

theorem Puts.trans {a b c : Ser} {x y : List Byte} {P Q : Prop} (h : Puts a b x P) (k : Puts b c y Q) :
    Puts a c (x ++ y) (P ∧ Q) := by
  refine ⟨by rw [k.sent, h.sent]; simp, k.size.trans h.size, fun tq ht hs => ?_⟩
  obtain ⟨t1, r1, l1⟩ := h.rep tq ht (by
    rcases hs with ⟨hs, _⟩ | hs
    · exact Or.inl hs
    · simp at hs; exact Or.inr (by omega))
  obtain ⟨t2, r2, l2⟩ := k.rep t1 r1 (by
    rcases hs with ⟨_, hs⟩ | hs
    · exact Or.inl hs
    · simp at hs; rw [h.size]; exact Or.inr (by omega))
  exact ⟨t2, r2, by simp; omega⟩

theorem Puts.of {a b : Ser} {x : List Byte} {P Q : Prop} (h : Puts a b x P) (hq : Q → P) : Puts a b x Q :=
  ⟨h.sent, h.size, fun tq ht hs => h.rep tq ht (hs.imp_left hq)⟩

theorem txRep_transferRx {s : Ser} {tq : List Byte} (h : TxRep s tq) (c : Option Byte) : TxRep (s.transferRx c) tq := by
  cases c with
  | none => exact h
  | some c =>
    simp only [transferRx]
    split <;> exact ⟨h.tx, h.txs⟩

theorem txRep_transferTx {s : Ser} {tq : List Byte} (h : TxRep s tq) (ok : Bool) :
    ∃ tq', TxRep (s.transferTx ok) tq' ∧ tq'.length ≤ tq.length := by
  cases tq with
  | nil =>
    have : s.tx.ring.bytesAvailable = 0 := h.tx.ring.bytesAvailable
    exact ⟨[], by simpa [transferTx, this] using h, by simp⟩
  | cons c tq =>
    have hne : s.tx.ring.bytesAvailable ≠ 0 := by rw [h.tx.ring.bytesAvailable]; simp
    have hpk := Ring.rep_peek h.tx.ring
    cases ok with
    | false =>
      refine ⟨c :: tq, ?_, by simp⟩
      simp only [transferTx, hne, ne_eq, not_false_eq_true, if_true, hpk.1]
      exact ⟨h.tx, h.txs⟩
    | true =>
      refine ⟨tq, ?_, by simp⟩
      simp only [transferTx, hne, ne_eq, not_false_eq_true, if_true, hpk.1, hpk.2]
      have := h.txs
      exact ⟨(LineBuf.rep_pull h.tx).1, by simpa using this⟩

theorem txRep_transfers {s : Ser} {tq : List Byte} (h : TxRep s tq) (hs : List Hw) :
    ∃ tq', TxRep (s.transfers hs) tq' ∧ tq'.length ≤ tq.length := by
  induction hs generalizing s tq with
  | nil => exact ⟨tq, h, Nat.le_refl _⟩
  | cons hw hs ih =>
    obtain ⟨t1, h1, l1⟩ := txRep_transferTx (txRep_transferRx h hw.rx) hw.txOk
    obtain ⟨t2, h2, l2⟩ := ih h1
    exact ⟨t2, h2, by omega⟩

theorem puts_transfers (s : Ser) (hs : List Hw) (P : Prop) : Puts s (s.transfers hs) [] P :=
  ⟨by simpa using (frame_transfers s hs).sent, (frame_transfers s hs).txSize, fun tq h _ => by
    simpa using txRep_transfers h hs⟩

theorem puts_sync (s : Ser) (P : Prop) : Puts s s.sync [] P := by
  unfold sync
  split
  · split
    · exact .refl s P
    · rename_i b bs _
      have h := puts_transfers { s with sched := bs } b P
      exact ⟨h.sent, h.size, fun tq ht hs => h.rep tq ⟨ht.tx, ht.txs⟩ hs⟩
  · exact .refl s P

/-- The transmit side does not change. -/
theorem Puts.same {a b c : Ser} {x : List Byte} {P : Prop} (h : Puts a b x P) (h1 : c.tx = b.tx) (h2 : c.wire = b.wire)
    (h3 : c.sent = b.sent) : Puts a c x P :=
  ⟨h3.trans h.sent, by rw [h1]; exact h.size, fun tq ht hs => by
    obtain ⟨t, r, l⟩ := h.rep tq ht hs
    exact ⟨t, ⟨by rw [h1]; exact r.tx, by rw [h2, h3]; exact r.txs⟩, l⟩⟩

theorem puts_bytesAvailable (s : Ser) (P : Prop) : Puts s s.bytesAvailable.1 [] P := (puts_sync s P).same rfl rfl rfl
theorem puts_spaceAvailable (s : Ser) (P : Prop) : Puts s s.spaceAvailable.1 [] P := (puts_sync s P).same rfl rfl rfl
theorem puts_read1 (s : Ser) (P : Prop) : Puts s s.read1.1 [] P := (puts_sync s P).same rfl rfl rfl
theorem puts_flush (s : Ser) (P : Prop) : Puts s s.flushReceiveBuffers [] P := (puts_sync s P).same rfl rfl rfl

theorem puts_readLoop (s : Ser) (n : Nat) (P : Prop) : Puts s (s.readLoop n).1 [] P := by
  induction n generalizing s with
  | zero => exact .refl s P
  | succ n ih => exact ((puts_read1 s P).trans (ih _)).of fun h => ⟨h, h⟩

theorem puts_read (s : Ser) (n : Nat) (P : Prop) : Puts s (s.read n).1 [] P :=
  ((puts_bytesAvailable s P).trans (puts_readLoop _ _ P)).of fun h => ⟨h, h⟩

theorem puts_copyToBuffer (s : Ser) (c : Byte) : Puts s (s.copyToBuffer c) [c] False := by
  have h := puts_sync s False
  refine ⟨by show s.sync.sent ++ [c] = _; rw [h.sent]; simp, ?_, fun tq ht hs => ?_⟩
  · show (s.sync.tx.push c).ring.size = _
    rw [← h.size]; rfl
  · rcases hs with hs | hs
    · exact hs.elim
    · simp at hs
      obtain ⟨t, r, l⟩ := h.rep tq ht (Or.inr (by simp; omega))
      simp at l
      refine ⟨t ++ [c], ⟨LineBuf.rep_push r.tx c (by rw [h.size]; omega), ?_⟩, by simp; omega⟩
      show s.sync.wire ++ (t ++ [c]) = s.sync.sent ++ [c]
      rw [← r.txs]; simp

theorem puts_writeLoop (s : Ser) (cs : List Byte) : Puts s (s.writeLoop cs) cs False := by
  induction cs generalizing s with
  | nil => exact .refl s False
  | cons c cs ih => exact ((puts_copyToBuffer s c).trans (ih _)).of fun h => ⟨h, h⟩

theorem puts_write (s : Ser) (cs : List Byte) (P : Prop) : Puts s (s.write cs).1 (cs.take (s.write cs).2) P := by
  have h1 := puts_spaceAvailable s P
  have h2 := puts_writeLoop s.spaceAvailable.1 (cs.take (s.write cs).2)
  have e : (s.write cs).1 = s.spaceAvailable.1.writeLoop (cs.take (s.write cs).2) := rfl
  rw [e]
  refine ⟨by rw [h2.sent, h1.sent]; simp, h2.size.trans h1.size, fun tq ht _ => ?_⟩
  obtain ⟨t1, r1, l1⟩ := (puts_spaceAvailable s True).rep tq ht (Or.inl trivial)
  simp at l1
  have hsp : s.spaceAvailable.2 = s.spaceAvailable.1.tx.ring.size - t1.length := by
    show s.sync.tx.ring.spaceAvailable = s.sync.tx.ring.size - t1.length
    have := r1.tx.ring.bytesAvailable
    simp only [Ring.bytesAvailable] at this
    simp only [Ring.spaceAvailable]
    have h : s.spaceAvailable.1.tx = s.sync.tx := rfl
    rw [h] at this
    omega
  have hle : t1.length ≤ s.spaceAvailable.1.tx.ring.size := r1.tx.ring.le
  have hn : (s.write cs).2 ≤ s.spaceAvailable.2 := by
    simp only [write]; split <;> omega
  obtain ⟨t2, r2, l2⟩ := h2.rep t1 r1 (Or.inr (by
    have := List.length_take_le (s.write cs).2 cs
    omega))
  exact ⟨t2, r2, by omega⟩

theorem takeWhile_take (cs : List Byte) (n : Nat) (h : n ≤ (cs.takeWhile (· ≠ 0)).length) :
    (cs.takeWhile (· ≠ 0)).take n = cs.take n := by
  have : cs = cs.takeWhile (· ≠ 0) ++ cs.dropWhile (· ≠ 0) := by simp
  conv => rhs; rw [this]
  rw [List.take_append_of_le_length h]

theorem puts_writeStr (s : Ser) (cs : List Byte) (P : Prop) :
    Puts s (s.writeStr cs).1 (cs.take (s.writeStr cs).2) P := by
  have h := puts_write s (cs.takeWhile (· ≠ 0)) P
  rw [writeStr_eq]
  rw [takeWhile_take] at h
  · exact h
  · simp only [write]; split <;> omega

theorem puts_flushLoop (n : Nat) (s : Ser) (P : Prop) : Puts s (flushLoop s n).1 [] P := by
  induction n generalizing s with
  | zero => exact .refl s P
  | succ n ih =>
    unfold flushLoop
    by_cases hz : s.bytesAvailable.2 = 0
    · simp only [hz, if_true]; exact puts_bytesAvailable s P
    · simp only [hz, if_false]
      exact (((puts_bytesAvailable s P).trans (puts_read1 _ P)).trans (ih _)).of fun h => ⟨⟨h, h⟩, h⟩

theorem puts_fillLoop {R : Type} (stop : Mem → Nat → Byte → Option R) (fuel : Nat) (s : Ser) (m : Mem) (k : Nat) (P : Prop) :
    Puts s (fillLoop stop fuel s m k).1 [] P := by
  induction fuel generalizing s m k with
  | zero => exact .refl s P
  | succ n ih =>
    unfold fillLoop
    by_cases hz : s.bytesAvailable.2 = 0
    · simp only [hz, if_true]; exact puts_bytesAvailable s P
    · simp only [hz, if_false]
      split
      · exact ((puts_bytesAvailable s P).trans (puts_read1 _ P)).of fun h => ⟨h, h⟩
      · exact (((puts_bytesAvailable s P).trans (puts_read1 _ P)).trans (ih _ _ _)).of fun h => ⟨⟨h, h⟩, h⟩

end Ser

variable {S R X : Type}

/-- The events from `d` to `e` account for what the serial device got. -/
def Out (d e : Dev S R X) : Prop :=
  ∃ new, e.trace = d.trace ++ new ∧ Ser.Puts d.ser e.ser (givenAll new) (new.all noPay = true)

theorem Out.refl (d : Dev S R X) : Out d d := ⟨[], by simp, .refl _ _⟩

theorem Out.trans {a b c : Dev S R X} (h : Out a b) (k : Out b c) : Out a c := by
  obtain ⟨x, h1, h2⟩ := h
  obtain ⟨y, k1, k2⟩ := k
  refine ⟨x ++ y, by rw [k1, h1, List.append_assoc], ?_⟩
  have := h2.trans k2
  simp only [givenAll, List.flatMap_append] at this ⊢
  exact this.of fun h => by simpa using h

theorem Out.silent {d e : Dev S R X} (ht : e.trace = d.trace) (h : ∀ P, Ser.Puts d.ser e.ser [] P) : Out d e :=
  ⟨[], by simp [ht], h _⟩

theorem Out.event {d e : Dev S R X} (ev : Ev) (ht : e.trace = d.trace ++ [ev])
    (h : Ser.Puts d.ser e.ser (given ev) (noPay ev = true)) : Out d e :=
  ⟨[ev], ht, by simpa [givenAll] using h⟩

theorem Dev.Eff.out {x : List Byte → Byte → Prop} {st : Bool} {d e : Dev S R X} (h : Eff x st d e) : Out d e := by
  induction h with
  | ctl h => exact .silent h.trace fun P => by rw [h.ser]; exact .refl _ P
  | cmd d s => exact .event (.cmd s _) rfl (Ser.puts_writeStr _ _ _)
  | arg d s => exact .event (.arg s _) rfl (Ser.puts_writeStr _ _ _)
  | cmdN d s => exact .event (.cmd s _) rfl (Ser.puts_write _ _ _)
  | argN d s => exact .event (.arg s _) rfl (Ser.puts_write _ _ _)
  | askSpace d => exact .silent rfl fun P => Ser.puts_spaceAvailable _ P
  | askAvail d => exact .silent rfl fun P => Ser.puts_bytesAvailable _ P
  | flushSer d => exact .event .flush rfl (Ser.puts_flush _ _)
  | flushReadBuffer d _ => exact .event (.drop _) rfl (Ser.puts_flushLoop _ _ _)
  | sendData d => exact .event (.pay _) rfl ((Ser.puts_writeLoop _ _).of (by simp [noPay]))
  | receive d _ =>
    unfold Dev.receive
    split
    · exact .event (.data _) rfl (((Ser.puts_bytesAvailable _ _).trans (Ser.puts_readLoop _ _ _)).of fun h => ⟨h, h⟩)
    · exact .silent rfl fun P => Ser.puts_bytesAvailable _ P
  | fillLine d stop _ =>
    unfold Dev.fillLine
    split
    · dsimp only
      split
      · exact .silent rfl fun P => Ser.puts_fillLoop _ _ _ _ _ P
      · exact .event (.line _) rfl (Ser.puts_fillLoop _ _ _ _ _ _)
    · exact .refl d
  | trans _ _ h k => exact h.trans k

theorem out_common (d : Dev S R X) (op : Op) : Out d (d.common op) := by
  cases op with
  | irq hs => exact .silent rfl fun P => Ser.puts_transfers _ _ P
  | closePort => exact .refl d
  | disconnect =>
    exact .event .apiDisconnect (by simp [Dev.common]) (by simp [Dev.common, given]; exact .refl _ _)
  | setHostPort => exact .refl d
  | write bs =>
    exact .event (.apiWrite _) (by simp [Dev.common]; rfl) (by simp [Dev.common, given]; exact .refl _ _)
  | read n =>
    exact .event (.apiRead _) (by simp [Dev.common]; rfl) (by simp [Dev.common, given]; exact .refl _ _)
  | requestRSSI => exact .refl d
  | serialWrite s =>
    simp only [Dev.common, Dev.serialWrite]
    split
    · exact .event (.userTx _) rfl (Ser.puts_writeStr _ _ _)
    · exact .refl d
  | serialRead n =>
    simp only [Dev.common, Dev.serialRead]
    split
    · exact .event (.userRx _) rfl (Ser.puts_read _ _ _)
    · exact .refl d
  | _ => exact .refl d

theorem out_logConnect {d : Dev S R X} {r : Dev S R X × Bool} (h1 : r.1.ser = d.ser) (h2 : r.1.trace = d.trace) :
    Out d (Dev.logConnect r) := by
  unfold Dev.logConnect
  split
  · exact .event .apiConnect (by simp [Dev.log, h2]) (by simp only [Dev.log]; rw [h1]; exact .refl _ _)
  · exact .silent h2 fun P => by rw [h1]; exact .refl _ P

theorem Sim7x00.out_step (p : Platform) (d : D) (op : Op) : Out d (step p d op) := by
  cases op with
  | run ok => exact (eff_run (x := NoHeader) (st := false) p d ok (by simp)).out
  | connect => exact out_logConnect (by simp) (by simp)
  | resetStates => exact .event .apiReset rfl (Ser.puts_flush _ _)
  | serialLock =>
    simp only [step, SimDev.serialLock]
    split <;> exact .refl d
  | setApn | serialUnlock | requestID => exact .refl d
  | _ => simp only [step]; exact out_common d _

theorem Sim800.out_step (p : Platform) (d : D) (op : Op) : Out d (step p d op) := by
  cases op with
  | run ok => exact (eff_run (x := NoHeader) (st := false) p d ok (by simp)).out
  | connect => exact out_logConnect (by simp) (by simp)
  | resetStates => exact .event .apiReset rfl (Ser.puts_flush _ _)
  | serialLock =>
    simp only [step, SimDev.serialLock]
    split <;> exact .refl d
  | setApn | serialUnlock | requestID => exact .refl d
  | _ => simp only [step]; exact out_common d _

theorem Espressif.out_step (p : Platform) (d : D) (op : Op) : Out d (step p d op) := by
  cases op with
  | run ok => exact (eff_run (st := false) p d ok (by simp)).out
  | connect => exact out_logConnect (by simp) (by simp)
  | resetStates => exact .event .apiReset rfl (Ser.puts_flush _ _)
  | setSSID | setPassword | requestMac => exact .refl d
  | _ => simp only [step]; exact out_common d _

theorem CC1352P7.out_step (p : Platform) (d : D) (op : Op) : Out d (step p d op) := by
  cases op with
  | run ok => exact (eff_run (x := NoHeader) (st := false) p d ok (by simp)).out
  | connect => exact out_logConnect (by simp) (by simp)
  | resetStates => exact .event .apiReset rfl (Ser.puts_flush _ _)
  | requestMac => exact .refl d
  | _ => simp only [step]; exact out_common d _

/-- What has left the transmit buffer, and what is in it, is what the driver handed over. -/
def Carried (d : Dev S R X) : Prop := ∃ tq, d.ser.TxRep tq ∧ d.ser.sent = givenAll d.trace

theorem Out.sent {d e : Dev S R X} (h : Out d e) (hd : d.ser.sent = givenAll d.trace) : e.ser.sent = givenAll e.trace := by
  obtain ⟨new, h1, h2⟩ := h
  rw [h1, h2.sent, hd]
  simp [givenAll]

theorem Out.carried {d e : Dev S R X} (h : Out d e) (hf : PayFits d e) (hd : Carried d) : Carried e := by
  obtain ⟨tq, h1, h2⟩ := hd
  have hs := h.sent h2
  obtain ⟨new, ht, hp⟩ := h
  simp only [PayFits, ht, List.drop_left] at hf
  obtain ⟨t, r, _⟩ := hp.rep tq h1 (hf.imp_right fun hf => by
    have a := h1.tx.ring.bytesAvailable
    have b := h1.tx.ring.le
    simp only [Ring.bytesAvailable] at a
    simp only [Ring.spaceAvailable] at hf
    omega)
  exact ⟨t, r, hs⟩

theorem exec_sent {step : Dev S R X → Op → Dev S R X} (hs : ∀ d op, Out d (step d op)) {d : Dev S R X}
    (hd : d.ser.sent = givenAll d.trace) (ops : List Op) : (exec step d ops).ser.sent = givenAll (exec step d ops).trace := by
  induction ops generalizing d with
  | nil => exact hd
  | cons o os ih => exact ih ((hs d o).sent hd)

theorem exec_carried {step : Dev S R X → Op → Dev S R X} (hs : ∀ d op, Out d (step d op)) {d : Dev S R X}
    (hd : Carried d) (ops : List Op)
    (hf : Stepwise step PayFits d ops) : Carried (exec step d ops) := by
  induction ops generalizing d with
  | nil => exact hd
  | cons o os ih =>
    exact ih ((hs d o).carried (hf [] o os rfl) hd) fun a o' b e => hf (o :: a) o' b (by rw [e]; rfl)

theorem Carried.carries {d : Dev S R X} (h : Carried d) : Carries d := by
  obtain ⟨q, h1, h2⟩ := h
  have h3 := h1.txs
  rw [h2] at h3
  refine ⟨⟨q, h3⟩, ?_⟩
  rw [← h3, List.length_append, ← h1.tx.ring.bytesAvailable]

/-- Every step meets the test. -/
def stepsAll {D : Type} (step : D → Op → D) (f : D → D → Bool) : D → List Op → Bool
  | _, [] => true
  | d, o :: os => f d (step d o) && stepsAll step f (step d o) os

theorem stepwise_all {D : Type} {step : D → Op → D} {P : D → D → Prop} {f : D → D → Bool} (hf : ∀ d e, f d e = true → P d e)
    {d : D} {ops : List Op} (h : stepsAll step f d ops = true) : Stepwise step P d ops := by
  induction ops generalizing d with
  | nil => intro pre op post e; simp at e
  | cons o os ih =>
    simp only [stepsAll, Bool.and_eq_true] at h
    intro pre op post e
    cases pre with
    | nil =>
      simp only [List.nil_append, List.cons.injEq] at e
      rw [← e.1]; exact hf _ _ h.1
    | cons x pre =>
      simp only [List.cons_append, List.cons.injEq] at e
      rw [← e.1]
      exact ih h.2 pre op post e.2

theorem stepwise_of {step : Dev S R X → Op → Dev S R X} {d : Dev S R X} {ops : List Op}
    (h : stepsAll step (fun d e => (e.trace.drop d.trace.length).all noPay || decide (d.ser.tx.ring.bytesAvailable = 0)) d ops = true) :
    Stepwise step PayWhenDrained d ops :=
  stepwise_all (fun d e h => by simpa [PayWhenDrained] using h) h

end Verif
