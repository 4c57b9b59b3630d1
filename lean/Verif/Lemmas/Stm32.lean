import Verif.Model.Stm32Uart
import Verif.Lemmas.Serial

/-! Lemmas about the STM32 UART. -/

namespace Verif.Stm32

/-- The transmit half of the serial device represents the queue `tq`. -/
structure TxRep (s : Ser) (tq : List Byte) : Prop where
  tx : LineBuf.Rep s.tx tq
  txs : s.wire ++ tq = s.sent
  sched : s.sched = []

theorem TxRep.available {s : Ser} {tq} (h : TxRep s tq) : s.tx.ring.bytesAvailable = tq.length :=
  h.tx.ring.bytesAvailable

theorem sync_nil {s : Ser} (h : s.sched = []) : s.sync = s := by
  unfold Ser.sync; rw [h]; split <;> rfl

theorem TxRep.transferRx {s : Ser} {tq} (h : TxRep s tq) (c : Option Byte) :
    TxRep (s.transferRx c) tq := by
  unfold Ser.transferRx
  split
  · exact h
  · dsimp only; split <;> exact ⟨h.tx, h.txs, h.sched⟩

theorem transferRx_wire (s : Ser) (c : Option Byte) : (s.transferRx c).wire = s.wire := by
  unfold Ser.transferRx
  split
  · rfl
  · dsimp only; split <;> rfl

theorem transferRx_tx (s : Ser) (c : Option Byte) : (s.transferRx c).tx = s.tx := by
  unfold Ser.transferRx
  split
  · rfl
  · dsimp only; split <;> rfl

theorem TxRep.transferTx {s : Ser} {tq} (h : TxRep s tq) (ok : Bool) :
    TxRep (s.transferTx ok) (if ok then tq.tail else tq) ∧
    (s.transferTx ok).wire = s.wire ++ (if ok then tq.take 1 else []) := by
  cases tq with
  | nil =>
    have : s.tx.ring.bytesAvailable = 0 := h.available
    simp [Ser.transferTx, this, h]
  | cons c tq =>
    have hne : s.tx.ring.bytesAvailable ≠ 0 := by rw [h.available]; simp
    have hpk := Ring.rep_peek h.tx.ring
    cases ok with
    | false =>
      simp only [Ser.transferTx, hne, ne_eq, not_false_eq_true, if_true, hpk.1]
      exact ⟨⟨h.tx, h.txs, h.sched⟩, by simp⟩
    | true =>
      simp only [Ser.transferTx, hne, ne_eq, not_false_eq_true, if_true, hpk.1, hpk.2]
      have hp := LineBuf.rep_pull h.tx
      refine ⟨⟨hp.1, ?_, h.sched⟩, by simp⟩
      have := h.txs
      simpa using this

theorem TxRep.transfer {s : Ser} {tq} (h : TxRep s tq) (hw : Hw) :
    TxRep (s.transfer hw) (if hw.txOk then tq.tail else tq) ∧
    (s.transfer hw).wire = s.wire ++ (if hw.txOk then tq.take 1 else []) := by
  have := (h.transferRx hw.rx).transferTx hw.txOk
  rw [transferRx_wire] at this
  exact this

theorem transfer_size (s : Ser) (h : Hw) : (s.transfer h).tx.ring.size = s.tx.ring.size :=
  (Ser.frame_transfer s h).txSize

theorem transfer_sent (s : Ser) (h : Hw) : (s.transfer h).sent = s.sent :=
  (Ser.frame_transfer s h).sent

/-! ## The invariant of the transmit interrupt -/

/-- Data that are not on their way: none, unless the main program is about to start the
transmission. -/
def Armed (u : Uart) : Prop := u.pc ≠ .idle ∨ u.txeie = true ∨ u.ser.tx.ring.bytesAvailable = 0

/-- Not `open()` or `close()`. -/
def Stays : Act → Prop
  | .callOpen .. => False
  | .callClose .. => False
  | _ => True

theorem read1_tx {s : Ser} (h : s.sched = []) :
    s.read1.1.tx = s.tx ∧ s.read1.1.wire = s.wire ∧ s.read1.1.sent = s.sent ∧
      s.read1.1.sched = [] := by
  unfold Ser.read1
  simp only [sync_nil h]
  exact ⟨rfl, rfl, rfl, h⟩

theorem flush_tx {s : Ser} (h : s.sched = []) :
    s.flushReceiveBuffers.tx = s.tx ∧ s.flushReceiveBuffers.wire = s.wire ∧
      s.flushReceiveBuffers.sent = s.sent ∧ s.flushReceiveBuffers.sched = [] := by
  unfold Ser.flushReceiveBuffers
  simp only [sync_nil h]
  exact ⟨rfl, rfl, rfl, h⟩

theorem space_tx {s : Ser} (h : s.sched = []) :
    s.spaceAvailable.1.tx = s.tx ∧ s.spaceAvailable.1.wire = s.wire ∧
      s.spaceAvailable.1.sent = s.sent ∧ s.spaceAvailable.1.sched = [] ∧
      s.spaceAvailable.2 = s.tx.ring.spaceAvailable := by
  unfold Ser.spaceAvailable
  simp only [sync_nil h]
  exact ⟨rfl, rfl, rfl, h, rfl⟩

/-- What stays while the port is open. -/
structure Run (u : Uart) : Prop where
  clk : u.clk = true
  nvic : u.nvic = true
  sched : u.ser.sched = []

theorem copy_sched {s : Ser} (h : s.sched = []) (c : Byte) : (s.copyToBuffer c).sched = [] := by
  unfold Ser.copyToBuffer
  simp only [sync_nil h]
  exact h

theorem step_run {u : Uart} (h : Run u) (a : Act) (ha : Stays a) : Run (step u a) := by
  obtain ⟨h1, h2, h3⟩ := h
  cases a with
  | callWrite data =>
    unfold step; dsimp only; split
    · exact ⟨h1, h2, (space_tx h3).2.2.2.1⟩
    · exact ⟨h1, h2, h3⟩
  | callWrite1 c => unfold step; dsimp only; split <;> exact ⟨h1, h2, h3⟩
  | go =>
    show Run (go u)
    unfold go
    split
    · exact ⟨h1, h2, h3⟩
    · exact ⟨h1, h2, copy_sched h3 _⟩
    · exact ⟨h1, h2, h3⟩
    · exact ⟨h1, h2, h3⟩
    · split <;> exact ⟨h1, h2, h3⟩
  | callRead =>
    unfold step; dsimp only; split
    · exact ⟨h1, h2, (read1_tx h3).2.2.2⟩
    · exact ⟨h1, h2, h3⟩
  | callFlush =>
    unfold step; dsimp only; split
    · exact ⟨h1, h2, (flush_tx h3).2.2.2⟩
    · exact ⟨h1, h2, h3⟩
  | event h =>
    unfold step; dsimp only; split
    · exact ⟨h1, h2, (Ser.sched_transfer _ _).trans h3⟩
    · exact ⟨h1, h2, h3⟩
  | callOpen => exact ha.elim
  | callClose => exact ha.elim

theorem step_armed {u : Uart} (h : Run u) (hA : Armed u) (a : Act) (ha : Stays a) :
    Armed (step u a) := by
  cases a with
  | callWrite data =>
    unfold step; dsimp only; split
    · exact Or.inl (by simp)
    · exact hA
  | callWrite1 c =>
    unfold step; dsimp only; split
    · exact Or.inl (by simp)
    · exact hA
  | go =>
    show Armed (go u)
    unfold go
    split
    · exact hA
    · exact Or.inl (by simp)
    · exact Or.inl (by simp)
    · exact Or.inl (by simp)
    · rw [if_pos h.clk]; exact Or.inr (Or.inl rfl)
  | callRead =>
    unfold step; dsimp only; split
    · rcases hA with hA | hA | hA
      · exact Or.inl hA
      · exact Or.inr (Or.inl hA)
      · exact Or.inr (Or.inr (by simpa [(read1_tx h.sched).1] using hA))
    · exact hA
  | callFlush =>
    unfold step; dsimp only; split
    · rcases hA with hA | hA | hA
      · exact Or.inl hA
      · exact Or.inr (Or.inl hA)
      · exact Or.inr (Or.inr (by simpa [(flush_tx h.sched).1] using hA))
    · exact hA
  | event hw =>
    unfold step; dsimp only; split
    · unfold handleInterrupt; dsimp only
      by_cases he : (u.ser.transfer hw).tx.ring.bytesAvailable = 0
      · exact Or.inr (Or.inr he)
      · rcases hA with hA | hA | hA
        · exact Or.inl hA
        · refine Or.inr (Or.inl ?_)
          show (if _ then false else u.txeie) = true
          rw [if_neg he]; exact hA
        · exfalso
          apply he
          have e : (u.ser.transfer hw).tx = u.ser.tx := by
            unfold Ser.transfer Ser.transferTx
            rw [transferRx_tx]
            rw [if_neg (by simp [hA])]
            exact transferRx_tx _ _
          rw [e]; exact hA
    · exact hA
  | callOpen => exact ha.elim
  | callClose => exact ha.elim

theorem exec_armed (as : List Act) {u : Uart} (h : Run u) (hA : Armed u) (ha : ∀ a ∈ as, Stays a) :
    Run (exec u as) ∧ Armed (exec u as) := by
  induction as generalizing u with
  | nil => exact ⟨h, hA⟩
  | cons a as ih =>
    exact ih (step_run h a (ha a (by simp))) (step_armed h hA a (ha a (by simp)))
      (fun b hb => ha b (by simp [hb]))

theorem exec_run (as : List Act) {u : Uart} (h : Run u) (ha : ∀ a ∈ as, Stays a) :
    Run (exec u as) := by
  induction as generalizing u with
  | nil => exact h
  | cons a as ih =>
    exact ih (step_run h a (ha a (by simp))) (fun b hb => ha b (by simp [hb]))

/-! ## The receive interrupt -/

/-- RXNEIE is set and will be set after the running `startTransmit()`. -/
def RxOn (u : Uart) : Prop := u.rxneie = true ∧ ∀ r, u.pc = .store r → r = true

theorem step_rxOn {u : Uart} (h : RxOn u) (a : Act) (ha : Stays a) : RxOn (step u a) := by
  cases a with
  | callWrite data =>
    unfold step; dsimp only; split
    · exact ⟨h.1, by simp⟩
    · exact h
  | callWrite1 c =>
    unfold step; dsimp only; split
    · exact ⟨h.1, by simp⟩
    · exact h
  | go =>
    show RxOn (go u)
    unfold go
    split
    · exact h
    · exact ⟨h.1, by simp⟩
    · exact ⟨h.1, by simp⟩
    · exact ⟨h.1, by simp [h.1]⟩
    · rename_i r hr
      split
      · exact ⟨h.2 r hr, by simp⟩
      · exact ⟨h.1, by simp⟩
  | callRead => unfold step; dsimp only; split <;> exact ⟨h.1, h.2⟩
  | callFlush => unfold step; dsimp only; split <;> exact ⟨h.1, h.2⟩
  | event hw => unfold step; dsimp only; split <;> exact ⟨h.1, h.2⟩
  | callOpen => exact ha.elim
  | callClose => exact ha.elim

/-! ## The stream -/

/-- What is still to be copied. -/
def rest (u : Uart) : List Byte :=
  match u.pc with
  | .copy r => r
  | _ => []

/-- The data of all `write` calls, as far as accepted, in order: `u0` is the state when they start. -/
structure Stream (u : Uart) (tq : List Byte) : Prop where
  rep : TxRep u.ser tq
  fits : tq.length + (rest u).length ≤ u.ser.tx.ring.size

/-- Not the single byte `write`, which does not check for space. -/
def Checked : Act → Prop
  | .callWrite1 _ => False
  | _ => True

theorem step_stream {u : Uart} {tq} (h : Stream u tq) (a : Act) (ha : Checked a) :
    ∃ tq', Stream (step u a) tq' := by
  obtain ⟨hr, hf⟩ := h
  cases a with
  | callWrite data =>
    unfold step; dsimp only; split
    · obtain ⟨e1, e2, e3, e4, e5⟩ := space_tx hr.sched
      refine ⟨tq, ⟨⟨by rw [e1]; exact hr.tx, by rw [e2, e3]; exact hr.txs, e4⟩, ?_⟩⟩
      show tq.length + (data.take _).length ≤ u.ser.spaceAvailable.1.tx.ring.size
      rw [e1, e5, hr.tx.ring.spaceAvailable, List.length_take]
      have := hr.tx.ring.le
      omega
    · exact ⟨tq, ⟨hr, hf⟩⟩
  | callWrite1 c => exact ha.elim
  | go =>
    show ∃ tq', Stream (go u) tq'
    unfold go
    split
    · exact ⟨tq, ⟨hr, hf⟩⟩
    · rename_i c cs hpc
      have hl : tq.length + (cs.length + 1) ≤ u.ser.tx.ring.size := by
        simpa [rest, hpc] using hf
      have hp := LineBuf.rep_push hr.tx c (by omega)
      refine ⟨tq ++ [c], ⟨⟨?_, ?_, copy_sched hr.sched c⟩, ?_⟩⟩
      · unfold Ser.copyToBuffer; simp only [sync_nil hr.sched]; exact hp
      · unfold Ser.copyToBuffer; simp only [sync_nil hr.sched]
        show u.ser.wire ++ (tq ++ [c]) = u.ser.sent ++ [c]
        rw [← hr.txs, List.append_assoc]
      · unfold Ser.copyToBuffer; simp only [sync_nil hr.sched]
        show (tq ++ [c]).length + cs.length ≤ (u.ser.tx.push c).ring.size
        rw [show (u.ser.tx.push c).ring.size = u.ser.tx.ring.size from by simp [LineBuf.push, Ring.push]]
        simp; omega
    · rename_i hpc; exact ⟨tq, ⟨hr, by simpa [rest, hpc] using hf⟩⟩
    · rename_i hpc; exact ⟨tq, ⟨hr, by simpa [rest, hpc] using hf⟩⟩
    · rename_i r hpc
      split <;> exact ⟨tq, ⟨hr, by simpa [rest, hpc] using hf⟩⟩
  | callRead =>
    unfold step; dsimp only; split
    · obtain ⟨e1, e2, e3, e4⟩ := read1_tx hr.sched
      refine ⟨tq, ⟨⟨by rw [e1]; exact hr.tx, by rw [e2, e3]; exact hr.txs, e4⟩, ?_⟩⟩
      show tq.length + _ ≤ u.ser.read1.1.tx.ring.size
      rw [e1]; exact hf
    · exact ⟨tq, ⟨hr, hf⟩⟩
  | callFlush =>
    unfold step; dsimp only; split
    · obtain ⟨e1, e2, e3, e4⟩ := flush_tx hr.sched
      refine ⟨tq, ⟨⟨by rw [e1]; exact hr.tx, by rw [e2, e3]; exact hr.txs, e4⟩, ?_⟩⟩
      show tq.length + _ ≤ u.ser.flushReceiveBuffers.tx.ring.size
      rw [e1]; exact hf
    · exact ⟨tq, ⟨hr, hf⟩⟩
  | event hw =>
    unfold step; dsimp only; split
    · refine ⟨_, ⟨(hr.transfer hw).1, ?_⟩⟩
      show _ + (rest u).length ≤ (u.ser.transfer hw).tx.ring.size
      rw [transfer_size]
      have : (if hw.txOk then tq.tail else tq).length ≤ tq.length := by split <;> simp
      omega
    · exact ⟨tq, ⟨hr, hf⟩⟩
  | callOpen ok kt kr =>
    unfold step openPort; dsimp only
    split
    · split <;> exact ⟨tq, ⟨hr, hf⟩⟩
    · exact ⟨tq, ⟨hr, hf⟩⟩
  | callClose => unfold step closePort; dsimp only; split <;> exact ⟨tq, ⟨hr, hf⟩⟩

theorem exec_stream (as : List Act) {u : Uart} {tq} (h : Stream u tq) (ha : ∀ a ∈ as, Checked a) :
    ∃ tq', Stream (exec u as) tq' := by
  induction as generalizing u tq with
  | nil => exact ⟨tq, h⟩
  | cons a as ih =>
    obtain ⟨t, ht⟩ := step_stream h a (ha a (by simp))
    exact ih ht (fun b hb => ha b (by simp [hb]))

theorem init_stream (rmem wmem : List Byte) : Stream (init rmem wmem) [] :=
  ⟨⟨LineBuf.rep_init _, rfl, rfl⟩, Nat.zero_le _⟩

/-! ## Draining -/

/-- A sequence of hardware events. -/
def events (hs : List Hw) : List Act := hs.map .event

theorem exec_events_cons (u : Uart) (h : Hw) (hs : List Hw) :
    exec u (events (h :: hs)) = exec (step u (.event h)) (events hs) := rfl

theorem drain (hs : List Hw) (hok : ∀ h ∈ hs, h.txOk = true) {u : Uart} {tq : List Byte}
    (hn : u.nvic = true) (hr : TxRep u.ser tq) (ht : tq = [] ∨ u.txeie = true)
    (hl : hs.length = tq.length) :
    TxRep (exec u (events hs)).ser [] ∧ (exec u (events hs)).ser.wire = u.ser.wire ++ tq ∧
      (hs ≠ [] → (exec u (events hs)).txeie = false) := by
  induction hs generalizing u tq with
  | nil =>
    have : tq = [] := by cases tq <;> simp_all
    subst this
    exact ⟨hr, by simp [exec, events], by simp⟩
  | cons h hs ih =>
    cases tq with
    | nil => simp at hl
    | cons c tq =>
      have htx : u.txeie = true := by simpa using ht
      have hok' : h.txOk = true := hok h (by simp)
      have hf : fires u h = true := by simp [fires, hn, hok', htx]
      have e : step u (.event h) = handleInterrupt u h := by simp [step, hf]
      rw [exec_events_cons, e]
      obtain ⟨r1, w1⟩ := hr.transfer h
      rw [if_pos hok'] at r1 w1
      have hl' : hs.length = tq.length := by simpa using hl
      have key : tq = [] ∨ (handleInterrupt u h).txeie = true := by
        cases tq with
        | nil => exact Or.inl rfl
        | cons b bs =>
          right
          show (if _ then false else u.txeie) = true
          rw [if_neg (by rw [r1.available]; simp)]; exact htx
      obtain ⟨a1, a2, a3⟩ := ih (fun x hx => hok x (by simp [hx])) (u := handleInterrupt u h)
        (tq := tq) hn r1 key hl'
      refine ⟨a1, ?_, fun _ => ?_⟩
      · rw [a2]
        show (u.ser.transfer h).wire ++ tq = _
        rw [w1]; simp
      · cases hs with
        | nil =>
          have : tq = [] := by cases tq <;> simp_all
          subst this
          show (if _ then false else u.txeie) = false
          rw [if_pos (by rw [r1.available]; rfl)]
        | cons => exact a3 (by simp)

theorem events_none (hs : List Hw) (hrx : ∀ h ∈ hs, h.rx = none) {u : Uart} (ht : u.txeie = false) :
    exec u (events hs) = u := by
  induction hs generalizing u with
  | nil => rfl
  | cons h hs ih =>
    have hf : fires u h = false := by simp [fires, ht, hrx h (by simp)]
    have e : step u (.event h) = u := by simp [step, hf]
    rw [exec_events_cons, e]
    exact ih (fun x hx => hrx x (by simp [hx])) ht

/-! ## The write call and its bytes -/

/-- Not the begin of another write call. -/
def NoCall : Act → Prop
  | .callWrite _ => False
  | .callWrite1 _ => False
  | _ => True

theorem step_sent {u : Uart} (h : u.ser.sched = []) (a : Act) (ha : NoCall a) :
    (step u a).ser.sent ++ rest (step u a) = u.ser.sent ++ rest u ∧ (step u a).ser.sched = [] := by
  cases a with
  | callWrite data => exact ha.elim
  | callWrite1 c => exact ha.elim
  | go =>
    show (go u).ser.sent ++ rest (go u) = _ ∧ (go u).ser.sched = []
    unfold go
    split
    · exact ⟨rfl, h⟩
    · rename_i c cs hpc
      refine ⟨?_, copy_sched h c⟩
      have e : (u.ser.copyToBuffer c).sent = u.ser.sent ++ [c] := by
        unfold Ser.copyToBuffer; simp only [sync_nil h]; rfl
      show (u.ser.copyToBuffer c).sent ++ cs = _
      rw [e]; simp [rest, hpc]
    · rename_i hpc; exact ⟨by simp [rest, hpc], h⟩
    · rename_i hpc; exact ⟨by simp [rest, hpc], h⟩
    · rename_i r hpc
      split <;> exact ⟨by simp [rest, hpc], h⟩
  | callRead =>
    unfold step; dsimp only; split
    · obtain ⟨e1, e2, e3, e4⟩ := read1_tx h
      refine ⟨?_, e4⟩
      show u.ser.read1.1.sent ++ _ = _
      rw [e3]; rfl
    · exact ⟨rfl, h⟩
  | callFlush =>
    unfold step; dsimp only; split
    · obtain ⟨e1, e2, e3, e4⟩ := flush_tx h
      refine ⟨?_, e4⟩
      show u.ser.flushReceiveBuffers.sent ++ _ = _
      rw [e3]; rfl
    · exact ⟨rfl, h⟩
  | event hw =>
    unfold step; dsimp only; split
    · refine ⟨?_, (Ser.sched_transfer _ _).trans h⟩
      show (u.ser.transfer hw).sent ++ rest u = _
      rw [transfer_sent]
    · exact ⟨rfl, h⟩
  | callOpen ok kt kr =>
    unfold step openPort; dsimp only
    split
    · split <;> exact ⟨rfl, h⟩
    · exact ⟨rfl, h⟩
  | callClose => unfold step closePort; dsimp only; split <;> exact ⟨rfl, h⟩

theorem exec_sent (as : List Act) {u : Uart} (h : u.ser.sched = []) (ha : ∀ a ∈ as, NoCall a) :
    (exec u as).ser.sent ++ rest (exec u as) = u.ser.sent ++ rest u := by
  induction as generalizing u with
  | nil => rfl
  | cons a as ih =>
    obtain ⟨e, s⟩ := step_sent h a (ha a (by simp))
    exact (ih s (fun b hb => ha b (by simp [hb]))).trans e

/-! ## The table of instances -/

/-- The slots after `k` constructions. -/
def filled (n k : Nat) : List (Option Nat) :=
  (List.range (min n k)).map some ++ List.replicate (n - k) none

theorem fillSlot_some (i : Nat) (l : List Nat) (r : List (Option Nat)) :
    fillSlot i (l.map some ++ r) = l.map some ++ fillSlot i r := by
  induction l with
  | nil => rfl
  | cons a l ih => simp [fillSlot, ih]

theorem fillSlot_filled (n k : Nat) : fillSlot k (filled n k) = filled n (k + 1) := by
  unfold filled
  rw [fillSlot_some]
  by_cases h : k < n
  · obtain ⟨m, hm⟩ : ∃ m, n - k = m + 1 := ⟨n - k - 1, by omega⟩
    have e1 : min n k = k := by omega
    have e2 : min n (k + 1) = k + 1 := by omega
    have e3 : n - (k + 1) = m := by omega
    rw [hm, e1, e2, e3, List.replicate_succ, List.range_succ]
    simp [fillSlot]
  · have e1 : min n k = n := by omega
    have e2 : min n (k + 1) = n := by omega
    have e3 : n - k = 0 := by omega
    have e4 : n - (k + 1) = 0 := by omega
    rw [e1, e2, e3, e4]
    simp [fillSlot]

theorem objs_slots (n : Nat) (ops : List ObjOp) :
    (Objs.exec n ops).slots = filled n (Objs.exec n ops).objs.length := by
  unfold Objs.exec
  suffices h : ∀ o : Objs, o.slots = filled n o.objs.length →
      (ops.foldl Objs.step o).slots = filled n (ops.foldl Objs.step o).objs.length by
    apply h
    simp [Objs.start, filled]
  induction ops with
  | nil => intro o h; exact h
  | cons op ops ih =>
    intro o h
    apply ih
    cases op with
    | new u =>
      show fillSlot o.objs.length o.slots = filled n (o.objs ++ [(u, true)]).length
      rw [h, fillSlot_filled]; simp
    | delete i =>
      show o.slots = filled n (o.objs.modify i _).length
      rw [List.length_modify]; exact h

theorem findSlot_none (objs : List (Nat × Bool)) (u k : Nat) :
    findSlot objs u (List.replicate k none) = none := by
  induction k with
  | zero => rfl
  | succ k ih => simpa [List.replicate_succ, findSlot] using ih

theorem findSlot_append (objs : List (Nat × Bool)) (u k : Nat) (l : List Nat) :
    findSlot objs u (l.map some ++ List.replicate k none) =
      l.find? (fun j => (objs[j]?.map Prod.fst) = some u) := by
  induction l with
  | nil => simpa using findSlot_none objs u k
  | cons a l ih =>
    simp only [List.map_cons, List.cons_append, findSlot, List.find?_cons]
    split
    · rename_i h; simp [h]
    · rename_i h; simp [h, ih]

/-- The UARTs of the constructed objects, in order. -/
def uarts : List ObjOp → List Nat
  | [] => []
  | .new u :: r => u :: uarts r
  | .delete _ :: r => uarts r

theorem objs_uarts (n : Nat) (ops : List ObjOp) :
    (Objs.exec n ops).objs.map Prod.fst = uarts ops := by
  unfold Objs.exec
  suffices h : ∀ o : Objs, (ops.foldl Objs.step o).objs.map Prod.fst =
      o.objs.map Prod.fst ++ uarts ops by
    simpa [Objs.start] using h (Objs.start n)
  induction ops with
  | nil => intro o; simp [uarts]
  | cons op ops ih =>
    intro o
    rw [List.foldl_cons, ih]
    cases op with
    | new u => simp [Objs.step, Objs.new, uarts]
    | delete i =>
      show (o.objs.modify i _).map Prod.fst ++ _ = _
      congr 1
      apply List.ext_getElem?
      intro k
      rw [List.getElem?_map, List.getElem?_map, List.getElem?_modify]
      by_cases hk : i = k
      · subst hk; cases o.objs[i]? <;> simp
      · simp [hk]

theorem find_range (f : Nat → Bool) (m i : Nat) :
    (List.range m).find? f = some i ↔ i < m ∧ f i = true ∧ ∀ j < i, f j = false := by
  rw [List.find?_range_eq_some]
  simp only [List.mem_range]
  constructor
  · rintro ⟨a, b, c⟩; exact ⟨b, a, fun j hj => by simpa using c j hj⟩
  · rintro ⟨a, b, c⟩; exact ⟨b, a, fun j hj => by simpa using c j hj⟩

end Verif.Stm32
