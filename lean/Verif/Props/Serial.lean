import Verif.Lemmas.Serial

/-!
# Properties C08, C10–C16: the buffered serial device under interrupts
-/

namespace Verif.Props.Serial

open Verif Verif.Spec

/-- Calls an application makes, including closing and opening its own critical section. -/
inductive SOp where
  | bytesAvailable
  | spaceAvailable
  | read (size : Nat)
  | read1
  | write (data : List Byte)
  | writeStr (data : List Byte)
  | write1 (c : Byte)
  | canReadLine
  | readLine (size : Nat)
  | flush
  | disableInterrupts
  | enableInterrupts

/-- Results. -/
inductive SOut where
  | unit
  | num (n : Nat)
  | flag (b : Bool)
  | bytes (cs : List Byte)
  | line (stored : List Byte) (ret : Nat)
deriving DecidableEq

/-- One call. -/
def call (s : Ser) : SOp → Ser × SOut
  | .bytesAvailable => let (s, n) := s.bytesAvailable; (s, .num n)
  | .spaceAvailable => let (s, n) := s.spaceAvailable; (s, .num n)
  | .read n => let (s, cs) := s.read n; (s, .bytes cs)
  | .read1 => let (s, c) := s.read1; (s, .bytes [c])
  | .write d => let (s, n) := s.write d; (s, .num n)
  | .writeStr d => let (s, n) := s.writeStr d; (s, .num n)
  | .write1 c => (s.write1 c, .unit)
  | .canReadLine => let (s, b) := s.canReadLine; (s, .flag b)
  | .readLine n => let (s, cs, r) := s.readLine n; (s, .line cs r)
  | .flush => (s.flushReceiveBuffers, .unit)
  | .disableInterrupts => (s.disable, .unit)
  | .enableInterrupts => (s.enable, .unit)

/-- A history. -/
def calls (s : Ser) : List SOp → Ser × List SOut
  | [] => (s, [])
  | op :: ops =>
    let (s', o) := call s op
    let (s'', os) := calls s' ops
    (s'', o :: os)

/-- Precondition of the unchecked single byte calls. -/
def Pre (s : Ser) : SOp → Prop
  | .read1 => s.rx.ring.bytesAvailable ≠ 0
  | .write1 _ => s.tx.ring.spaceAvailable ≠ 0
  | _ => True

instance (s : Ser) (op : SOp) : Decidable (Pre s op) := by
  cases op <;> unfold Pre <;> infer_instance

/-- Histories that respect these preconditions. -/
def InContract (s : Ser) : List SOp → Prop
  | [] => True
  | op :: ops => Pre s op ∧ InContract (call s op).1 ops

instance instDecInContract (s : Ser) : (ops : List SOp) → Decidable (InContract s ops)
  | [] => inferInstanceAs (Decidable True)
  | op :: ops =>
    have := instDecInContract (call s op).1 ops
    inferInstanceAs (Decidable (_ ∧ _))

/-- The observable content of a buffer: what pulling everything delivers. -/
def buffered (b : LineBuf) : List Byte := (b.pullN b.ring.bytesAvailable).2

theorem rep_buffered {b : LineBuf} {q : List Byte} (h : LineBuf.Rep b q) : buffered b = q := by
  rw [buffered, (LineBuf.rep_pullN h _).2, h.ring.bytesAvailable, List.take_length]

/-- Bytes the application got from a call of `read`. -/
def received : SOut → List Byte
  | .bytes cs => cs
  | _ => []

/-- Bytes a write call reported as accepted. -/
def reported : SOp → SOut → List Byte
  | .write d, .num n => d.take n
  | .writeStr d, .num n => d.take n
  | .write1 c, _ => [c]
  | _, _ => []

/-- What one in-contract call does to the two streams. -/
theorem call_rep {s : Ser} {rq tq : List Byte} (h : Ser.Rep s rq tq) (op : SOp)
    (hp : Pre s op) :
    ∃ rq' tq', Ser.Rep (call s op).1 rq' tq' ∧
      (call s op).1.sent = s.sent ++ reported op (call s op).2 ∧
      Ser.SameSize s (call s op).1 ∧
      (match op with
        | .flush => True
        | .readLine _ => ∃ l, (call s op).1.taken = s.taken ++ l
        | _ => (call s op).1.taken = s.taken ++ received (call s op).2) := by
  cases op with
  | bytesAvailable =>
    obtain ⟨a, g, t, r, e, o, c, k, st, z, p⟩ := Ser.rep_bytesAvailable h
    exact ⟨_, _, r, by simp [call, reported, st], z, by simp [call, received, k]⟩
  | spaceAvailable =>
    obtain ⟨a, g, t, r, e, o, c, k, st, z, p⟩ := Ser.rep_spaceAvailable h
    exact ⟨_, _, r, by simp [call, reported, st], z, by simp [call, received, k]⟩
  | read n =>
    obtain ⟨a, a2, g, t, r, e, o, c, k, st, z⟩ := Ser.rep_read h n
    exact ⟨_, _, r, by simp [call, reported, st], z, by simp [call, received, k, o]⟩
  | read1 =>
    cases rq with
    | nil => exact absurd h.rx.ring.bytesAvailable hp
    | cons d rq =>
      obtain ⟨a, g, t, r, e, o, c, k, st, z, p⟩ := Ser.rep_read1 h
      exact ⟨_, _, r, by simp [call, reported, st], z, by simp [call, received, k, o]⟩
  | write d =>
    obtain ⟨a, g, t, r, o, e, c, k, st, z⟩ := Ser.rep_write h d
    exact ⟨_, _, r, by simp [call, reported, st], z, by simp [call, received, k]⟩
  | writeStr d =>
    have hw := Ser.writeStr_eq s d
    obtain ⟨a, g, t, r, o, e, c, k, st, z⟩ := Ser.rep_write h (d.takeWhile (· ≠ 0))
    rw [← hw] at r o e c k st z
    refine ⟨_, _, r, ?_, z, by simp [call, received, k]⟩
    simp only [call, reported, st]
    congr 1
    have hle : (s.writeStr d).2 ≤ (d.takeWhile (· ≠ 0)).length := by rw [o]; omega
    have hpre := List.takeWhile_prefix (p := fun c : Byte => decide (c ≠ 0)) (l := d)
    obtain ⟨x, hx⟩ := hpre
    have h3 := List.take_append_of_le_length (l₂ := x) hle
    rw [hx] at h3
    exact h3.symm
  | write1 c =>
    have hlt : tq.length < s.tx.ring.size := by
      have h1 : s.tx.ring.spaceAvailable ≠ 0 := hp
      rw [h.tx.ring.spaceAvailable] at h1; omega
    obtain ⟨a, g, t, r, e, c, k, st, z⟩ := Ser.rep_copyToBuffer h c hlt
    exact ⟨_, _, r, by simpa [call, reported, Ser.write1] using st, z,
      by simpa [call, received, Ser.write1] using k⟩
  | canReadLine =>
    obtain ⟨a, g, t, r, e, o, c, k, st, z⟩ := Ser.rep_canReadLine h
    exact ⟨_, _, r, by simp [call, reported, st], z, by simp [call, received, k]⟩
  | readLine n =>
    by_cases hn : n = 0
    · subst hn
      exact ⟨rq, tq, by simpa [call, Ser.readLine] using h, by simp [call, reported, Ser.readLine],
        ⟨rfl, rfl⟩, [], by simp [call, Ser.readLine]⟩
    · obtain ⟨a, g, t, e, c, st, z, r, k, o⟩ := Ser.rep_readLine h n (by omega)
      exact ⟨_, _, r, by simpa [call, reported] using st, z, _, k⟩
  | flush =>
    obtain ⟨g, t, r, e, st, z⟩ := Ser.rep_flush h
    exact ⟨_, _, r, by simp [call, reported, st], z, trivial⟩
  | disableInterrupts =>
    exact ⟨_, _, Ser.rep_setIrq h _, by simp [call, reported, Ser.disable], ⟨rfl, rfl⟩,
      by simp [call, received, Ser.disable]⟩
  | enableInterrupts =>
    exact ⟨_, _, Ser.rep_setIrq h _, by simp [call, reported, Ser.enable], ⟨rfl, rfl⟩,
      by simp [call, received, Ser.enable]⟩

/-- Bytes reported as accepted over a whole history. -/
def reportedAll : List SOp → List SOut → List Byte
  | op :: ops, o :: os => reported op o ++ reportedAll ops os
  | _, _ => []

theorem calls_rep {s : Ser} {rq tq : List Byte} (h : Ser.Rep s rq tq) (ops : List SOp)
    (hp : InContract s ops) :
    ∃ rq' tq', Ser.Rep (calls s ops).1 rq' tq' ∧
      (calls s ops).1.sent = s.sent ++ reportedAll ops (calls s ops).2 := by
  induction ops generalizing s rq tq with
  | nil => exact ⟨rq, tq, h, by simp [calls, reportedAll]⟩
  | cons op ops ih =>
    obtain ⟨r1, t1, h1, s1, _, _⟩ := call_rep h op hp.1
    obtain ⟨r2, t2, h2, s2⟩ := ih h1 hp.2
    refine ⟨r2, t2, h2, ?_⟩
    simp only [calls, reportedAll]
    rw [s2, s1]; simp

/-- **C11.** For every interrupt schedule and every in-contract history: the bytes taken out of the
receive stream (since the last flush), followed by the bytes still buffered, are exactly the
bytes accepted from the wire, in order. -/
theorem C11_rx_stream (rmem wmem : List Byte) (sched : List (List Hw)) (ops : List SOp)
    (hp : InContract (Ser.init rmem wmem sched) ops) :
    let s := (calls (Ser.init rmem wmem sched) ops).1
    s.taken ++ buffered s.rx = s.accepted ∧ s.rx.ring.oob = false := by
  intro s
  obtain ⟨rq, tq, h, _⟩ := calls_rep (Ser.rep_init rmem wmem sched) ops hp
  exact ⟨by rw [rep_buffered h.rx]; exact h.rxs, h.rx.ring.ok⟩

/-- Histories that read with `read` only, and never flush. -/
def plain : SOp → Bool
  | .flush => false
  | .readLine _ => false
  | _ => true

/-- **C11**, in terms of what the calls returned: concatenating everything `read` delivered, and then
what is still buffered, gives the bytes accepted from the wire. -/
theorem C11_read_results (rmem wmem : List Byte) (sched : List (List Hw)) (ops : List SOp)
    (hp : InContract (Ser.init rmem wmem sched) ops) (hpl : ops.all plain = true) :
    let r := calls (Ser.init rmem wmem sched) ops
    r.2.flatMap received ++ buffered r.1.rx = r.1.accepted := by
  intro r
  have key : ∀ (s : Ser) (rq tq : List Byte), Ser.Rep s rq tq → ∀ ops, InContract s ops →
      ops.all plain = true →
      (calls s ops).1.taken = s.taken ++ (calls s ops).2.flatMap received := by
    intro s rq tq h ops
    induction ops generalizing s rq tq with
    | nil => intro _ _; simp [calls]
    | cons op ops ih =>
      intro hp hpl
      obtain ⟨r1, t1, h1, s1, _, k1⟩ := call_rep h op hp.1
      simp only [List.all_cons, Bool.and_eq_true] at hpl
      have h2 := ih _ _ _ h1 hp.2 hpl.2
      have hk : (call s op).1.taken = s.taken ++ received (call s op).2 := by
        cases op <;> first | exact k1 | simp [plain] at hpl
      simp only [calls, List.flatMap_cons]
      rw [h2, hk]; simp
  have h1 := (C11_rx_stream rmem wmem sched ops hp).1
  have h2 := key _ _ _ (Ser.rep_init rmem wmem sched) ops hp hpl
  rw [← h1, h2]
  rfl

/-- Witness: interrupts deliver bytes between and during the calls, three bytes are lost to overflow. -/
def schedEx : List (List Hw) :=
  [[⟨some 1, false⟩, ⟨some 2, true⟩], [⟨some 3, true⟩], [⟨some 4, true⟩, ⟨some 5, true⟩],
    [⟨some 6, false⟩], [], [⟨none, true⟩]]

example : let ops := [SOp.bytesAvailable, .write [7, 8, 9], .read 2, .read1, .writeStr [5, 0, 6]]
    InContract (Ser.init [0, 0, 0] [0, 0] schedEx) ops ∧
    (calls (Ser.init [0, 0, 0] [0, 0] schedEx) ops).2 =
      [.num 2, .num 2, .bytes [1, 2], .bytes [3], .num 1] ∧
    (calls (Ser.init [0, 0, 0] [0, 0] schedEx) ops).1.accepted = [1, 2, 3] ∧
    (calls (Ser.init [0, 0, 0] [0, 0] schedEx) ops).1.arrived = [1, 2, 3, 4, 5, 6] := by decide

/-- **C12.** For every interrupt schedule and every in-contract history: the bytes that went out on
the wire, followed by the bytes still in the transmit buffer, are exactly the bytes the write calls
reported as accepted, in order. -/
theorem C12_tx_stream (rmem wmem : List Byte) (sched : List (List Hw)) (ops : List SOp)
    (hp : InContract (Ser.init rmem wmem sched) ops) :
    let r := calls (Ser.init rmem wmem sched) ops
    r.1.wire ++ buffered r.1.tx = reportedAll ops r.2 ∧ r.1.tx.ring.oob = false := by
  intro r
  obtain ⟨rq, tq, h, hs⟩ := calls_rep (Ser.rep_init rmem wmem sched) ops hp
  refine ⟨?_, h.tx.ring.ok⟩
  rw [rep_buffered h.tx, h.txs]
  exact hs

example : let ops := [SOp.bytesAvailable, .write [7, 8, 9], .read 2, .read1, .writeStr [5, 0, 6]]
    let r := calls (Ser.init [0, 0, 0] [0, 0] schedEx) ops
    reportedAll ops r.2 = [7, 8, 5] ∧ r.1.wire = [7] ∧ buffered r.1.tx = [8, 5] := by decide

/-- States reachable by in-contract histories. -/
def Reach (s : Ser) : Prop :=
  ∃ rmem wmem sched ops, InContract (Ser.init rmem wmem sched) ops ∧
    s = (calls (Ser.init rmem wmem sched) ops).1

theorem Reach.rep {s : Ser} (h : Reach s) : Ser.Rep s (buffered s.rx) (buffered s.tx) := by
  obtain ⟨rmem, wmem, sched, ops, hp, rfl⟩ := h
  obtain ⟨rq, tq, h, _⟩ := calls_rep (Ser.rep_init rmem wmem sched) ops hp
  rwa [rep_buffered h.rx, rep_buffered h.tx]

/-- The space a write call sees: at least what was free before the call, all of it unless an
interrupt sends something in between. -/
theorem space_seen {s : Ser} (h : Reach s) :
    s.tx.ring.spaceAvailable ≤ s.spaceAvailable.2 ∧ s.spaceAvailable.2 ≤ s.writeBufferSize ∧
      (s.irqOn = false ∨ s.sched = [] → s.spaceAvailable.2 = s.tx.ring.spaceAvailable) := by
  have hr := h.rep
  obtain ⟨a, g, t, r, e, o, c, k, st, z, p⟩ := Ser.rep_spaceAvailable hr
  have hl := congrArg List.length e
  simp only [List.length_append] at hl
  refine ⟨?_, ?_, ?_⟩
  · rw [o, hr.tx.ring.spaceAvailable]; omega
  · rw [o, Ser.writeBufferSize]; omega
  · intro hc
    have : s.sync = s := by
      unfold Ser.sync
      rcases hc with hc | hc
      · simp [hc]
      · simp [hc]
    show s.sync.tx.ring.spaceAvailable = _
    rw [this]

/-- **C13** (bulk write). `write(data, n)` accepts exactly `min(n, space)` bytes, where `space` is the
free space it sees; these are a prefix of `data`, appended behind all unsent data, of which nothing
is overwritten: the old unsent bytes followed by the accepted ones are what the wire gets and what
is still buffered. -/
theorem C13_write {s : Ser} (h : Reach s) (data : List Byte) :
    (s.write data).2 = min data.length s.spaceAvailable.2 ∧
      (s.write data).1.wire ++ buffered (s.write data).1.tx =
        s.wire ++ buffered s.tx ++ data.take (s.write data).2 := by
  have hr := h.rep
  obtain ⟨a, g, t, r, o, e, c, k, st, z⟩ := Ser.rep_write hr data
  refine ⟨o, ?_⟩
  rw [rep_buffered r.tx, r.txs, st, hr.txs]

/-- **C13** (string write). `write(string)` does the same with the bytes before the terminating zero. -/
theorem C13_writeStr {s : Ser} (h : Reach s) (str rest : List Byte) (h0 : 0 ∉ str) :
    (s.writeStr (str ++ 0 :: rest)).2 = min str.length s.spaceAvailable.2 ∧
      (s.writeStr (str ++ 0 :: rest)).1.wire ++ buffered (s.writeStr (str ++ 0 :: rest)).1.tx =
        s.wire ++ buffered s.tx ++ str.take (s.writeStr (str ++ 0 :: rest)).2 := by
  have hw : (str ++ 0 :: rest).takeWhile (fun c : Byte => decide (c ≠ 0)) = str := by
    rw [List.takeWhile_append_of_pos]
    · simp
    · intro x hx; simp; rintro rfl; exact h0 hx
  rw [Ser.writeStr_eq, hw]
  exact C13_write h str

theorem reach_example : Reach (calls (Ser.init [0, 0, 0] [0, 0] schedEx)
    [.bytesAvailable, .write [7, 8, 9]]).1 :=
  ⟨_, _, _, _, by decide, rfl⟩

/-- **C14** (step). A byte arriving while the receive buffer is full is dropped and nothing else
changes; otherwise it is appended. -/
theorem C14_overflow_step {s : Ser} (h : Reach s) (c : Byte) :
    (s.rx.ring.isFull = true → (s.transferRx (some c)).rx = s.rx) ∧
      (s.rx.ring.isFull = false →
        buffered (s.transferRx (some c)).rx = buffered s.rx ++ [c]) ∧
      (s.transferRx (some c)).tx = s.tx ∧ s.transferRx none = s := by
  have hr := h.rep
  have ht := (Ser.rep_transferRx hr (some c)).1
  refine ⟨?_, ?_, ?_, rfl⟩
  · intro hf; simp [Ser.transferRx, hf]
  · intro hf
    rw [rep_buffered ht.rx]
    have hne : s.rx.ring.avail ≠ s.rx.ring.size := by simpa [Ring.isFull] using hf
    have h1 := hr.rx.ring.av
    have h2 := hr.rx.ring.le
    rw [List.take_of_length_le]
    · rfl
    · simp; omega
  · simp only [Ser.transferRx]; split <;> rfl

example : let s := (calls (Ser.init [0, 0, 0] [0, 0] schedEx) [.bytesAvailable, .write [7, 8, 9]]).1
    s.rx.ring.isFull = true ∧ s.transferRx (some 99) = { s with arrived := s.arrived ++ [99] } := by
  decide

theorem sub_transferRx (s : Ser) (c : Option Byte) (h : s.accepted.Sublist s.arrived) :
    (s.transferRx c).accepted.Sublist (s.transferRx c).arrived := by
  cases c with
  | none => exact h
  | some c =>
    simp only [Ser.transferRx]
    split
    · exact h.append (List.Sublist.refl _)
    · exact h.trans (List.sublist_append_left _ _)

theorem sub_transfers (s : Ser) (hs : List Hw) (h : s.accepted.Sublist s.arrived) :
    (s.transfers hs).accepted.Sublist (s.transfers hs).arrived := by
  induction hs generalizing s with
  | nil => exact h
  | cons hw hs ih =>
    apply ih
    have h1 := sub_transferRx s hw.rx h
    simp only [Ser.transfer, Ser.transferTx]
    split
    · split <;> exact h1
    · exact h1

theorem sub_sync (s : Ser) (h : s.accepted.Sublist s.arrived) :
    s.sync.accepted.Sublist s.sync.arrived := by
  unfold Ser.sync
  split
  · split
    · exact h
    · exact sub_transfers _ _ h
  · exact h

theorem sub_readLoop (n : Nat) (s : Ser) (h : s.accepted.Sublist s.arrived) :
    (s.readLoop n).1.accepted.Sublist (s.readLoop n).1.arrived := by
  induction n generalizing s with
  | zero => exact h
  | succ n ih => exact ih _ (sub_sync s h)

theorem sub_writeLoop (cs : List Byte) (s : Ser) (h : s.accepted.Sublist s.arrived) :
    (s.writeLoop cs).accepted.Sublist (s.writeLoop cs).arrived := by
  induction cs generalizing s with
  | nil => exact h
  | cons c cs ih => exact ih _ (sub_sync s h)

theorem sub_readLineLoop (size fuel : Nat) (s : Ser) (c : Byte) (acc : List Byte)
    (h : s.accepted.Sublist s.arrived) :
    (Ser.readLineLoop size fuel s c acc).1.accepted.Sublist
      (Ser.readLineLoop size fuel s c acc).1.arrived := by
  induction fuel generalizing s c acc with
  | zero => exact h
  | succ n ih =>
    simp only [Ser.readLineLoop]
    split
    · exact ih _ _ _ (sub_sync _ (sub_sync s h))
    · exact sub_sync s h

/-- **C14** (history). Over every history (no precondition at all) and every schedule, the accepted
stream is a subsequence of the arrived stream: nothing is reordered, duplicated or invented. -/
theorem C14_accepted_sublist (rmem wmem : List Byte) (sched : List (List Hw)) (ops : List SOp) :
    let s := (calls (Ser.init rmem wmem sched) ops).1
    s.accepted.Sublist s.arrived := by
  have key : ∀ (ops : List SOp) (s : Ser), s.accepted.Sublist s.arrived →
      (calls s ops).1.accepted.Sublist (calls s ops).1.arrived := by
    intro ops
    induction ops with
    | nil => intro s h; exact h
    | cons op ops ih =>
      intro s h
      apply ih
      cases op with
      | bytesAvailable | spaceAvailable | read1 | canReadLine | write1 => exact sub_sync s h
      | disableInterrupts | enableInterrupts => exact h
      | flush => exact List.nil_sublist _
      | read n => exact sub_readLoop _ _ (sub_sync s h)
      | write d => exact sub_writeLoop _ _ (sub_sync s h)
      | writeStr d =>
        show (s.writeStr d).1.accepted.Sublist (s.writeStr d).1.arrived
        rw [Ser.writeStr_eq]
        exact sub_writeLoop _ _ (sub_sync s h)
      | readLine n =>
        simp only [Ser.readLine]
        split
        · exact h
        · exact sub_readLineLoop _ _ _ _ _ h
  exact key ops _ (List.Sublist.refl _)

/-- **C15.** The transmitting half of the interrupt handler: with `c` the oldest unsent byte, `c`
leaves the buffer iff the hardware took it, and it is the byte the hardware gets; with nothing
buffered nothing is sent. -/
theorem C15_transmit {s : Ser} (h : Reach s) :
    (∀ c l, buffered s.tx = c :: l →
      (s.transferTx true).wire = s.wire ++ [c] ∧ buffered (s.transferTx true).tx = l ∧
      (s.transferTx false).wire = s.wire ∧ buffered (s.transferTx false).tx = c :: l) ∧
    (buffered s.tx = [] → ∀ ok, s.transferTx ok = s) := by
  have hr := h.rep
  constructor
  · intro c l hc
    rw [hc] at hr
    have h1 := Ser.rep_transferTx hr true
    have h2 := Ser.rep_transferTx hr false
    refine ⟨by simpa using h1.2.2, by rw [rep_buffered h1.1.tx]; rfl, by simpa using h2.2.2,
      by rw [rep_buffered h2.1.tx]; rfl⟩
  · intro hn ok
    rw [hn] at hr
    have : s.tx.ring.bytesAvailable = 0 := hr.tx.ring.bytesAvailable
    simp [Ser.transferTx, this]

example : buffered (calls (Ser.init [0, 0, 0] [0, 0] schedEx)
    [.bytesAvailable, .write [7, 8, 9]]).1.tx = [7, 8] := by decide

/-- **C08.** `canReadLine()` is true exactly if a newline is buffered (at the moment of the call's
critical section), as long as fewer than 65536 newlines are buffered. -/
theorem C08_canReadLine {s : Ser} (h : Reach s)
    (hb : (buffered s.canReadLine.1.rx).count nl < 65536) :
    s.canReadLine.2 = true ↔ nl ∈ buffered s.canReadLine.1.rx := by
  obtain ⟨a, g, t, r, e, o, c, k, st, z⟩ := Ser.rep_canReadLine h.rep
  rw [rep_buffered r.rx] at hb ⊢
  rw [o, Nat.mod_eq_of_lt hb, decide_eq_true_iff, List.count_pos_iff]

example : let s := (calls (Ser.init [0, 0, 0] [0, 0] [[⟨some 65, true⟩], [⟨some 10, true⟩]])
      [.bytesAvailable]).1
    (buffered s.canReadLine.1.rx).count nl < 65536 ∧ s.canReadLine.2 = true := by decide

/-- Arrival of a text that fits. -/
theorem transfers_fill {s : Ser} {rq tq : List Byte} (h : Ser.Rep s rq tq) (cs : List Byte)
    (hc : rq.length + cs.length ≤ s.rx.ring.size) :
    ∃ tq', Ser.Rep (s.transfers (cs.map fun c => ⟨some c, false⟩)) (rq ++ cs) tq' := by
  induction cs generalizing s rq tq with
  | nil => exact ⟨tq, by simpa [Ser.transfers] using h⟩
  | cons c cs ih =>
    simp only [List.length_cons] at hc
    have h1 := (Ser.rep_transferRx h (some c)).1
    rw [List.take_of_length_le (by simp; omega)] at h1
    have h2 := (Ser.rep_transferTx h1 false).1
    have hsz : (s.transfer ⟨some c, false⟩).rx.ring.size = s.rx.ring.size :=
      (Ser.frame_transfer s _).rxSize
    obtain ⟨t, h3⟩ := ih (s := s.transfer ⟨some c, false⟩) h2 (by rw [hsz]; simp; omega)
    exact ⟨t, by simpa [Ser.transfers] using h3⟩

theorem canReadLine_batch (rmem wmem : List Byte) (b : List Hw) :
    (Ser.init rmem wmem [b]).canReadLine.1.rx = ((Ser.init rmem wmem []).transfers b).rx ∧
    (Ser.init rmem wmem [b]).canReadLine.2 =
      decide (((Ser.init rmem wmem []).transfers b).rx.lines > 0) := ⟨rfl, rfl⟩

/-- **C08, expectation refuted.** With 65536 empty lines in a buffer that can hold them,
`canReadLine()` returns false although the buffer is full of lines. -/
theorem C08_wrap (rmem wmem : List Byte) (hm : 65536 ≤ rmem.length) :
    let s := Ser.init rmem wmem [(List.replicate 65536 nl).map fun c => ⟨some c, false⟩]
    s.canReadLine.2 = false ∧ (buffered s.canReadLine.1.rx).count nl = 65536 := by
  intro s
  obtain ⟨t, h⟩ := transfers_fill (Ser.rep_init rmem wmem []) (List.replicate 65536 nl)
    (by rw [List.length_replicate]; show 0 + 65536 ≤ rmem.length; omega)
  rw [List.nil_append] at h
  have hs := canReadLine_batch rmem wmem ((List.replicate 65536 nl).map fun c => ⟨some c, false⟩)
  have hc : (List.replicate 65536 nl).count nl = 65536 := List.count_replicate_self
  constructor
  · rw [hs.2, h.rx.lines, hc]; decide
  · rw [hs.1, rep_buffered h.rx, hc]

/-- **C10.** `readLine(data, size)` with `size > 0`, whatever interrupts do meanwhile: with `text` the
bytes buffered before the call followed by those accepted during the call, exactly the first line
of `text` is removed; what is stored is a prefix of it of at most `size - 1` bytes and a zero;
the result is the number of bytes before the zero. So at most `size` bytes are stored. A newline
that fits is kept (the documentation says it is replaced). -/
theorem C10_readLine {s : Ser} (h : Reach s) (size : Nat) (hs : 0 < size) :
    ∃ added, (s.readLine size).1.accepted = s.accepted ++ added ∧
      buffered (s.readLine size).1.rx = dropLine (buffered s.rx ++ added) ∧
      (s.readLine size).1.taken = s.taken ++ takeLine (buffered s.rx ++ added) ∧
      (s.readLine size).2.1 = (takeLine (buffered s.rx ++ added)).take (size - 1) ++ [0] ∧
      (s.readLine size).2.2 = (s.readLine size).2.1.length - 1 ∧
      (s.readLine size).2.1.length ≤ size := by
  obtain ⟨a, g, t, e, c, st, z, r, k, o1, o2⟩ := Ser.rep_readLine h.rep size hs
  refine ⟨a, c, rep_buffered r.rx, k, o1, ?_, ?_⟩
  · rw [o2, o1]; simp
  · rw [o1]; simp; omega

/-- **C10, size 0.** Nothing happens. -/
theorem C10_readLine_zero (s : Ser) : s.readLine 0 = (s, [], 0) := rfl

/-- The newline is stored, contrary to the documentation; and a line completed by an interrupt during
the call is read to its end. -/
theorem C10_newline_kept :
    let s := Ser.init [0, 0, 0, 0] [] [[⟨some 65, true⟩], [], [⟨some 66, true⟩], [⟨some 10, true⟩]]
    (s.readLine 10).2 = (b!"AB\n" ++ [0], 3) := by decide

/-- Calls with a critical section. -/
def hasSection : SOp → Bool
  | .disableInterrupts => false
  | .enableInterrupts => false
  | .readLine 0 => false
  | _ => true

theorem irq_readLoop (n : Nat) (s : Ser) (h : s.irqOn = true) : (s.readLoop n).1.irqOn = true := by
  induction n generalizing s with
  | zero => exact h
  | succ n ih => exact ih _ rfl

theorem irq_writeLoop (cs : List Byte) (s : Ser) (h : s.irqOn = true) :
    (s.writeLoop cs).irqOn = true := by
  induction cs generalizing s with
  | nil => exact h
  | cons c cs ih => exact ih _ rfl

theorem irq_readLineLoop (size fuel : Nat) (s : Ser) (c : Byte) (acc : List Byte) :
    (Ser.readLineLoop size (fuel + 1) s c acc).1.irqOn = true := by
  induction fuel generalizing s c acc with
  | zero =>
    simp only [Ser.readLineLoop]
    split <;> rfl
  | succ n ih =>
    simp only [Ser.readLineLoop] at ih ⊢
    by_cases hc : s.bytesAvailable.2 ≠ 0 ∧ c ≠ nl
    · rw [if_pos hc]; exact ih _ _ _
    · rw [if_neg hc]; rfl

/-- **C16.** Every call with a critical section leaves interrupts enabled, whatever the state was
before: sections are always closed, and the state of an enclosing section is not restored. -/
theorem C16_enabled_after (s : Ser) (op : SOp) (h : hasSection op = true) :
    (call s op).1.irqOn = true := by
  cases op with
  | bytesAvailable | spaceAvailable | read1 | canReadLine | write1 | flush => rfl
  | disableInterrupts | enableInterrupts => simp [hasSection] at h
  | read n => exact irq_readLoop _ _ rfl
  | write d => exact irq_writeLoop _ _ rfl
  | writeStr d =>
    simp only [call]; rw [Ser.writeStr_eq]
    exact irq_writeLoop _ _ rfl
  | readLine n =>
    simp only [call, Ser.readLine]
    split
    · subst_vars; simp [hasSection] at h
    · exact irq_readLineLoop _ _ _ _ _

/-- **C16, what holds.** Inside the application's own critical section the *first* call still sees no
interrupt. -/
theorem C16_first_call (s : Ser) (h : s.irqOn = false) : s.sync = s := by
  simp [Ser.sync, h]

/-- **C16, expectation refuted.** An application disables interrupts and asks twice how many bytes
are available; the two answers differ because the first call enabled interrupts. -/
theorem C16_not_nested :
    let s := Ser.init [0, 0] [] [[⟨some 65, true⟩]]
    (calls s [.disableInterrupts, .bytesAvailable, .bytesAvailable, .enableInterrupts]).2 =
      [.unit, .num 0, .num 1, .unit] := by decide

end Verif.Props.Serial
