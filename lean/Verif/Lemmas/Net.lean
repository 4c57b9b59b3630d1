import Verif.Spec.Modem
import Verif.Lemmas.ChatDns
import Verif.Lemmas.Payload
import Verif.Lemmas.Receiving

/-! Drivers with an open connection: transfer of data. -/

namespace Verif

open Spec

/-! ### Numbers -/

theorem isDigit_ofNat {k : Nat} (h : k < 10) : isDigit (UInt8.ofNat (48 + k)) = true ∧ (UInt8.ofNat (48 + k)).toNat - 48 = k := by
  have : k = 0 ∨ k = 1 ∨ k = 2 ∨ k = 3 ∨ k = 4 ∨ k = 5 ∨ k = 6 ∨ k = 7 ∨ k = 8 ∨ k = 9 := by omega
  rcases this with rfl | rfl | rfl | rfl | rfl | rfl | rfl | rfl | rfl | rfl <;> decide

theorem decimals_digits (n : Nat) : ∀ c ∈ decimals n, isDigit c = true := by
  induction n using Nat.strongRecOn with
  | _ n ih =>
    unfold decimals
    split
    · intro c hc
      simp only [List.mem_singleton] at hc
      subst hc; exact (isDigit_ofNat (by omega)).1
    · intro c hc
      rcases List.mem_append.mp hc with hc | hc
      · exact ih _ (by omega) c hc
      · simp only [List.mem_singleton] at hc
        subst hc; exact (isDigit_ofNat (by omega)).1

theorem decimals_ne_nil (n : Nat) : decimals n ≠ [] := by
  unfold decimals; split <;> simp

theorem decimals_value (n : Nat) : (decimals n).foldl (fun n c => 10 * n + (c.toNat - 48)) 0 = n := by
  induction n using Nat.strongRecOn with
  | _ n ih =>
    unfold decimals
    split
    · rename_i h
      simp only [List.foldl_cons, List.foldl_nil, (isDigit_ofNat h).2]; omega
    · rw [List.foldl_append, ih _ (by omega)]
      simp only [List.foldl_cons, List.foldl_nil, (isDigit_ofNat (show n % 10 < 10 by omega)).2]; omega

theorem decimals_length {n k : Nat} (h : n < 10 ^ k) (hk : 0 < k) : (decimals n).length ≤ k := by
  induction k generalizing n with
  | zero => omega
  | succ k ih =>
    unfold decimals
    split
    · simp
    · rename_i h1
      have hk : 0 < k := by
        cases k with
        | zero => simp at h; omega
        | succ k => omega
      have h2 : n / 10 < 10 ^ k := by rw [Nat.pow_succ] at h; omega
      have := ih h2 hk
      simp; omega

theorem readNumber_eq (pre rest : List Byte) (n : Nat) (hr : isDigit (rest.headD 0) = false) :
    readNumber pre.length (pre ++ decimals n ++ rest) = n := by
  unfold readNumber
  have e : (fun c : Byte => decide (48 ≤ c.toNat ∧ c.toNat ≤ 57)) = isDigit := by
    funext c
    unfold isDigit
    rw [Bool.eq_iff_iff]
    simp [UInt8.le_iff_toNat_le]
  rw [e, List.append_assoc, List.drop_left, List.takeWhile_append_of_pos (decimals_digits n)]
  have : rest.takeWhile isDigit = [] := by
    cases rest with
    | nil => rfl
    | cons c r =>
      simp only [List.headD_cons] at hr
      simp [hr]
  rw [this, List.append_nil, decimals_value]

theorem decVal_decimals (n : Nat) : decVal (decimals n) = n := by
  have h := decimals_value n
  unfold decVal
  rw [show (fun (a : Nat) (c : Byte) => a * 10 + (c.toNat - 48)) = (fun n c => 10 * n + (c.toNat - 48)) by
    funext a c; omega]
  exact h

theorem strtol_decimals (b : Bool) {n : Nat} (hn : n < 2147483648) (rest : List Byte) (hr : isDigit (rest.headD 0) = false) :
    strtol b (decimals n ++ rest) = n := by
  rw [strtol_digits b _ _ (decimals_ne_nil n) (decimals_digits n) hr, decVal_decimals, satLong_small b n hn]

namespace Dev

/-- Variants for `k` about a changed device and `h` about the device. -/
macro "saidIn" k:ident h:ident hx:ident w:term : tactic =>
  `(tactic| (
    refine Talk.sendAt $k _ ?_ ?_ ?_ ?_ ?_
    · rfl
    · exact ($h).calm.lineRead
    · exact $w
    · exact $hx
    · st_simp $h))

macro "movedIn" k:ident h:ident : tactic =>
  `(tactic| (
    refine Talk.setAt $k _ ?_ ?_ ?_ ?_ ?_
    · rfl
    · rfl
    · rfl
    · exact ($h).calm.lineRead
    · st_simp $h))

variable {S R X : Type} {c : Conf} {E : X → Prop} {t0 : List Ev} {T : List (List Byte)} {q : St S R} {d : Dev S R X}

theorem LineDone.strtol {l : List Byte} (h : LineDone d l) (b : Bool) (pre rest : List Byte) (n : Nat)
    (hl : l = pre ++ decimals n ++ rest) (hn : n < 2147483648) (hr : isDigit (rest.headD 0) = false) :
    strtol b (d.line.drop pre.length) = n := by
  obtain ⟨m, hm⟩ := h.cells
  show Verif.strtol b (d.line.cells.drop pre.length) = n
  rw [hm, hl, List.append_assoc, List.append_assoc, List.drop_left]
  refine strtol_decimals b hn _ ?_
  cases rest with
  | nil => rfl
  | cons x r => simpa using hr

/-- Number of bytes to be sent. -/
theorem amount_eq (a s : Nat) : amount a s s = min a (s - 22) := by
  unfold amount minSpace; split <;> omega

theorem Talk.bwSet (h : Talk c E t0 T q d) (n : Nat) :
    Talk { c with bw := n } E t0 T q { d with bytesToWrite := n } :=
  ⟨⟨h.calm.isOpen, h.calm.lock, h.calm.reset, h.calm.lineRead, ⟨h.calm.line.len, h.calm.line.fill, h.calm.line.oob⟩, h.calm.fill,
    h.calm.ser⟩, h.told, h.st, h.host, h.port, h.typ, h.data, h.wbuf, h.wcap, h.rbuf, h.rcap, h.rcv, h.rd, rfl, h.ext⟩

/-- The counter of received data and the flag for data in the modem. -/
theorem Talk.rcvSet (h : Talk c E t0 T q d) (n : Nat) (b : Bool) :
    Talk { c with rcv := n, data := b } E t0 T q { d with bytesToReceive := n, dataPending := b } :=
  ⟨⟨h.calm.isOpen, h.calm.lock, h.calm.reset, h.calm.lineRead, ⟨h.calm.line.len, h.calm.line.fill, h.calm.line.oob⟩, h.calm.fill,
    h.calm.ser⟩, h.told, h.st, h.host, h.port, h.typ, rfl, h.wbuf, h.wcap, h.rbuf, h.rcap, rfl, h.rd, h.bw, h.ext⟩

theorem Talk.dataSet (h : Talk c E t0 T q d) (b : Bool) : Talk { c with data := b } E t0 T q { d with dataPending := b } :=
  ⟨⟨h.calm.isOpen, h.calm.lock, h.calm.reset, h.calm.lineRead, ⟨h.calm.line.len, h.calm.line.fill, h.calm.line.oob⟩, h.calm.fill,
    h.calm.ser⟩, h.told, h.st, h.host, h.port, h.typ, rfl, h.wbuf, h.wcap, h.rbuf, h.rcap, h.rcv, h.rd, h.bw, h.ext⟩

theorem Talk.rcvOnly (h : Talk c E t0 T q d) (n : Nat) : Talk { c with rcv := n } E t0 T q { d with bytesToReceive := n } :=
  ⟨⟨h.calm.isOpen, h.calm.lock, h.calm.reset, h.calm.lineRead, ⟨h.calm.line.len, h.calm.line.fill, h.calm.line.oob⟩, h.calm.fill,
    h.calm.ser⟩, h.told, h.st, h.host, h.port, h.typ, h.data, h.wbuf, h.wcap, h.rbuf, h.rcap, rfl, h.rd, h.bw, h.ext⟩

/-- A block is announced. -/
theorem Talk.rdSet (h : Talk c E t0 T q d) (n k : Nat) :
    Talk { c with rcv := n, rd := k } E t0 T q { d with bytesToReceive := n, bytesToRead := k } :=
  ⟨⟨h.calm.isOpen, h.calm.lock, h.calm.reset, h.calm.lineRead, ⟨h.calm.line.len, h.calm.line.fill, h.calm.line.oob⟩, h.calm.fill,
    h.calm.ser⟩, h.told, h.st, h.host, h.port, h.typ, h.data, h.wbuf, h.wcap, h.rbuf, h.rcap, rfl, rfl, h.bw, h.ext⟩

theorem Talk.avail (h : Talk c E t0 T q d) : d.wbuf.bytesAvailable = c.wq.length := by
  unfold Ring.bytesAvailable; exact h.wbuf.av

theorem Talk.space (h : Talk c E t0 T q d) : d.rbuf.spaceAvailable = c.rcap - c.rq.length := by
  rw [h.rbuf.spaceAvailable, h.rcap]

theorem Calm.askAvail {u : List Byte} {rx tx : Nat} (h : Calm d u rx tx) : d.askAvail = d := by
  unfold Dev.askAvail; rw [h.ser.bytesAvailable]

theorem Calm.serAvail {u : List Byte} {rx tx : Nat} (h : Calm d u rx tx) : d.serAvail = 0 := by
  unfold Dev.serAvail; rw [h.ser.bytesAvailable]; rfl

/-- `prepareSending()` with an empty transmit buffer. -/
theorem Talk.prepare (h : Talk c E t0 T q d) (hf : d.ser.txFree = c.tx) (ht : 22 ≤ c.tx) (ch : Bool) :
    d.prepareSending ch =
      ({ ((if ch then ({ d with bytesToWrite := min c.wq.length (c.tx - 22) } : Dev S R X).cmd b!"AT+CIPSEND=" |>.arg b!"0,"
          else ({ d with bytesToWrite := min c.wq.length (c.tx - 22) } : Dev S R X).cmd b!"AT+CIPSEND=").arg
            (dec5 (min c.wq.length (c.tx - 22)))) with wait := some b!">" }, true) := by
  unfold prepareSending
  rw [if_neg (by rw [h.calm.serSpace, hf]; unfold minSpace; omega)]
  simp only [h.calm.askSpace, ite_self, h.calm.serSpace, hf, amount_eq, h.avail]

theorem pulls_size (r : Ring Byte) (n : Nat) : (pulls r n).1.size = r.size := by
  induction n generalizing r with
  | zero => rfl
  | succ n ih => exact (ih _).trans rfl

theorem Told.paid {W G : List Byte} {tr : List Ev} (h : Told t0 T W G tr) (b : List Byte) : Told t0 (T ++ [b]) W G (tr ++ [.pay b]) := by
  have := h.event (.pay b) (by simp) rfl
  simpa [utter, accepted, handed] using this

/-- `sendData()` with enough space. -/
theorem Talk.pay (h : Talk c E t0 T q d) (hb : c.bw ≤ c.wq.length) (hf : c.bw ≤ d.ser.txFree) :
    Talk { c with wq := c.wq.drop c.bw, bw := 18446744073709551615 } E t0 (T ++ [c.wq.take c.bw]) q d.sendData := by
  have hp := rep_pulls h.wbuf c.bw hb
  unfold sendData
  rw [h.bw]
  dsimp only
  rw [hp.2]
  exact ⟨⟨h.calm.isOpen, h.calm.lock, h.calm.reset, h.calm.lineRead, ⟨h.calm.line.len, h.calm.line.fill, h.calm.line.oob⟩, h.calm.fill,
    (h.calm.ser.writeLoop _ (by rw [List.length_take]; omega)).1⟩, h.told.paid _, h.st, h.host, h.port, h.typ, h.data,
    hp.1, (pulls_size _ _).trans h.wcap, h.rbuf, h.rcap, h.rcv, h.rd, rfl, h.ext⟩

/-- `write()` in state connected. -/
theorem Talk.write (h : Talk c E t0 T q d) (bs : List Byte) :
    Talk (if q.cs = .connected then
        { c with wq := c.wq ++ bs.take (c.wcap - c.wq.length), took := c.took ++ bs.take (c.wcap - c.wq.length) } else c) E t0 T q
      (d.common (.write bs)) ∧ (d.common (.write bs)).ser = d.ser ∧ (d.common (.write bs)).ipConnected = d.ipConnected := by
  show Talk _ _ _ _ _ ((d.write bs).1.log (.apiWrite (bs.take (d.write bs).2))) ∧ ((d.write bs).1.log _).ser = _ ∧
    ((d.write bs).1.log _).ipConnected = _
  by_cases hq : q.cs = .connected
  · have e : d.write bs = ({ d with wbuf := (d.wbuf.pushN bs).1 }, (d.wbuf.pushN bs).2) := by
      unfold Dev.write; rw [if_neg (by rw [h.cs, hq]; simp)]
    rw [e, if_pos hq]
    have hp := Ring.rep_pushN h.wbuf bs
    rw [h.wcap] at hp
    refine ⟨?_, rfl, rfl⟩
    dsimp only
    rw [hp.2]
    have e : bs.take (min bs.length (c.wcap - c.wq.length)) = bs.take (c.wcap - c.wq.length) := by
      rw [List.take_eq_take_iff]; omega
    rw [e]
    have ht := h.told.event (.apiWrite (bs.take (c.wcap - c.wq.length))) (by simp) rfl
    simp only [utter, accepted, handed, List.append_nil] at ht
    exact ⟨⟨h.calm.isOpen, h.calm.lock, h.calm.reset, h.calm.lineRead, ⟨h.calm.line.len, h.calm.line.fill, h.calm.line.oob⟩, h.calm.fill,
      h.calm.ser⟩, ht, h.st, h.host, h.port, h.typ, h.data,
      hp.1, (Ring.size_pushN _ _).trans h.wcap, h.rbuf, h.rcap, h.rcv, h.rd, h.bw, h.ext⟩
  · have e : d.write bs = (d, 0) := by
      unfold Dev.write; rw [if_pos (by rw [h.cs]; exact hq)]
    rw [e, if_neg hq]
    exact ⟨h.log _ rfl rfl, rfl, rfl⟩

/-- `read()` -/
theorem Talk.read (h : Talk c E t0 T q d) (k : Nat) :
    Talk { c with rq := c.rq.drop k, gave := c.gave ++ c.rq.take k } E t0 T q (d.common (.read k)) ∧
      (d.common (.read k)).ser = d.ser ∧ (d.common (.read k)).ipConnected = d.ipConnected := by
  show Talk _ _ _ _ _ ((d.read k).1.log (.apiRead (d.read k).2)) ∧ _
  unfold Dev.read
  have hp := Ring.rep_pullN h.rbuf k
  refine ⟨?_, rfl, rfl⟩
  dsimp only
  rw [hp.2]
  have ht := h.told.event (.apiRead (c.rq.take k)) (by simp) rfl
  simp only [utter, accepted, handed, List.append_nil] at ht
  exact ⟨⟨h.calm.isOpen, h.calm.lock, h.calm.reset, h.calm.lineRead, ⟨h.calm.line.len, h.calm.line.fill, h.calm.line.oob⟩, h.calm.fill,
      h.calm.ser⟩, ht, h.st, h.host, h.port, h.typ, h.data,
      h.wbuf, h.wcap, hp.1, (Ring.size_pullN _ _).trans h.rcap, h.rcv, h.rd, h.bw, h.ext⟩

/-- A driver that takes a block of data: `b` has arrived already. -/
structure Take (c : Conf) (E : X → Prop) (t0 : List Ev) (T : List (List Byte)) (q : St S R) (b : List Byte) (d : Dev S R X) : Prop where
  lineRead : d.lineRead = false
  ser : Ser.Calm d.ser b c.rx c.tx
  free : d.ser.txFree = c.tx
  talk : ∃ s, Talk c E t0 T q { d with lineRead := true, ser := s }

/-- The driver starts to take a block. -/
theorem Take.start (h : Talk c E t0 T q d) (hf : d.ser.txFree = c.tx) : Take c E t0 T q [] { d with lineRead := false } := by
  refine ⟨rfl, h.calm.ser, hf, d.ser, ?_⟩
  have := h.calm.lineRead
  cases d; simp only at this; subst this; exact h

/-- `write()` while a block is taken. -/
theorem Take.write {b : List Byte} (h : Take c E t0 T q b d) (bs : List Byte) :
    ∃ x, Take { c with wq := c.wq ++ x, took := c.took ++ x } E t0 T q b (d.common (.write bs)) ∧
      (d.common (.write bs)).ipConnected = d.ipConnected := by
  obtain ⟨s, h1⟩ := h.talk
  have h2 := h1.write bs
  have w1 : ∀ e : Dev S R X, e.cs = .connected → e.common (.write bs) =
      ({ e with wbuf := (e.wbuf.pushN bs).1 } : Dev S R X).log (.apiWrite (bs.take (e.wbuf.pushN bs).2)) := fun e he => by
    show (e.write bs).1.log (.apiWrite (bs.take (e.write bs).2)) = _
    have : e.write bs = ({ e with wbuf := (e.wbuf.pushN bs).1 }, (e.wbuf.pushN bs).2) := by
      unfold Dev.write; rw [if_neg (by simp [he])]
    rw [this]
  have w2 : ∀ e : Dev S R X, e.cs ≠ .connected → e.common (.write bs) = e.log (.apiWrite (bs.take 0)) := fun e he => by
    show (e.write bs).1.log (.apiWrite (bs.take (e.write bs).2)) = _
    have : e.write bs = (e, 0) := by
      unfold Dev.write; rw [if_pos he]
    rw [this]
  have e : ({ d with lineRead := true, ser := s } : Dev S R X).common (.write bs) =
      { d.common (.write bs) with lineRead := true, ser := s } := by
    by_cases hc : d.cs = .connected
    · rw [w1 d hc]; exact w1 { d with lineRead := true, ser := s } hc
    · rw [w2 d hc]; exact w2 { d with lineRead := true, ser := s } hc
  have es : (d.common (.write bs)).ser = d.ser ∧ (d.common (.write bs)).lineRead = d.lineRead ∧
      (d.common (.write bs)).ipConnected = d.ipConnected := by
    by_cases hc : d.cs = .connected
    · rw [w1 d hc]; exact ⟨rfl, rfl, rfl⟩
    · rw [w2 d hc]; exact ⟨rfl, rfl, rfl⟩
  rw [e] at h2
  by_cases hq : q.cs = .connected
  · rw [if_pos hq] at h2
    exact ⟨_, ⟨es.2.1.trans h.lineRead, by rw [es.1]; exact h.ser, by rw [es.1]; exact h.free, s, h2.1⟩, es.2.2⟩
  · rw [if_neg hq] at h2
    refine ⟨[], ⟨es.2.1.trans h.lineRead, by rw [es.1]; exact h.ser, by rw [es.1]; exact h.free, s, ?_⟩, es.2.2⟩
    rw [List.append_nil, List.append_nil]
    exact h2.1

/-- `read()` while a block is taken. -/
theorem Take.read {b : List Byte} (h : Take c E t0 T q b d) (k : Nat) :
    Take { c with rq := c.rq.drop k, gave := c.gave ++ c.rq.take k } E t0 T q b (d.common (.read k)) := by
  obtain ⟨s, h1⟩ := h.talk
  exact ⟨h.lineRead, h.ser, h.free, s, (h1.read k).1⟩

/-- More bytes arrive. -/
theorem Take.hearing {b : List Byte} (h : Take c E t0 T q b d) {n : Nat} (hn : c.tx ≤ n) (l : List Byte)
    (hl : b.length + l.length ≤ c.rx) : Take c E t0 T q (b ++ l) (hearing d n l) := by
  have h1 := h.ser.drain n
  have h2 := h1.1.arrive l hl
  obtain ⟨s, h3⟩ := h.talk
  refine ⟨h.lineRead, h2.1, ?_, s, h3⟩
  show Ser.txFree _ = _
  rw [h2.2.1]
  unfold Ser.txFree
  rw [h1.1.txs, h1.2.2]
  have := h.ser.bnd.av
  have := h.ser.txs
  omega

/-- `receive()` when the block is incomplete. -/
theorem Take.wait {b : List Byte} (h : Take c E t0 T q b d) (hb : b.length < c.rd) : d.receive = (d, false) := by
  obtain ⟨s, h1⟩ := h.talk
  have h2 : d.bytesToRead = c.rd := h1.rd
  unfold Dev.receive Dev.serAvail Dev.askAvail
  rw [h.ser.bytesAvailable, if_neg (by rw [h2]; show ¬ b.length ≥ c.rd; omega)]

/-- `receive()` when the block is complete. -/
theorem Take.all {b : List Byte} (h : Take c E t0 T q b d) (hb : b.length = c.rd) (hs : c.rq.length + c.rd ≤ c.rcap) :
    d.receive.2 = true ∧ Talk { c with rq := c.rq ++ b, rd := 0 } E t0 T q d.receive.1 ∧ d.receive.1.ser.txFree = c.tx ∧
      d.receive.1.ipConnected = d.ipConnected := by
  obtain ⟨s, h1⟩ := h.talk
  have h2 : d.bytesToRead = b.length := by rw [hb]; exact h1.rd
  have hr := Ser.Calm.readLoop (l := b) (rq := []) (s := d.ser) (rx := c.rx) (tx := c.tx) (by rw [List.append_nil]; exact h.ser)
  unfold Dev.receive Dev.serAvail Dev.askAvail
  rw [h.ser.bytesAvailable, h2, if_pos (Nat.le_refl _)]
  dsimp only
  rw [hr.2.1]
  refine ⟨rfl, ⟨⟨h1.calm.isOpen, h1.calm.lock, h1.calm.reset, rfl, ⟨h1.calm.line.len, h1.calm.line.fill, h1.calm.line.oob⟩, h1.calm.fill,
      hr.1⟩, h1.told.quiet _ rfl rfl rfl rfl, h1.st, h1.host, h1.port, h1.typ, h1.data,
      h1.wbuf, h1.wcap, rep_pushes h1.rbuf b (by rw [h1.rcap]; omega), ?_, h1.rcv, rfl, h1.bw, h1.ext⟩, ?_, rfl⟩
  · show (b.foldl Ring.push d.rbuf).size = c.rcap
    rw [← h1.rcap]
    show _ = d.rbuf.size
    clear hr h2 hb h
    generalize d.rbuf = r
    induction b generalizing r with
    | nil => rfl
    | cons x l ih => exact ih _
  · unfold Ser.txFree
    rw [hr.2.2.1]
    exact h.free

end Dev
end Verif
