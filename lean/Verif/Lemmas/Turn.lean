import Verif.Lemmas.Since
import Verif.Spec.Payload
import Verif.Spec.Waiting

/-! What one turn of the connection state machine of a driver does: nothing visible, one command, one
send command, one block of payload, or one block of received data. -/

namespace Verif

open Dev Spec

variable {S R X : Type}

/-! ### Decimal numbers -/

theorem decAux_zero (fuel n : Nat) (acc : List Byte) (h : (0 : Byte) ∉ acc) :
    (0 : Byte) ∉ decAux fuel n acc := by
  induction fuel generalizing n acc with
  | zero => exact h
  | succ fuel ih =>
    have hd : (0 : Byte) ≠ UInt8.ofNat (48 + n % 10) := by
      intro e
      have := congrArg UInt8.toNat e
      simp only [UInt8.toNat_ofNat'] at this
      have h1 : (0 : UInt8).toNat = 0 := rfl
      omega
    have h' : (0 : Byte) ∉ UInt8.ofNat (48 + n % 10) :: acc := by
      simp only [List.mem_cons, not_or]; exact ⟨hd, h⟩
    unfold decAux
    dsimp only
    split
    · exact h'
    · exact ih _ _ h'

theorem dec_zero (n : Nat) : (0 : Byte) ∉ dec n := decAux_zero _ _ _ (by simp)

theorem dec5_zero (n : Nat) : (0 : Byte) ∉ dec5 n := fun h => dec_zero n (List.mem_of_mem_take h)

theorem dec5_length (n : Nat) : (dec5 n).length ≤ 5 := by
  unfold dec5; rw [List.length_take]; omega

theorem decAux_len (fuel n : Nat) (acc : List Byte) :
    (decAux fuel n acc).length ≤ acc.length + fuel := by
  induction fuel generalizing n acc with
  | zero => simp [decAux]
  | succ fuel ih =>
    unfold decAux
    dsimp only
    split
    · simp
    · have := ih (n / 10) (UInt8.ofNat (48 + n % 10) :: acc)
      simp only [List.length_cons] at this
      omega

theorem dec_len (n : Nat) : (dec n).length ≤ 10 := by
  have := decAux_len 10 (n % 4294967296) []
  simpa [dec] using this

/-! ### Complete writes -/

theorem Dev.cmd_full (d : Dev S R X) (s : List Byte) (h0 : (0 : Byte) ∉ s)
    (h : s.length ≤ d.ser.txFree) :
    (d.cmd s).trace = d.trace ++ [.cmd s s] ∧ d.ser.txFree ≤ (d.cmd s).ser.txFree + s.length := by
  have := Ser.writeStr_all d.ser s h0 h
  refine ⟨?_, this.2⟩
  rw [Dev.cmd_trace, this.1, List.take_length]

theorem Dev.arg_full (d : Dev S R X) (s : List Byte) (h0 : (0 : Byte) ∉ s)
    (h : s.length ≤ d.ser.txFree) :
    (d.arg s).trace = d.trace ++ [.arg s s] ∧ d.ser.txFree ≤ (d.arg s).ser.txFree + s.length := by
  have := Ser.writeStr_all d.ser s h0 h
  refine ⟨?_, this.2⟩
  rw [Dev.arg_trace, this.1, List.take_length]

theorem Dev.cmdN_full (d : Dev S R X) (s : List Byte) (h : s.length ≤ d.ser.txFree) :
    (d.cmdN s).trace = d.trace ++ [.cmd s s] ∧ d.ser.txFree ≤ (d.cmdN s).ser.txFree + s.length := by
  have := Ser.write_all d.ser s h
  refine ⟨?_, this.2⟩
  rw [Dev.cmdN_trace, this.1, List.take_length]

theorem Dev.argN_full (d : Dev S R X) (s : List Byte) (h : s.length ≤ d.ser.txFree) :
    (d.argN s).trace = d.trace ++ [.arg s s] ∧ d.ser.txFree ≤ (d.argN s).ser.txFree + s.length := by
  have := Ser.write_all d.ser s h
  refine ⟨?_, this.2⟩
  rw [Dev.argN_trace, this.1, List.take_length]

/-- `prepareSending` sends its command completely, and there is room for a line end. -/
theorem Dev.prepareSending_full {d : Dev S R X} {c : Bool} (h : (d.prepareSending c).2 = true) :
    (d.prepareSending c).1.trace = d.trace ++ [.cmd sendCmd sendCmd] ++
      (if c then [.arg b!"0," b!"0,"] else []) ++ [.arg (dec5 d.sendAmount) (dec5 d.sendAmount)] ∧
    2 ≤ (d.prepareSending c).1.ser.txFree := by
  have key : ∀ (d3 : Dev S R X) (n : Nat), d3.trace = d.trace → 22 ≤ d3.ser.txFree →
      let d4 := { d3 with bytesToWrite := n }
      let d5 := d4.cmd b!"AT+CIPSEND="
      let d6 := if c then d5.arg b!"0," else d5
      let d7 := d6.arg (dec5 n)
      d7.trace = d.trace ++ [.cmd sendCmd sendCmd] ++
        (if c then [.arg b!"0," b!"0,"] else []) ++ [.arg (dec5 n) (dec5 n)] ∧ 2 ≤ d7.ser.txFree := by
    intro d3 n ht hf d4 d5
    have h5 := cmd_full d4 b!"AT+CIPSEND=" (by decide) (by simp [d4]; omega)
    have h5f : 11 ≤ d5.ser.txFree := by
      have := h5.2
      simp [d4] at this
      simp only [d5, d4]; omega
    have hn := dec5_length n
    cases c with
    | false =>
      intro d6 d7
      have h7 := arg_full d6 (dec5 n) (dec5_zero n) (by simp [d6]; omega)
      simp only [d6, Bool.false_eq_true, if_false, List.append_nil] at h7 ⊢
      exact ⟨by simp only [d7, d6, Bool.false_eq_true, if_false]; rw [h7.1, h5.1]; simp [d4, ht, sendCmd], by
        have := h7.2; simp only [d7, d6, Bool.false_eq_true, if_false]; omega⟩
    | true =>
      intro d6 d7
      have h6 := arg_full d5 b!"0," (by decide) (by simp; omega)
      have h6f : 9 ≤ d6.ser.txFree := by
        have := h6.2
        simp at this
        simp only [d6, if_true]; omega
      have h7 := arg_full d6 (dec5 n) (dec5_zero n) (by omega)
      simp only [d6, if_true] at h7 ⊢
      exact ⟨by simp only [d7, d6, if_true]; rw [h7.1, h6.1, h5.1]; simp [d4, ht, sendCmd], by
        have := h7.2
        simp only [d6, if_true] at h6f
        simp only [d7, d6, if_true]; omega⟩
  unfold Dev.prepareSending at h ⊢
  by_cases hs : d.serSpace < minSpace
  · rw [if_pos hs] at h; simp at h
  · rw [if_neg hs]
    have f0 : 22 ≤ d.askSpace.ser.txFree := by
      rw [txFree_askSpace]; simp only [minSpace] at hs; omega
    have f1 := Ser.txFree_sync d.askSpace.ser
    have f2 := Ser.txFree_sync d.askSpace.askSpace.ser
    have e1 : d.askSpace.askSpace.ser.txFree = d.askSpace.ser.sync.txFree := rfl
    have e2 : d.askSpace.askSpace.askSpace.ser.txFree = d.askSpace.askSpace.ser.sync.txFree := rfl
    exact key (if d.askSpace.wbuf.bytesAvailable > d.askSpace.serSpace - minSpace
        then d.askSpace.askSpace.askSpace else d.askSpace.askSpace) d.sendAmount (by split <;> rfl)
        (by split <;> omega)

/-! ### One turn -/

/-- Further parts of a command. -/
def isArg : Ev → Bool
  | .arg _ _ => true
  | _ => false

/-- What the serial device accepted of the further parts of a command. -/
def gots : List Ev → List (List Byte)
  | [] => []
  | .arg _ g :: es => g :: gots es
  | _ :: es => gots es

/-- Members that only sending and receiving data change. -/
structure Keep (d d' : Dev S R X) : Prop where
  wbuf : d'.wbuf = d.wbuf
  rbuf : d'.rbuf = d.rbuf
  toWrite : d'.bytesToWrite = d.bytesToWrite
  toRead : d'.bytesToRead = d.bytesToRead
  toReceive : d'.bytesToReceive = d.bytesToReceive
  reset : d'.resetPending = d.resetPending

/-- One turn of the state machine. `sd`: the state in which payload is sent; `rc`: the state in which
data are received; `shape n args`: the arguments of the send command for `n` bytes; `Q k e`: in state
`e` the driver waits for the answer to the command `k` (`none`: payload). -/
inductive Turn (sd rc : S) (shape : Nat → List (List Byte) → Prop)
    (Q : Option (List Byte) → Dev S R X → Prop) (d d' : Dev S R X) : Prop
  | quiet (ht : d'.trace = d.trace) (hs : d'.snd ≠ sd) (hk : Keep d d') : Turn sd rc shape Q d d'
  | cmd (w g : List Byte) (rest : List Ev) (ht : d'.trace = d.trace ++ .cmd w g :: rest)
      (hw : w ≠ sendCmd) (ha : rest.all isArg = true) (hs : d'.snd ≠ sd) (hk : Keep d d')
      (hq : Q (some w) d') :
      Turn sd rc shape Q d d'
  | send (rest : List Ev) (ht : d'.trace = d.trace ++ .cmd sendCmd sendCmd :: rest)
      (ha : rest.all isArg = true) (hn : d'.bytesToWrite = d.sendAmount)
      (hsh : shape d.sendAmount (gots rest)) (hw : d'.wait = some b!">") (hr : d'.rep = d.rep) (hs : d'.snd = sd)
      (hk : Keep d { d' with bytesToWrite := d.bytesToWrite }) : Turn sd rc shape Q d d'
  | pay (h0 : d.snd = sd) (ht : d'.trace = d.trace ++ [.pay (pulls d.wbuf d.bytesToWrite).2])
      (hb : d'.wbuf = (pulls d.wbuf d.bytesToWrite).1) (hs : d'.snd ≠ sd)
      (hk : Keep d { d' with wbuf := d.wbuf, bytesToWrite := d.bytesToWrite }) (hp : Q none d') : Turn sd rc shape Q d d'
  | data (h0 : d.snd = rc) (hq : d.receive.2 = true) (h1 : 0 < d.bytesToRead)
      (ht : d'.trace = d.receive.1.trace) (hb : d'.rbuf = d.receive.1.rbuf) (h2 : d'.bytesToRead = 0)
      (hs : d'.snd ≠ sd) (hl : d'.lineRead = true)
      (hk : Keep d { d' with rbuf := d.rbuf, bytesToRead := d.bytesToRead }) : Turn sd rc shape Q d d'

/-- The driver waits for the answer to `k`, by `_waitForReply` or by `_replyState`. -/
def Waits (r : Replies) (special : Option (List Byte) → R → Prop) (k : Option (List Byte))
    (d : Dev S R X) : Prop :=
  (∃ q ∈ r.words k, d.wait = some q) ∨ special k d.rep

theorem Keep.refl (d : Dev S R X) : Keep d d := ⟨rfl, rfl, rfl, rfl, rfl, rfl⟩

theorem Keep.trans {a b c : Dev S R X} (h : Keep a b) (h' : Keep b c) : Keep a c :=
  ⟨h'.wbuf.trans h.wbuf, h'.rbuf.trans h.rbuf, h'.toWrite.trans h.toWrite, h'.toRead.trans h.toRead,
    h'.toReceive.trans h.toReceive, h'.reset.trans h.reset⟩

/-- The driver gave the command `w` with arguments. -/
structure Said (d : Dev S R X) (w : List Byte) (d' : Dev S R X) : Prop where
  trace : ∃ g rest, d'.trace = d.trace ++ .cmd w g :: rest ∧ rest.all isArg = true
  keep : Keep d d'

theorem said_cmd (d : Dev S R X) (w : List Byte) : Said d w (d.cmd w) :=
  ⟨⟨_, [], Dev.cmd_trace d w, rfl⟩, ⟨rfl, rfl, rfl, rfl, rfl, rfl⟩⟩

theorem said_cmdN (d : Dev S R X) (w : List Byte) : Said d w (d.cmdN w) :=
  ⟨⟨_, [], Dev.cmdN_trace d w, rfl⟩, ⟨rfl, rfl, rfl, rfl, rfl, rfl⟩⟩

theorem Said.set {d e e' : Dev S R X} {w : List Byte} (h : Said d w e) (ht : e'.trace = e.trace)
    (hk : Keep e e') : Said d w e' :=
  ⟨by rw [ht]; exact h.trace, h.keep.trans hk⟩

theorem Said.pre {d0 d e : Dev S R X} {w : List Byte} (h : Said d w e) (ht : d.trace = d0.trace)
    (hk : Keep d0 d) : Said d0 w e :=
  ⟨by rw [← ht]; exact h.trace, hk.trans h.keep⟩

theorem Said.arg {d e : Dev S R X} {w : List Byte} (h : Said d w e) (s : List Byte) :
    Said d w (e.arg s) := by
  obtain ⟨⟨g, rest, ht, ha⟩, hk⟩ := h
  refine ⟨⟨g, rest ++ [.arg s (s.take (e.ser.writeStr s).2)], ?_, ?_⟩,
    hk.trans ⟨rfl, rfl, rfl, rfl, rfl, rfl⟩⟩
  · rw [Dev.arg_trace, ht]; simp
  · simp [ha, isArg, List.all_append]

theorem Said.argN {d e : Dev S R X} {w : List Byte} (h : Said d w e) (s : List Byte) :
    Said d w (e.argN s) := by
  obtain ⟨⟨g, rest, ht, ha⟩, hk⟩ := h
  refine ⟨⟨g, rest ++ [.arg s (s.take (e.ser.write s).2)], ?_, ?_⟩,
    hk.trans ⟨rfl, rfl, rfl, rfl, rfl, rfl⟩⟩
  · rw [Dev.argN_trace, ht]; simp
  · simp [ha, isArg, List.all_append]

theorem said_sendCommand (d : Dev S R X) (w : List Byte) : Said d w (d.sendCommand w) :=
  (said_cmd d w).arg _

theorem Turn.of_said {sd rc : S} {shape : Nat → List (List Byte) → Prop}
    {Q : Option (List Byte) → Dev S R X → Prop} {d d' : Dev S R X}
    {w : List Byte} (h : Said d w d') (hw : w ≠ sendCmd) (hs : d'.snd ≠ sd)
    (hq : Q (some w) d') : Turn sd rc shape Q d d' := by
  obtain ⟨⟨g, rest, ht, ha⟩, hk⟩ := h
  exact .cmd w g rest ht hw ha hs hk hq

/-- A simple command. -/
theorem Turn.of_sendCommand {sd rc : S} {shape : Nat → List (List Byte) → Prop}
    {Q : Option (List Byte) → Dev S R X → Prop} {d d' : Dev S R X}
    {w : List Byte} (h : d' = { d.sendCommand w with
      ser := d'.ser, cs := d'.cs, lineRead := d'.lineRead, wait := d'.wait, snd := d'.snd, rep := d'.rep,
      delay := d'.delay }) (hw : w ≠ sendCmd) (hs : d'.snd ≠ sd)
    (hq : Q (some w) d') : Turn sd rc shape Q d d' :=
  .of_said ((said_sendCommand d w).set (by rw [h]) (by rw [h]; exact ⟨rfl, rfl, rfl, rfl, rfl, rfl⟩)) hw hs hq

theorem said_sendDnsQuery {S R : Type} {d : SimDev S R} (h : d.sendDnsQuery.2 = true) :
    Said d b!"AT+CDNSGIP=\"" d.sendDnsQuery.1 := by
  obtain ⟨g1, g2, g3, ht⟩ := SimDev.sendDnsQuery_true h
  exact ⟨⟨g1, [.arg (d.host.getD []) g2, .arg quoteEnd g3], by rw [ht]; simp, rfl⟩,
    by constructor <;> simp⟩

theorem said_sendCiprxget2 {S R : Type} {d : SimDev S R} (h : d.sendCiprxget2.2 = true) :
    Said d b!"AT+CIPRXGET=2,0," d.sendCiprxget2.1 := by
  obtain ⟨g1, g2, g3, ht⟩ := SimDev.sendCiprxget2_true h
  exact ⟨⟨g1, [.arg (dec d.askAmount) g2, .arg lineEnd g3], by rw [ht]; simp, rfl⟩,
    by constructor <;> simp⟩

end Verif
