import Verif.Lemmas.OneTx
import Verif.Lemmas.Receiving
import Verif.Lemmas.RecvSim7x00
import Verif.Lemmas.RecvSim800
import Verif.Lemmas.RecvCC1352P7
import Verif.Lemmas.RecvEspressif

/-! How much a data request asks for, in every state. -/

namespace Verif

open Dev Spec

variable {S R X : Type}

/-! ### No byte arrives -/

/-- No byte is received while the driver runs. -/
def RxQuiet (s : Ser) : Prop := ∀ b ∈ s.sched, ∀ h ∈ b, h.rx = none

namespace RxQuiet

theorem later {s s' : Ser} (h : RxQuiet s) (hl : Ser.Later s s') : RxQuiet s' :=
  fun b hb => h b (hl.sched.subset hb)

theorem transfers {s : Ser} {b : List Hw} (h : ∀ x ∈ b, x.rx = none) : (s.transfers b).rx = s.rx := by
  unfold Ser.transfers
  induction b generalizing s with
  | nil => rfl
  | cons x xs ih =>
    rw [List.foldl_cons, ih fun y hy => h y (by simp [hy])]
    unfold Ser.transfer
    rw [h x (by simp)]
    unfold Ser.transferRx Ser.transferTx
    dsimp only
    (repeat' split) <;> rfl

theorem sync {s : Ser} (h : RxQuiet s) : s.sync.rx = s.rx := by
  unfold Ser.sync
  split
  · split
    · rfl
    · rename_i b bs hb
      rw [transfers (s := { s with sched := bs }) (h b (by rw [hb]; simp))]
  · rfl

theorem copyToBuffer {s : Ser} (h : RxQuiet s) (c : Byte) : (s.copyToBuffer c).rx = s.rx :=
  h.sync

theorem writeStrLoop {s : Ser} (h : RxQuiet s) (sp n : Nat) (data : List Byte) :
    (s.writeStrLoop sp n data).1.rx = s.rx := by
  induction data generalizing s n with
  | nil => rfl
  | cons c cs ih =>
    unfold Ser.writeStrLoop
    split
    · rw [ih (h.later (Ser.later_copyToBuffer s c)), h.copyToBuffer]
    · rfl

theorem writeStr {s : Ser} (h : RxQuiet s) (data : List Byte) : (s.writeStr data).1.rx = s.rx := by
  have := writeStrLoop (h.later (Ser.later_spaceAvailable s)) s.spaceAvailable.2 0 data
  exact this.trans h.sync

theorem writeLoop {s : Ser} (h : RxQuiet s) (data : List Byte) : (s.writeLoop data).rx = s.rx := by
  induction data generalizing s with
  | nil => rfl
  | cons c cs ih =>
    unfold Ser.writeLoop
    rw [ih (h.later (Ser.later_copyToBuffer s c)), h.copyToBuffer]

theorem write {s : Ser} (h : RxQuiet s) (data : List Byte) : (s.write data).1.rx = s.rx := by
  have := writeLoop (h.later (Ser.later_spaceAvailable s))
    (data.take (if data.length > s.spaceAvailable.2 then s.spaceAvailable.2 else data.length))
  exact this.trans h.sync

end RxQuiet

/-- Free places of the serial receive buffer. -/
def Ser.rxFree (s : Ser) : Nat := s.readBufferSize - s.rx.ring.bytesAvailable

theorem requestAmount_pos {free reserve announced space maxRx : Nat} (h1 : reserve < free)
    (h2 : 0 < announced) (h3 : 0 < space) (h4 : 0 < maxRx) (h5 : free < 2 ^ 64) :
    1 ≤ SimDev.requestAmount free reserve announced space maxRx ∧
    SimDev.requestAmount free reserve announced space maxRx + reserve ≤ free := by
  have e : toU64 ((free : Int) - (reserve : Int)) = free - reserve := by
    unfold toU64
    have : ((free : Int) - (reserve : Int)) = ((free - reserve : Nat) : Int) := by omega
    rw [this]
    omega
  unfold SimDev.requestAmount
  rw [e]
  dsimp only
  (repeat' split) <;> omega

/-! ### The request of one call -/

/-- From `d` to `e` no data request was sent, or just one, by the last transmission, with limits kept. -/
def Asks (w : List Byte) (reserve : Nat) (lim : Dev S R X → Nat) (d e : Dev S R X) : Prop :=
  ∃ new, e.trace = d.trace ++ new ∧ ((∀ g, Ev.cmd w g ∉ new) ∨
    ∃ pre n k g g', new = pre ++ [.cmd w g, .arg (dec n) ((dec n).take k), .arg lineEnd g'] ∧
      (∀ g, Ev.cmd w g ∉ pre) ∧ n ≤ e.rbuf.spaceAvailable ∧ n ≤ e.bytesToReceive ∧ n ≤ lim e ∧
      (RxQuiet d.ser → e.ser.readBufferSize < 2 ^ 64 → 0 < lim e →
        1 ≤ n ∧ n + reserve ≤ e.ser.rxFree))

/-- From `d` to `e` no data request was sent. -/
def Unasked (w : List Byte) (d e : Dev S R X) : Prop :=
  Ser.Later d.ser e.ser ∧ ∃ new, e.trace = d.trace ++ new ∧ ∀ g, Ev.cmd w g ∉ new

variable {w : List Byte} {reserve : Nat} {lim : Dev S R X → Nat}

theorem Unasked.asks {d e : Dev S R X} (h : Unasked w d e) : Asks w reserve lim d e := by
  obtain ⟨_, new, h1, h2⟩ := h
  exact ⟨new, h1, Or.inl h2⟩

theorem Unasked.refl (d : Dev S R X) : Unasked w d d := ⟨.refl _, [], by simp, by simp⟩

theorem Unasked.trans {a b c : Dev S R X} (h : Unasked w a b) (h' : Unasked w b c) : Unasked w a c := by
  obtain ⟨h0, x, h1, h2⟩ := h
  obtain ⟨h0', y, h3, h4⟩ := h'
  refine ⟨h0.trans h0', x ++ y, by rw [h3, h1, List.append_assoc], fun g hg => ?_⟩
  rcases List.mem_append.mp hg with q | q
  · exact h2 g q
  · exact h4 g q

theorem Unasked.then {a b c : Dev S R X} (h : Unasked w a b) (h' : Asks w reserve lim b c) :
    Asks w reserve lim a c := by
  obtain ⟨h0, x, h1, h2⟩ := h
  obtain ⟨y, h3, h4⟩ := h'
  refine ⟨x ++ y, by rw [h3, h1, List.append_assoc], ?_⟩
  rcases h4 with h4 | ⟨pre, n, k, g, g', h5, h6, h7, h8, h9, h10⟩
  · refine Or.inl fun g hg => ?_
    rcases List.mem_append.mp hg with q | q
    · exact h2 g q
    · exact h4 g q
  · refine Or.inr ⟨x ++ pre, n, k, g, g', by rw [h5, List.append_assoc], fun g hg => ?_, h7, h8, h9,
      fun hq => h10 (hq.later h0)⟩
    rcases List.mem_append.mp hg with q | q
    · exact h2 g q
    · exact h6 g q

theorem Unasked.said {d e : Dev S R X} {v : List Byte} (h : Said d v e) (hv : v ≠ w)
    : ∃ new, e.trace = d.trace ++ new ∧ ∀ g, Ev.cmd w g ∉ new := by
  obtain ⟨⟨g, rest, ht, ha⟩, _⟩ := h
  refine ⟨_, ht, fun g' hg => ?_⟩
  rcases List.mem_cons.mp hg with q | q
  · injection q with q; exact hv q.symm
  · have := List.all_eq_true.mp ha _ q
    simp [isArg] at this

/-- The last step. -/
theorem asks_of_said {d e : Dev S R X} {v : List Byte} (h : Said d v e) (hv : v ≠ w) :
    Asks w reserve lim d e := by
  obtain ⟨new, h1, h2⟩ := Unasked.said h hv
  exact ⟨new, h1, Or.inl h2⟩

theorem asks_turn {sd rc : S} {shape : Nat → List (List Byte) → Prop}
    {Q : Option (List Byte) → Dev S R X → Prop} {d e : Dev S R X} (hw : sendCmd ≠ w)
    (hq : ¬ Q (some w) e) (h : Turn sd rc shape Q d e) : Asks w reserve lim d e := by
  cases h with
  | quiet ht hs hk => exact ⟨[], by simp [ht], Or.inl (by simp)⟩
  | cmd v g rest ht hv ha hs hk hq' =>
    exact asks_of_said ⟨⟨g, rest, ht, ha⟩, hk⟩ fun x => hq (x ▸ hq')
  | send rest ht ha hn hsh hwt hrp hs hk =>
    refine ⟨_, ht, Or.inl fun g' hg => ?_⟩
    rcases List.mem_cons.mp hg with q | q
    · injection q with q; exact hw q.symm
    · have := List.all_eq_true.mp ha _ q
      simp [isArg] at this
  | pay h1 ht hb hs hk hp => exact ⟨_, ht, Or.inl (by simp)⟩
  | data h1 hq h2 ht hb h3 hs hl hk =>
    exact ⟨_, ht.trans (receive_true hq).1, Or.inl (by simp)⟩


theorem unasked_fillLine (d : Dev S R X) (stop : Mem → Nat → Byte → Option R) :
    Unasked w d (d.fillLine stop).1 := by
  refine ⟨later_fillLine d stop, ?_⟩
  unfold fillLine
  split
  · dsimp only
    split
    · exact ⟨[], by simp, by simp⟩
    · exact ⟨_, rfl, by simp⟩
  · exact ⟨[], by simp, by simp⟩

theorem unasked_drop (d : Dev S R X) : Unasked w d d.flushReadBuffer :=
  ⟨later_flushLoop _ _, [_], rfl, by simp⟩

theorem unasked_askSpace (d : Dev S R X) : Unasked w d d.askSpace :=
  ⟨Ser.later_spaceAvailable _, [], by simp, by simp⟩

theorem Unasked.same {d e : Dev S R X} (ht : e.trace = d.trace) (hs : e.ser = d.ser) : Unasked w d e :=
  ⟨by rw [hs]; exact .refl _, [], by simp [ht], by simp⟩


namespace Sim7x00

theorem parseLine_ser (p : Platform) (d : D) : (parseLine p d).1.ser = d.ser := by
  have hw : ∀ e : D, (parseWait e).1.ser = e.ser := by
    intro e; unfold parseWait; (repeat' split) <;> rfl
  have hp : ∀ e : D, (parseReply p e).1.ser = e.ser := by
    intro e; unfold parseReply
    split <;> (try dsimp only) <;> (repeat' split) <;> simp
  have hc : ∀ e : D, (checkState e).ser = e.ser := by
    intro e; unfold checkState; split <;> simp
  unfold parseLine
  (try dsimp only)
  (repeat' split) <;> simp only [hc, hp, hw]

/-- What `sendCiprxget2` asks for. -/
theorem asks_request (d : D) : Asks requestSim 8 (fun e => e.ext.maxRx) d (actCiprxget2 d) := by
  unfold actCiprxget2
  split
  · exact (Unasked.same (by simp) (by simp)).asks
  · by_cases h2 : d.bytesToReceive > 0
    · rw [if_pos h2]
      dsimp only
      by_cases hq : d.sendCiprxget2.2 = true
      · rw [if_pos hq]
        obtain ⟨g1, k, g3, ht⟩ := SimDev.sendCiprxget2_take hq
        obtain ⟨l1, l2, l3⟩ := SimDev.askAmount_le d
        refine ⟨_, ht, Or.inr ⟨[], d.askAmount, k, g1, g3, rfl, by simp, by simpa using l1,
          by simpa using l2, by simpa using l3, fun h h64 hm => ?_⟩⟩
        have hm' : 0 < d.ext.maxRx := by simpa using hm
        have h1 : RxQuiet d.askAvail.ser := h.later (Ser.later_bytesAvailable _)
        have h1' : RxQuiet d.askAvail.askAvail.ser := h1.later (Ser.later_bytesAvailable _)
        have e1 : d.askAvail.ser.rx = d.ser.rx := h.sync
        have e1' : d.askAvail.askAvail.ser.rx = d.ser.rx := h1.sync.trans e1
        have e2 : d.serAvail = d.ser.rx.ring.bytesAvailable := by
          show d.ser.sync.rx.ring.bytesAvailable = _; rw [h.sync]
        have e3 : d.askAvail.serAvail = d.ser.rx.ring.bytesAvailable := by
          show d.askAvail.ser.sync.rx.ring.bytesAvailable = _; rw [h1.sync, e1]
        unfold SimDev.sendCiprxget2 at hq h64 ⊢
        dsimp only at hq h64 ⊢
        by_cases hc : d.ser.readBufferSize - d.serAvail > 8 ∧ d.askAvail.rbuf.spaceAvailable > 0
        · rw [if_pos hc] at h64 ⊢
          have e4 : (((d.askAvail.askAvail.cmdN b!"AT+CIPRXGET=2,0,").arg (dec d.askAmount)).arg lineEnd).ser.rx =
              d.ser.rx := by
            have k1 : RxQuiet (d.askAvail.askAvail.cmdN b!"AT+CIPRXGET=2,0,").ser :=
              h1'.later (Ser.later_write _ _)
            have k2 : RxQuiet ((d.askAvail.askAvail.cmdN b!"AT+CIPRXGET=2,0,").arg (dec d.askAmount)).ser :=
              k1.later (Ser.later_writeStr _ _)
            exact (k2.writeStr _).trans ((k1.writeStr _).trans ((h1'.write _).trans e1'))
          have e5 : (((d.askAvail.askAvail.cmdN b!"AT+CIPRXGET=2,0,").arg (dec d.askAmount)).arg lineEnd).ser.rxFree =
              d.ser.readBufferSize - d.ser.rx.ring.bytesAvailable := by
            unfold Ser.rxFree Ser.readBufferSize; rw [e4]
          have e6 : d.ser.readBufferSize < 2 ^ 64 := by
            have : (((d.askAvail.askAvail.cmdN b!"AT+CIPRXGET=2,0,").arg (dec d.askAmount)).arg lineEnd).ser.readBufferSize < 2 ^ 64 := h64
            unfold Ser.readBufferSize at this ⊢
            rw [e4] at this; exact this
          have e7 : d.askAvail.ser.readBufferSize = d.ser.readBufferSize := by
            unfold Ser.readBufferSize; rw [e1]
          show 1 ≤ d.askAmount ∧ d.askAmount + 8 ≤
            (((d.askAvail.askAvail.cmdN b!"AT+CIPRXGET=2,0,").arg (dec d.askAmount)).arg lineEnd).ser.rxFree
          rw [e5]
          unfold SimDev.askAmount
          rw [e3, e7]
          rw [e2] at hc
          exact requestAmount_pos hc.1 h2 hc.2 hm' (by omega)
        · rw [if_neg hc] at hq; simp at hq
      · rw [if_neg hq, SimDev.sendCiprxget2_false (by simpa using hq)]
        exact ⟨[], by simp, Or.inl (by simp)⟩
    · rw [if_neg h2]
      split <;> exact (Unasked.same (by rfl) (by rfl)).asks

theorem asks_act (d : D) (hw : d.wait = none) (hp : d.rep = .okReply) :
    Asks requestSim 8 (fun e => e.ext.maxRx) d (act d) := by
  by_cases hs : d.snd = .sendCiprxget2
  · have e : act d = actCiprxget2 d := by simp only [act, hs]
    rw [e]; exact asks_request d
  · refine asks_turn (by decide) ?_ (act_turn d)
    intro x
    rcases x with ⟨q, hq, hwq⟩ | ⟨_, x⟩
    · refine act_wait hw (hwq.trans ?_)
      have : q ∈ [b!"+CIPRXGET: 2,0,"] := hq
      rw [List.mem_singleton.mp this]
    · exact act_rep hs hp x

theorem asks_proceed (d : D) : Asks requestSim 8 (fun e => e.ext.maxRx) d (proceed d) := by
  unfold proceed
  split
  · exact (Unasked.refl d).asks
  · rename_i hw
    have hw1 : d.wait = none := by
      cases hx : d.wait with
      | none => rfl
      | some w => exact absurd (Or.inl (by simp [hx])) hw
    have hw2 : d.rep = .okReply := Classical.byContradiction fun hx => hw (Or.inr hx)
    split
    · exact (unasked_askSpace d).asks
    · refine (unasked_askSpace d).then ?_
      have a1 : d.askSpace.wait = none := hw1
      have a2 : d.askSpace.rep = .okReply := hw2
      revert a1 a2
      generalize d.askSpace = d
      intro a1 a2
      unfold sendNext
      split
      · exact asks_of_said ((said_sendCommand d b!"AT+CSQ").set rfl ⟨rfl, rfl, rfl, rfl, rfl, rfl⟩) (by decide)
      · dsimp only
        by_cases hq : (SimDev.sendIDRequest d iccidCommand).2 = true
        · rw [if_pos hq]
          obtain ⟨v, hm, g1, g2, ht⟩ := SimDev.sendIDRequest_true hq
          refine ⟨_, (by simpa using ht : _ = d.trace ++ [.cmd v g1, .arg lineEnd g2]), Or.inl fun g hg => ?_⟩
          have : v = requestSim := by
            rcases List.mem_cons.mp hg with h | h
            · injection h with h; exact h.symm
            · simp at h
          subst this
          simp only [SimDev.idCommands, iccidCommand, requestSim] at hm
          exact absurd hm (by decide)
        · rw [if_neg hq]
          have h3 := SimDev.sendIDRequest_false (d := d) (c := iccidCommand) (by simpa using hq)
          have h4 : Unasked requestSim d (SimDev.sendIDRequest d iccidCommand).1 :=
            ⟨(SimDev.eff_sendIDRequest (x := NoHeader) (st := false) (.refl d) _).later, [], by simp [h3.1], by simp⟩
          exact h4.then (asks_act _ (by simp [a1]) (by simp [a2]))

theorem asks_run (p : Platform) (d : D) (ok : Bool) :
    Asks requestSim 8 (fun e => e.ext.maxRx) d (run p d ok) := by
  unfold run
  split
  · unfold tryOpen; split <;> exact (Unasked.same (by rfl) (by rfl)).asks
  · split
    · exact (Unasked.refl d).asks
    · split
      · refine ⟨[.flush, .cmd _ _, .arg _ _], (by simp [handleReset]; exact ⟨⟨rfl, rfl⟩, rfl, rfl⟩), Or.inl ?_⟩
        intro g hg
        simp only [List.mem_cons, List.not_mem_nil, or_false, reduceCtorEq, false_or] at hg
        injection hg with hg
        exact absurd hg (by decide)
      · unfold work
        have h1 : Unasked requestSim d d.fillLineBuffer.1 := unasked_fillLine d _
        dsimp only
        split
        · have h2 : Unasked requestSim d.fillLineBuffer.1 (parseLine p d.fillLineBuffer.1).1 :=
            .same (parseLine_trace p _) (parseLine_ser p _)
          split
          · exact (h1.trans h2).asks
          · exact (h1.trans h2).then (asks_proceed _)
        · have h2 : Unasked requestSim d.fillLineBuffer.1 (flushIfDisconnecting d.fillLineBuffer.1) := by
            unfold flushIfDisconnecting
            split
            · exact unasked_drop _
            · exact .refl _
          exact (h1.trans h2).then (asks_proceed _)

end Sim7x00

namespace Sim800

theorem parseLine_ser (p : Platform) (d : D) : (parseLine p d).1.ser = d.ser := by
  have hw : ∀ e : D, (parseWait e).ser = e.ser := by
    intro e; unfold parseWait; (repeat' split) <;> rfl
  have hp : ∀ e : D, (parseReply p e).ser = e.ser := by
    intro e; unfold parseReply
    split <;> (try dsimp only) <;> (repeat' split) <;> simp
  have hc : ∀ e : D, (checkState e).ser = e.ser := by
    intro e; unfold checkState; split <;> simp
  unfold parseLine
  (try dsimp only)
  (repeat' split) <;> simp only [hc, hp, hw]

/-- What `sendCiprxget2` asks for. -/
theorem asks_request (d : D) : Asks requestSim 8 (fun e => e.ext.maxRx) d (actCiprxget2 d) := by
  unfold actCiprxget2
  split
  · exact (Unasked.same (by simp) (by simp)).asks
  · by_cases h2 : d.bytesToReceive > 0
    · rw [if_pos h2]
      dsimp only
      by_cases hq : d.sendCiprxget2.2 = true
      · rw [if_pos hq]
        obtain ⟨g1, k, g3, ht⟩ := SimDev.sendCiprxget2_take hq
        obtain ⟨l1, l2, l3⟩ := SimDev.askAmount_le d
        refine ⟨_, ht, Or.inr ⟨[], d.askAmount, k, g1, g3, rfl, by simp, by simpa using l1,
          by simpa using l2, by simpa using l3, fun h h64 hm => ?_⟩⟩
        have hm' : 0 < d.ext.maxRx := by simpa using hm
        have h1 : RxQuiet d.askAvail.ser := h.later (Ser.later_bytesAvailable _)
        have h1' : RxQuiet d.askAvail.askAvail.ser := h1.later (Ser.later_bytesAvailable _)
        have e1 : d.askAvail.ser.rx = d.ser.rx := h.sync
        have e1' : d.askAvail.askAvail.ser.rx = d.ser.rx := h1.sync.trans e1
        have e2 : d.serAvail = d.ser.rx.ring.bytesAvailable := by
          show d.ser.sync.rx.ring.bytesAvailable = _; rw [h.sync]
        have e3 : d.askAvail.serAvail = d.ser.rx.ring.bytesAvailable := by
          show d.askAvail.ser.sync.rx.ring.bytesAvailable = _; rw [h1.sync, e1]
        unfold SimDev.sendCiprxget2 at hq h64 ⊢
        dsimp only at hq h64 ⊢
        by_cases hc : d.ser.readBufferSize - d.serAvail > 8 ∧ d.askAvail.rbuf.spaceAvailable > 0
        · rw [if_pos hc] at h64 ⊢
          have e4 : (((d.askAvail.askAvail.cmdN b!"AT+CIPRXGET=2,0,").arg (dec d.askAmount)).arg lineEnd).ser.rx =
              d.ser.rx := by
            have k1 : RxQuiet (d.askAvail.askAvail.cmdN b!"AT+CIPRXGET=2,0,").ser :=
              h1'.later (Ser.later_write _ _)
            have k2 : RxQuiet ((d.askAvail.askAvail.cmdN b!"AT+CIPRXGET=2,0,").arg (dec d.askAmount)).ser :=
              k1.later (Ser.later_writeStr _ _)
            exact (k2.writeStr _).trans ((k1.writeStr _).trans ((h1'.write _).trans e1'))
          have e5 : (((d.askAvail.askAvail.cmdN b!"AT+CIPRXGET=2,0,").arg (dec d.askAmount)).arg lineEnd).ser.rxFree =
              d.ser.readBufferSize - d.ser.rx.ring.bytesAvailable := by
            unfold Ser.rxFree Ser.readBufferSize; rw [e4]
          have e6 : d.ser.readBufferSize < 2 ^ 64 := by
            have : (((d.askAvail.askAvail.cmdN b!"AT+CIPRXGET=2,0,").arg (dec d.askAmount)).arg lineEnd).ser.readBufferSize < 2 ^ 64 := h64
            unfold Ser.readBufferSize at this ⊢
            rw [e4] at this; exact this
          have e7 : d.askAvail.ser.readBufferSize = d.ser.readBufferSize := by
            unfold Ser.readBufferSize; rw [e1]
          show 1 ≤ d.askAmount ∧ d.askAmount + 8 ≤
            (((d.askAvail.askAvail.cmdN b!"AT+CIPRXGET=2,0,").arg (dec d.askAmount)).arg lineEnd).ser.rxFree
          rw [e5]
          unfold SimDev.askAmount
          rw [e3, e7]
          rw [e2] at hc
          exact requestAmount_pos hc.1 h2 hc.2 hm' (by omega)
        · rw [if_neg hc] at hq; simp at hq
      · rw [if_neg hq, SimDev.sendCiprxget2_false (by simpa using hq)]
        exact ⟨[], by simp, Or.inl (by simp)⟩
    · rw [if_neg h2]
      split <;> exact (Unasked.same (by rfl) (by rfl)).asks

theorem asks_act (d : D) (hw : d.wait = none) (hp : d.rep = .okReply) :
    Asks requestSim 8 (fun e => e.ext.maxRx) d (act d) := by
  by_cases hs : d.snd = .sendCiprxget2
  · have e : act d = actCiprxget2 d := by simp only [act, hs]
    rw [e]; exact asks_request d
  · refine asks_turn (by decide) ?_ (act_turn d)
    intro x
    rcases x with ⟨q, hq, hwq⟩ | ⟨_, x⟩ | ⟨x, _⟩
    · refine act_wait hw (hwq.trans ?_)
      have : q ∈ [b!"+CIPRXGET: 2,0,"] := hq
      rw [List.mem_singleton.mp this]
    · exact act_rep hs hp x
    · exact absurd x (by decide)
theorem asks_proceed (d : D) : Asks requestSim 8 (fun e => e.ext.maxRx) d (proceed d) := by
  unfold proceed
  split
  · exact (Unasked.refl d).asks
  · rename_i hw
    have hw1 : d.wait = none := by
      cases hx : d.wait with
      | none => rfl
      | some w => exact absurd (Or.inl (by simp [hx])) hw
    have hw2 : d.rep = .okReply := Classical.byContradiction fun hx => hw (Or.inr hx)
    split
    · exact (unasked_askSpace d).asks
    · refine (unasked_askSpace d).then ?_
      have a1 : d.askSpace.wait = none := hw1
      have a2 : d.askSpace.rep = .okReply := hw2
      revert a1 a2
      generalize d.askSpace = d
      intro a1 a2
      unfold sendNext
      split
      · exact asks_of_said ((said_sendCommand d b!"AT+CSQ").set rfl ⟨rfl, rfl, rfl, rfl, rfl, rfl⟩) (by decide)
      · dsimp only
        by_cases hq : (SimDev.sendIDRequest d iccidCommand).2 = true
        · rw [if_pos hq]
          obtain ⟨v, hm, g1, g2, ht⟩ := SimDev.sendIDRequest_true hq
          refine ⟨_, (by simpa using ht : _ = d.trace ++ [.cmd v g1, .arg lineEnd g2]), Or.inl fun g hg => ?_⟩
          have : v = requestSim := by
            rcases List.mem_cons.mp hg with h | h
            · injection h with h; exact h.symm
            · simp at h
          subst this
          simp only [SimDev.idCommands, iccidCommand, requestSim] at hm
          exact absurd hm (by decide)
        · rw [if_neg hq]
          have h3 := SimDev.sendIDRequest_false (d := d) (c := iccidCommand) (by simpa using hq)
          have h4 : Unasked requestSim d (SimDev.sendIDRequest d iccidCommand).1 :=
            ⟨(SimDev.eff_sendIDRequest (x := NoHeader) (st := false) (.refl d) _).later, [], by simp [h3.1], by simp⟩
          exact h4.then (asks_act _ (by simp [a1]) (by simp [a2]))

theorem asks_run (p : Platform) (d : D) (ok : Bool) :
    Asks requestSim 8 (fun e => e.ext.maxRx) d (run p d ok) := by
  unfold run
  split
  · unfold tryOpen; split <;> exact (Unasked.same (by rfl) (by rfl)).asks
  · split
    · exact (Unasked.refl d).asks
    · have h0 : Unasked requestSim d (if d.resetPending then handleReset d else d) := by
        split
        · exact ⟨(eff_handleReset (x := NoHeader) (st := false) d).later, _, (handleReset_facts d).1, by simp⟩
        · exact .refl d
      generalize (if d.resetPending then handleReset d else d) = e at h0 ⊢
      unfold work
      have h1 : Unasked requestSim d e.fillLineBuffer.1 := h0.trans (unasked_fillLine e _)
      dsimp only
      split
      · have h2 : Unasked requestSim e.fillLineBuffer.1 (parseLine p e.fillLineBuffer.1).1 :=
          .same (parseLine_trace p _) (parseLine_ser p _)
        split
        · exact (h1.trans h2).asks
        · exact (h1.trans h2).then (asks_proceed _)
      · have h2 : Unasked requestSim e.fillLineBuffer.1 (flushIfDisconnecting e.fillLineBuffer.1) := by
          unfold flushIfDisconnecting
          split
          · exact unasked_drop _
          · exact .refl _
        exact (h1.trans h2).then (asks_proceed _)

end Sim800

namespace Espressif

theorem parseLine_ser (p : Platform) (d : D) : (parseLine p d).1.ser = d.ser := by
  have hw : ∀ e : D, (parseWait e).ser = e.ser := by
    intro e; unfold parseWait; (repeat' split) <;> rfl
  have hp : ∀ e : D, (parseReply p e).ser = e.ser := by
    intro e; unfold parseReply
    split <;> (try dsimp only) <;> (repeat' split) <;> simp
  have hs : ∀ e : D, (parseSendFail e).ser = e.ser := by
    intro e; unfold parseSendFail; split <;> rfl
  have hc : ∀ e : D, (checkState p e).ser = e.ser := by
    intro e; unfold checkState; (try dsimp only); (repeat' split) <;> rfl
  unfold parseLine
  (try dsimp only)
  (repeat' split) <;> simp only [hc, hp, hw, hs]

/-- What `sendCiprcvdata` asks for. -/
theorem asks_request (d : D) : Asks requestWifi 30 (fun _ => maxRx) d (actCiprecvdata d) := by
  unfold actCiprecvdata
  split
  · exact (Unasked.same (by simp) (by simp)).asks
  · by_cases h2 : d.bytesToReceive > 0
    · rw [if_pos h2]
      dsimp only
      by_cases hq : (sendCiprcvdata d).2 = true
      · rw [if_pos hq]
        obtain ⟨g1, k, g3, ht⟩ := sendCiprcvdata_take hq
        obtain ⟨l1, l2, l3⟩ := askAmount_le d
        refine ⟨_, ht, Or.inr ⟨[], (askAmount d), k, g1, g3, rfl, by simp, by simpa using l1,
          by simpa using l2, l3, fun h h64 hm => ?_⟩⟩
        have hm' : 0 < maxRx := hm
        have h1 : RxQuiet d.askAvail.ser := h.later (Ser.later_bytesAvailable _)
        have h1' : RxQuiet d.askAvail.askAvail.ser := h1.later (Ser.later_bytesAvailable _)
        have e1 : d.askAvail.ser.rx = d.ser.rx := h.sync
        have e1' : d.askAvail.askAvail.ser.rx = d.ser.rx := h1.sync.trans e1
        have e2 : d.serAvail = d.ser.rx.ring.bytesAvailable := by
          show d.ser.sync.rx.ring.bytesAvailable = _; rw [h.sync]
        have e3 : d.askAvail.serAvail = d.ser.rx.ring.bytesAvailable := by
          show d.askAvail.ser.sync.rx.ring.bytesAvailable = _; rw [h1.sync, e1]
        unfold sendCiprcvdata at hq h64 ⊢
        dsimp only at hq h64 ⊢
        by_cases hc : d.ser.readBufferSize - d.serAvail > 30 ∧ d.askAvail.rbuf.spaceAvailable > 0
        · rw [if_pos hc] at h64 ⊢
          have e4 : (((d.askAvail.askAvail.cmd b!"AT+CIPRECVDATA=").arg (dec (askAmount d))).arg lineEnd).ser.rx =
              d.ser.rx := by
            have k1 : RxQuiet (d.askAvail.askAvail.cmd b!"AT+CIPRECVDATA=").ser :=
              h1'.later (Ser.later_writeStr _ _)
            have k2 : RxQuiet ((d.askAvail.askAvail.cmd b!"AT+CIPRECVDATA=").arg (dec (askAmount d))).ser :=
              k1.later (Ser.later_writeStr _ _)
            exact (k2.writeStr _).trans ((k1.writeStr _).trans ((h1'.writeStr _).trans e1'))
          have e5 : (((d.askAvail.askAvail.cmd b!"AT+CIPRECVDATA=").arg (dec (askAmount d))).arg lineEnd).ser.rxFree =
              d.ser.readBufferSize - d.ser.rx.ring.bytesAvailable := by
            unfold Ser.rxFree Ser.readBufferSize; rw [e4]
          have e6 : d.ser.readBufferSize < 2 ^ 64 := by
            have : (((d.askAvail.askAvail.cmd b!"AT+CIPRECVDATA=").arg (dec (askAmount d))).arg lineEnd).ser.readBufferSize < 2 ^ 64 := h64
            unfold Ser.readBufferSize at this ⊢
            rw [e4] at this; exact this
          have e7 : d.askAvail.ser.readBufferSize = d.ser.readBufferSize := by
            unfold Ser.readBufferSize; rw [e1]
          show 1 ≤ (askAmount d) ∧ (askAmount d) + 30 ≤
            (((d.askAvail.askAvail.cmd b!"AT+CIPRECVDATA=").arg (dec (askAmount d))).arg lineEnd).ser.rxFree
          rw [e5]
          unfold askAmount
          rw [e3, e7]
          rw [e2] at hc
          exact requestAmount_pos hc.1 h2 hc.2 hm' (by omega)
        · rw [if_neg hc] at hq; simp at hq
      · rw [if_neg hq, sendCiprcvdata_false (by simpa using hq)]
        exact ⟨[], by simp, Or.inl (by simp)⟩
    · rw [if_neg h2]
      exact (Unasked.same (by rfl) (by rfl)).asks

theorem asks_act (d : D) (hw : d.wait = none) (hp : d.rep = .okReply) :
    Asks requestWifi 30 (fun _ => maxRx) d (act d) := by
  by_cases hs : d.snd = .sendCiprecvdata
  · have e : act d = actCiprecvdata d := by simp only [act, hs]
    rw [e]; exact asks_request d
  · refine asks_turn (by decide) ?_ (act_turn d)
    intro x
    rcases x with ⟨q, hq, hwq⟩ | ⟨_, x | x⟩
    · refine act_wait hw (hwq.trans ?_)
      have : q ∈ [b!"+CIPRECVDATA"] := hq
      rw [List.mem_singleton.mp this]
    · exact act_rep hs hp x
    · exact act_rep2 hp x

theorem asks_proceed (p : Platform) (d : D) : Asks requestWifi 30 (fun _ => maxRx) d (proceed p d) := by
  unfold proceed
  split
  · exact (Unasked.refl d).asks
  · rename_i hw
    have hw1 : d.wait = none := by
      cases hx : d.wait with
      | none => rfl
      | some w => exact absurd (Or.inl (by simp [hx])) hw
    have hw2 : d.rep = .okReply := Classical.byContradiction fun hx => hw (Or.inr hx)
    split
    · exact (unasked_askSpace d).asks
    · refine (unasked_askSpace d).then ?_
      have a1 : d.askSpace.wait = none := hw1
      have a2 : d.askSpace.rep = .okReply := hw2
      revert a1 a2
      generalize d.askSpace = d
      intro a1 a2
      unfold sendNext
      split
      · exact asks_of_said ((said_sendCommand d b!"AT+CWJAP?").set rfl ⟨rfl, rfl, rfl, rfl, rfl, rfl⟩) (by decide)
      · split
        · exact asks_of_said ((said_sendCommand d b!"AT+CIPSTAMAC?").set rfl ⟨rfl, rfl, rfl, rfl, rfl, rfl⟩) (by decide)
        · exact asks_act _ a1 a2

theorem asks_run (p : Platform) (d : D) (ok : Bool) :
    Asks requestWifi 30 (fun _ => maxRx) d (run p d ok) := by
  unfold run
  split
  · unfold tryOpen; split <;> exact (Unasked.same (by rfl) (by rfl)).asks
  · split
    · refine ⟨[.flush, .cmd _ _, .arg _ _], (by simp [handleReset]; exact ⟨⟨rfl, rfl⟩, rfl, rfl⟩), Or.inl ?_⟩
      intro g hg
      simp only [List.mem_cons, List.not_mem_nil, or_false, reduceCtorEq, false_or] at hg
      injection hg with hg
      exact absurd hg (by decide)
    · unfold work
      have h1 : Unasked requestWifi d (fillLineBuffer d).1 := unasked_fillLine d _
      dsimp only
      split
      · have h2 : Unasked requestWifi (fillLineBuffer d).1 (parseLine p (fillLineBuffer d).1).1 :=
          .same (parseLine_trace p _) (parseLine_ser p _)
        split
        · exact (h1.trans h2).asks
        · exact (h1.trans h2).then (asks_proceed p _)
      · have h2 : Unasked requestWifi (fillLineBuffer d).1 (flushIfDisconnecting (fillLineBuffer d).1) := by
          unfold flushIfDisconnecting
          split
          · exact unasked_drop _
          · exact .refl _
        exact (h1.trans h2).then (asks_proceed p _)

end Espressif

namespace CC1352P7

theorem parseLine_ser (p : Platform) (d : D) : (parseLine p d).1.ser = d.ser := by
  have hw : ∀ e : D, (parseWait e).ser = e.ser := by
    intro e; unfold parseWait; (repeat' split) <;> rfl
  have hp : ∀ e : D, (parseReply p e).ser = e.ser := by
    intro e; unfold parseReply
    split <;> (try dsimp only) <;> (repeat' split) <;> simp
  have hc : ∀ e : D, (checkState p e).ser = e.ser := by
    intro e; unfold checkState; (try dsimp only); (repeat' split) <;> rfl
  unfold parseLine
  (try dsimp only)
  (repeat' split) <;> simp only [hc, hp, hw]

/-- What `sendCiprcvdata` asks for. -/
theorem asks_request (d : D) : Asks requestWifi 30 (fun _ => maxRx) d (actCiprecvdata d) := by
  unfold actCiprecvdata
  split
  · exact (Unasked.same (by simp) (by simp)).asks
  · by_cases h2 : d.bytesToReceive > 0
    · rw [if_pos h2]
      dsimp only
      by_cases hq : (sendCiprcvdata d).2 = true
      · rw [if_pos hq]
        obtain ⟨g1, k, g3, ht⟩ := sendCiprcvdata_take hq
        obtain ⟨l1, l2, l3⟩ := askAmount_le d
        refine ⟨_, ht, Or.inr ⟨[], (askAmount d), k, g1, g3, rfl, by simp, by simpa using l1,
          by simpa using l2, l3, fun h h64 hm => ?_⟩⟩
        have hm' : 0 < maxRx := hm
        have h1 : RxQuiet d.askAvail.ser := h.later (Ser.later_bytesAvailable _)
        have h1' : RxQuiet d.askAvail.askAvail.ser := h1.later (Ser.later_bytesAvailable _)
        have e1 : d.askAvail.ser.rx = d.ser.rx := h.sync
        have e1' : d.askAvail.askAvail.ser.rx = d.ser.rx := h1.sync.trans e1
        have e2 : d.serAvail = d.ser.rx.ring.bytesAvailable := by
          show d.ser.sync.rx.ring.bytesAvailable = _; rw [h.sync]
        have e3 : d.askAvail.serAvail = d.ser.rx.ring.bytesAvailable := by
          show d.askAvail.ser.sync.rx.ring.bytesAvailable = _; rw [h1.sync, e1]
        unfold sendCiprcvdata at hq h64 ⊢
        dsimp only at hq h64 ⊢
        by_cases hc : d.ser.readBufferSize - d.serAvail > 30 ∧ d.askAvail.rbuf.spaceAvailable > 0
        · rw [if_pos hc] at h64 ⊢
          have e4 : (((d.askAvail.askAvail.cmd b!"AT+CIPRECVDATA=").arg (dec (askAmount d))).arg lineEnd).ser.rx =
              d.ser.rx := by
            have k1 : RxQuiet (d.askAvail.askAvail.cmd b!"AT+CIPRECVDATA=").ser :=
              h1'.later (Ser.later_writeStr _ _)
            have k2 : RxQuiet ((d.askAvail.askAvail.cmd b!"AT+CIPRECVDATA=").arg (dec (askAmount d))).ser :=
              k1.later (Ser.later_writeStr _ _)
            exact (k2.writeStr _).trans ((k1.writeStr _).trans ((h1'.writeStr _).trans e1'))
          have e5 : (((d.askAvail.askAvail.cmd b!"AT+CIPRECVDATA=").arg (dec (askAmount d))).arg lineEnd).ser.rxFree =
              d.ser.readBufferSize - d.ser.rx.ring.bytesAvailable := by
            unfold Ser.rxFree Ser.readBufferSize; rw [e4]
          have e6 : d.ser.readBufferSize < 2 ^ 64 := by
            have : (((d.askAvail.askAvail.cmd b!"AT+CIPRECVDATA=").arg (dec (askAmount d))).arg lineEnd).ser.readBufferSize < 2 ^ 64 := h64
            unfold Ser.readBufferSize at this ⊢
            rw [e4] at this; exact this
          have e7 : d.askAvail.ser.readBufferSize = d.ser.readBufferSize := by
            unfold Ser.readBufferSize; rw [e1]
          show 1 ≤ (askAmount d) ∧ (askAmount d) + 30 ≤
            (((d.askAvail.askAvail.cmd b!"AT+CIPRECVDATA=").arg (dec (askAmount d))).arg lineEnd).ser.rxFree
          rw [e5]
          unfold askAmount
          rw [e3, e7]
          rw [e2] at hc
          exact requestAmount_pos hc.1 h2 hc.2 hm' (by omega)
        · rw [if_neg hc] at hq; simp at hq
      · rw [if_neg hq, sendCiprcvdata_false (by simpa using hq)]
        exact ⟨[], by simp, Or.inl (by simp)⟩
    · rw [if_neg h2]
      exact (Unasked.same (by rfl) (by rfl)).asks

theorem asks_act (d : D) (hw : d.wait = none) (hp : d.rep = .okReply) :
    Asks requestWifi 30 (fun _ => maxRx) d (act d) := by
  by_cases hs : d.snd = .sendCiprecvdata
  · have e : act d = actCiprecvdata d := by simp only [act, hs]
    rw [e]; exact asks_request d
  · refine asks_turn (by decide) ?_ (act_turn d)
    intro x
    rcases x with ⟨q, hq, hwq⟩ | ⟨_, x⟩
    · refine act_wait hw (hwq.trans ?_)
      have : q ∈ [b!"+CIPRECVDATA"] := hq
      rw [List.mem_singleton.mp this]
    · exact act_rep hs hp x

theorem asks_proceed (p : Platform) (d : D) : Asks requestWifi 30 (fun _ => maxRx) d (proceed p d) := by
  unfold proceed
  split
  · exact (Unasked.refl d).asks
  · rename_i hw
    have hw1 : d.wait = none := by
      cases hx : d.wait with
      | none => rfl
      | some w => exact absurd (Or.inl (by simp [hx])) hw
    have hw2 : d.rep = .okReply := Classical.byContradiction fun hx => hw (Or.inr hx)
    split
    · exact (unasked_askSpace d).asks
    · refine (unasked_askSpace d).then ?_
      have a1 : d.askSpace.wait = none := hw1
      have a2 : d.askSpace.rep = .okReply := hw2
      revert a1 a2
      generalize d.askSpace = d
      intro a1 a2
      unfold sendNext
      split
      · exact asks_of_said ((said_sendCommand d b!"AT+CSQ").set rfl ⟨rfl, rfl, rfl, rfl, rfl, rfl⟩) (by decide)
      · split
        · exact asks_of_said ((said_sendCommand d b!"AT+CIPSTAMAC").set rfl ⟨rfl, rfl, rfl, rfl, rfl, rfl⟩) (by decide)
        · exact asks_act _ a1 a2

theorem asks_run (p : Platform) (d : D) (ok : Bool) :
    Asks requestWifi 30 (fun _ => maxRx) d (run p d ok) := by
  unfold run
  split
  · unfold tryOpen; split <;> exact (Unasked.same (by rfl) (by rfl)).asks
  · have h0 : Unasked requestWifi d (if d.resetPending then handleReset d else d) := by
      split
      · exact ⟨(eff_handleReset (x := NoHeader) (st := false) d).later, _, (handleReset_facts d).1, by simp⟩
      · exact .refl d
    generalize (if d.resetPending then handleReset d else d) = e at h0 ⊢
    unfold work
    have h1 : Unasked requestWifi d (fillLineBuffer e).1 := h0.trans (unasked_fillLine e _)
    dsimp only
    split
    · have h2 : Unasked requestWifi (fillLineBuffer e).1 (parseLine p (fillLineBuffer e).1).1 :=
        .same (parseLine_trace p _) (parseLine_ser p _)
      split
      · exact (h1.trans h2).asks
      · exact (h1.trans h2).then (asks_proceed p _)
    · have h2 : Unasked requestWifi (fillLineBuffer e).1 (flushIfDisconnecting (fillLineBuffer e).1) := by
        unfold flushIfDisconnecting
        split
        · exact unasked_drop _
        · exact .refl _
      exact (h1.trans h2).then (asks_proceed p _)

end CC1352P7
end Verif
