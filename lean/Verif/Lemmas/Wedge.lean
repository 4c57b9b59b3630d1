import Verif.Lemmas.RecvSim7x00
import Verif.Lemmas.RecvSim800
import Verif.Lemmas.RecvEspressif
import Verif.Lemmas.RecvCC1352P7
import Verif.Spec.Wedge
import Verif.Lemmas.TurnSim7x00
import Verif.Lemmas.TurnSim800
import Verif.Lemmas.TurnEspressif
import Verif.Lemmas.TurnCC1352P7

/-! Drivers that have stopped reading. -/

namespace Verif

open Dev Spec

variable {S R X : Type}

/-- What calls of the application leave alone. -/
structure Aside (d e : Dev S R X) : Prop where
  wait : e.wait = d.wait
  rep : e.rep = d.rep
  snd : e.snd = d.snd
  lineRead : e.lineRead = d.lineRead
  resetPending : e.resetPending = d.resetPending
  ipConnected : e.ipConnected = d.ipConnected
  bytesToReceive : e.bytesToReceive = d.bytesToReceive
  bytesToRead : e.bytesToRead = d.bytesToRead
  trace : ∃ new, e.trace = d.trace ++ new ∧ ∀ x ∈ new, driver x = false

theorem Aside.of_same {d e : Dev S R X} (h1 : e.wait = d.wait) (h2 : e.rep = d.rep) (h3 : e.snd = d.snd)
    (h4 : e.lineRead = d.lineRead) (h5 : e.resetPending = d.resetPending)
    (h6 : e.ipConnected = d.ipConnected) (h7 : e.bytesToReceive = d.bytesToReceive)
    (h8 : e.bytesToRead = d.bytesToRead) (h9 : e.trace = d.trace) : Aside d e :=
  ⟨h1, h2, h3, h4, h5, h6, h7, h8, [], by simp [h9], by simp⟩

theorem Aside.log {d e : Dev S R X} (h : Aside d e) (x : Ev) (hx : driver x = false) : Aside d (e.log x) := by
  obtain ⟨new, h1, h2⟩ := h.trace
  refine ⟨h.wait, h.rep, h.snd, h.lineRead, h.resetPending, h.ipConnected, h.bytesToReceive,
    h.bytesToRead, new ++ [x], ?_, ?_⟩
  · show e.trace ++ [x] = _
    rw [h1, List.append_assoc]
  · intro y hy
    rcases List.mem_append.mp hy with q | q
    · exact h2 y q
    · rw [List.mem_singleton.mp q]; exact hx

theorem calm_common (d : Dev S R X) (op : Op) : Aside d (d.common op) := by
  cases op
  case disconnect =>
    refine ⟨?_, ?_, ?_, ?_, ?_, ?_, ?_, ?_, [.apiDisconnect], ?_, by simp [driver]⟩ <;>
      simp [common, disconnect, log] <;> split <;> rfl
  case write bs =>
    have h : Aside d (d.write bs).1 := by
      unfold write
      split <;> exact .of_same rfl rfl rfl rfl rfl rfl rfl rfl rfl
    exact h.log (.apiWrite (bs.take (d.write bs).2)) rfl
  case read n =>
    exact ⟨rfl, rfl, rfl, rfl, rfl, rfl, rfl, rfl, [.apiRead (d.read n).2], rfl, by simp [driver]⟩
  case serialWrite s =>
    show Aside d (d.serialWrite s).1
    unfold serialWrite
    split
    · exact ⟨rfl, rfl, rfl, rfl, rfl, rfl, rfl, rfl, [.userTx (s.take (d.ser.writeStr s).2)], rfl,
        by simp [driver]⟩
    · exact .of_same rfl rfl rfl rfl rfl rfl rfl rfl rfl
  case serialRead n =>
    show Aside d (d.serialRead n).1
    unfold serialRead
    split
    · exact ⟨rfl, rfl, rfl, rfl, rfl, rfl, rfl, rfl, [.userRx (d.ser.read n).2], rfl, by simp [driver]⟩
    · exact .of_same rfl rfl rfl rfl rfl rfl rfl rfl rfl
  all_goals exact .of_same rfl rfl rfl rfl rfl rfl rfl rfl rfl

theorem calm_connect (r d : Dev S R X) (b : Bool) (h : Aside d r) : Aside d (logConnect (r, b)) := by
  cases b
  · exact h
  · exact h.log _ rfl

theorem calm_ipConnect (d : Dev S R X) : Aside d d.ipConnect.1 := by
  unfold ipConnect
  split <;> exact .of_same rfl rfl rfl rfl rfl rfl rfl rfl rfl

theorem sendCommand_trace2 (d : Dev S R X) (s : List Byte) :
    (d.sendCommand s).trace = d.trace ++ .cmd s (s.take (d.ser.writeStr s).2) ::
      [.arg lineEnd (lineEnd.take ((d.cmd s).ser.writeStr lineEnd).2)] := by
  rw [sendCommand_trace]; simp

/-- The trace only grows. -/
theorem Turn.grows {sd rc : S} {shape : Nat → List (List Byte) → Prop}
    {Q : Option (List Byte) → Dev S R X → Prop} {d d' : Dev S R X} (h : Turn sd rc shape Q d d') :
    ∃ new, d'.trace = d.trace ++ new := by
  cases h with
  | quiet ht => exact ⟨[], by simp [ht]⟩
  | cmd w g rest ht => exact ⟨_, ht⟩
  | send rest ht => exact ⟨_, ht⟩
  | pay h0 ht => exact ⟨_, ht⟩
  | data h0 hq h1 ht =>
    rw [ht]
    unfold receive
    split
    · exact ⟨_, rfl⟩
    · exact ⟨[], by simp [askAvail]⟩

theorem SimDev.lineStop_rep {r r' : R} {m : Mem} {k : Nat} {c : Byte}
    (h : SimDev.lineStop r m k c = some r') : r' = r := by
  unfold SimDev.lineStop at h
  split at h
  · injection h with h; exact h.symm
  · simp at h

theorem silent_refl {a b : List Ev} (h : b = a) : Silent a b := ⟨[], by simp [h], by simp⟩

/-! ### Events of a whole history -/

theorem Spec.Silent.trans {a b c : List Ev} (h : Silent a b) (h' : Silent b c) : Silent a c := by
  obtain ⟨x, h1, h2⟩ := h
  obtain ⟨y, h3, h4⟩ := h'
  refine ⟨x ++ y, by rw [h3, h1, List.append_assoc], fun e he => ?_⟩
  rcases List.mem_append.mp he with q | q
  · exact h2 e q
  · exact h4 e q

theorem Spec.Silent.deaf {a b : List Ev} (h : Silent a b) : Deaf a b := by
  obtain ⟨x, h1, h2⟩ := h
  refine ⟨x, h1, ⟨fun e he => by
      have := h2 e he
      cases e <;> simp_all [driver, takes], ?_⟩, ?_⟩
  · intro e he; have := h2 e he; cases e <;> simp_all [driver]
  · have : x.filter isCmd = [] := by
      rw [List.filter_eq_nil_iff]
      intro e he
      have := h2 e he
      cases e <;> simp_all [driver, isCmd]
    simp [this]

theorem Spec.Silent.then_deaf {a b c : List Ev} (h : Silent a b) (h' : Deaf b c) : Deaf a c := by
  obtain ⟨x, h1, h2, h3⟩ := h.deaf
  obtain ⟨x', h1', h2'⟩ := h
  obtain ⟨y, g1, g2, g3⟩ := h'
  have hx : x.filter isCmd = [] := by
    have : x = x' := List.append_cancel_left (h1.symm.trans h1')
    subst this
    rw [List.filter_eq_nil_iff]
    intro e he
    have := h2' e he
    cases e <;> simp_all [driver, isCmd]
  refine ⟨x ++ y, by rw [g1, h1, List.append_assoc], ⟨fun e he => ?_, fun e he => ?_⟩, ?_⟩
  · rcases List.mem_append.mp he with q | q
    · exact h2.1 e q
    · exact g2.1 e q
  · rcases List.mem_append.mp he with q | q
    · exact h2.2 e q
    · exact g2.2 e q
  · rw [List.filter_append, hx]; simpa using g3

theorem Spec.Deaf.then_silent {a b c : List Ev} (h : Deaf a b) (h' : Silent b c) : Deaf a c := by
  obtain ⟨x, h1, h2, h3⟩ := h
  obtain ⟨y, g1, g2⟩ := h'
  have hy : y.filter isCmd = [] := by
    rw [List.filter_eq_nil_iff]
    intro e he
    have := g2 e he
    cases e <;> simp_all [driver, isCmd]
  refine ⟨x ++ y, by rw [g1, h1, List.append_assoc], ⟨fun e he => ?_, fun e he => ?_⟩, ?_⟩
  · rcases List.mem_append.mp he with q | q
    · exact h2.1 e q
    · have := g2 e q; cases e <;> simp_all [driver, takes]
  · rcases List.mem_append.mp he with q | q
    · exact h2.2 e q
    · have := g2 e q; cases e <;> simp_all [driver]
  · rw [List.filter_append, hy]; simpa using h3

/-- One command with its arguments. -/
theorem deaf_cmd {a b : List Ev} {w g : List Byte} {rest : List Ev} (h : b = a ++ .cmd w g :: rest)
    (hr : ∀ e ∈ rest, ∃ u v, e = .arg u v) : Deaf a b := by
  refine ⟨_, h, ⟨fun e he => ?_, fun e he => ?_⟩, ?_⟩
  · rcases List.mem_cons.mp he with rfl | q
    · rfl
    · obtain ⟨u, v, rfl⟩ := hr e q; rfl
  · rcases List.mem_cons.mp he with rfl | q
    · simp
    · obtain ⟨u, v, rfl⟩ := hr e q; simp
  · have : rest.filter isCmd = [] := by
      rw [List.filter_eq_nil_iff]
      intro e he
      obtain ⟨u, v, rfl⟩ := hr e he
      simp [isCmd]
    simp [List.filter_cons, isCmd, this]

/-- No call of the history is `resetStates()`. -/
theorem exec_silent {D : Type} {step : D → Op → D} {I : D → Prop} {tr : D → List Ev} {ok : Op → Prop}
    (hstep : ∀ d op, ok op → I d → I (step d op) ∧ Silent (tr d) (tr (step d op)))
    {d : D} (h : I d) (ops : List Op) (ho : ∀ op ∈ ops, ok op) :
    I (exec step d ops) ∧ Silent (tr d) (tr (exec step d ops)) := by
  unfold exec
  induction ops generalizing d with
  | nil => exact ⟨h, [], by simp, by simp⟩
  | cons op ops ih =>
    obtain ⟨h1, h2⟩ := hstep d op (ho op (by simp)) h
    obtain ⟨h3, h4⟩ := ih h1 fun o q => ho o (by simp [q])
    exact ⟨h3, h2.trans h4⟩

theorem exec_deaf {D : Type} {step : D → Op → D} {I J : D → Prop} {tr : D → List Ev} {ok : Op → Prop}
    (hJ : ∀ d op, ok op → J d → J (step d op) ∧ Silent (tr d) (tr (step d op)))
    (hI : ∀ d op, ok op → I d → (I (step d op) ∧ Silent (tr d) (tr (step d op))) ∨
      (J (step d op) ∧ Deaf (tr d) (tr (step d op))))
    {d : D} (h : I d) (ops : List Op) (ho : ∀ op ∈ ops, ok op) :
    (I (exec step d ops) ∨ J (exec step d ops)) ∧ Deaf (tr d) (tr (exec step d ops)) := by
  unfold exec
  induction ops generalizing d with
  | nil => exact ⟨.inl h, Silent.deaf ⟨[], by simp, by simp⟩⟩
  | cons op ops ih =>
    rcases hI d op (ho op (by simp)) h with ⟨h1, h2⟩ | ⟨h1, h2⟩
    · obtain ⟨h3, h4⟩ := ih h1 fun o q => ho o (by simp [q])
      exact ⟨h3, h2.then_deaf h4⟩
    · obtain ⟨h3, h4⟩ := exec_silent hJ h1 ops fun o q => ho o (by simp [q])
      exact ⟨.inr h3, h2.then_silent h4⟩

namespace Sim7x00

/-- Nothing is read, an answer is awaited. -/
structure Stuck (d : D) : Prop where
  line : d.lineRead = false
  reset : d.resetPending = false
  wait : d.wait ≠ none ∨ d.rep ≠ .okReply
  snd : d.snd ≠ .receiving

theorem Stuck.calm {d e : D} (h : Stuck d) (c : Aside d e) : Stuck e :=
  ⟨by rw [c.lineRead]; exact h.line, by rw [c.resetPending]; exact h.reset,
    by rw [c.wait, c.rep]; exact h.wait, by rw [c.snd]; exact h.snd⟩

theorem calm_step (p : Platform) (d : D) (op : Op) (h1 : op ≠ .resetStates) (h2 : ∀ ok, op ≠ .run ok) :
    Aside d (step p d op) := by
  cases op
  case run ok => exact absurd rfl (h2 ok)
  case resetStates => exact absurd rfl h1
  case connect =>
    refine calm_connect (SimDev.connect d).1 d (SimDev.connect d).2 ?_
    unfold SimDev.connect
    split
    · exact .of_same rfl rfl rfl rfl rfl rfl rfl rfl rfl
    · exact calm_ipConnect d
  case serialLock =>
    show Aside d (SimDev.serialLock d .okReply).1
    unfold SimDev.serialLock
    split <;> exact .of_same rfl rfl rfl rfl rfl rfl rfl rfl rfl
  case setApn a => exact .of_same rfl rfl rfl rfl rfl rfl rfl rfl rfl
  case serialUnlock => exact .of_same rfl rfl rfl rfl rfl rfl rfl rfl rfl
  case requestID t => exact .of_same rfl rfl rfl rfl rfl rfl rfl rfl rfl
  case irq a => exact calm_common d (.irq a)
  case closePort => exact calm_common d .closePort
  case disconnect => exact calm_common d .disconnect
  case setHostPort a b c => exact calm_common d (.setHostPort a b c)
  case write a => exact calm_common d (.write a)
  case read a => exact calm_common d (.read a)
  case requestRSSI => exact calm_common d .requestRSSI
  case serialWrite a => exact calm_common d (.serialWrite a)
  case serialRead a => exact calm_common d (.serialRead a)
  all_goals exact .of_same rfl rfl rfl rfl rfl rfl rfl rfl rfl

theorem work_deaf (p : Platform) {d : D} (h : d.lineRead = false) (hs : d.snd ≠ .receiving) :
    work p d = proceed d := by
  unfold work
  dsimp only
  have e : d.fillLineBuffer = (d, false) := fillLine_off d _ h
  rw [e]
  have e2 : flushIfDisconnecting d = d := by unfold flushIfDisconnecting; rw [if_neg (by simp [hs])]
  simp only [Bool.false_eq_true, if_false, e2]

theorem stuck_run (p : Platform) {d : D} (ok : Bool) (h : Stuck d) :
    Stuck (run p d ok) ∧ (run p d ok).trace = d.trace := by
  unfold run
  split
  · unfold tryOpen
    split
    · exact ⟨⟨h.line, h.reset, h.wait, h.snd⟩, rfl⟩
    · exact ⟨⟨h.line, h.reset, h.wait, by simp⟩, rfl⟩
  · split
    · exact ⟨h, rfl⟩
    · rw [h.reset]
      simp only [Bool.false_eq_true, if_false]
      rw [work_deaf p h.line h.snd]
      unfold proceed
      rw [if_pos h.wait]
      exact ⟨h, rfl⟩

theorem stuck_step (p : Platform) (d : D) (op : Op) (ho : op ≠ .resetStates) (h : Stuck d) :
    Stuck (step p d op) ∧ Silent d.trace (step p d op).trace := by
  by_cases hr : ∃ ok, op = .run ok
  · obtain ⟨ok, rfl⟩ := hr
    obtain ⟨h1, h2⟩ := stuck_run p ok h
    exact ⟨h1, [], by rw [List.append_nil]; exact h2, by simp⟩
  · have c := calm_step p d op ho fun ok e => hr ⟨ok, e⟩
    exact ⟨h.calm c, c.trace⟩

/-- Nothing happens any more unless the application calls `resetStates()`. -/
theorem stuck_exec (p : Platform) {d : D} (h : Stuck d) (ops : List Op) (ho : .resetStates ∉ ops) :
    Silent d.trace (exec (step p) d ops).trace :=
  (exec_silent (tr := (·.trace)) (ok := (· ≠ .resetStates)) (stuck_step p) h ops
    fun op hop e => ho (e ▸ hop)).2

theorem parseLine_header (p : Platform) (d : D) (hr : d.rep = .ciprxget2)
    (hh : d.has b!"+CIPRXGET: 2,0," = true)
    (he : ∀ lit ∈ [b!"ERROR", b!"+CME ERROR", b!"+PDP: DEACT"], d.has lit = false) :
    (parseLine p d).2 = false ∧ (parseLine p d).1.resetPending = d.resetPending ∧
    (parseLine p d).1.disconnectPending = d.disconnectPending := by
  have he1 := he b!"ERROR" (by simp)
  have hc : ∀ e : D, (checkState e).resetPending = e.resetPending ∧
      (checkState e).disconnectPending = e.disconnectPending := by
    intro e; unfold checkState; split <;> simp
  have hx : (parseWait d).2 = false ∧ (parseWait d).1.rep = d.rep ∧
      (parseWait d).1.line = d.line ∧ (parseWait d).1.resetPending = d.resetPending ∧
      (parseWait d).1.disconnectPending = d.disconnectPending := by
    unfold parseWait
    (repeat' split) <;> simp_all
  obtain ⟨h1, h2, h3, h4, h5⟩ := hx
  have hy : (parseReply p (parseWait d).1).2 = false ∧
      (parseReply p (parseWait d).1).1.resetPending = (parseWait d).1.resetPending ∧
      (parseReply p (parseWait d).1).1.disconnectPending = (parseWait d).1.disconnectPending := by
    unfold parseReply
    rw [h2, hr]
    unfold SimDev.parseCiprxget2
    have : (parseWait d).1.has b!"+CIPRXGET: 2,0," = true := by
      unfold has at hh ⊢; rw [h3]; exact hh
    simp [this]
  obtain ⟨y1, y2, y3⟩ := hy
  unfold parseLine
  dsimp only
  rw [if_neg (by rw [h1]; simp), if_neg (by rw [y1]; simp)]
  exact ⟨rfl, (hc _).1.trans (y2.trans h4), (hc _).2.trans (y3.trans h5)⟩

theorem proceed_grows (d : D) : ∃ new, (proceed d).trace = d.trace ++ new := by
  unfold proceed
  split
  · exact ⟨[], by simp⟩
  · split
    · exact ⟨[], by simp [askSpace]⟩
    · have ht : d.trace = (askSpace d).trace := rfl
      rw [ht]
      generalize askSpace d = d
      unfold sendNext
      split
      · exact ⟨_, sendCommand_trace2 d _⟩
      · dsimp only
        split
        · rename_i hq
          obtain ⟨v, hm, g1, g2, ht⟩ := SimDev.sendIDRequest_true hq
          exact ⟨_, by rw [ht]; simp; rfl⟩
        · rename_i hq
          obtain ⟨new, h⟩ := (act_turn (SimDev.sendIDRequest d iccidCommand).1).grows
          exact ⟨new, by rw [h, (SimDev.sendIDRequest_false (by simpa using hq)).1]⟩

/-- Nothing is read; the answer to the next command will not be read. -/
structure Dead (d : D) : Prop where
  line : d.lineRead = false
  reset : d.resetPending = false
  snd : (d.snd = .sendCiprxget2 ∧ 0 < d.bytesToReceive) ∨ d.snd = .sendCiprxget4 ∨
    d.snd = .sendNetclose ∨ d.snd = .serialError

theorem Dead.notReceiving {d : D} (h : Dead d) : d.snd ≠ .receiving := by
  have := h.snd
  intro e
  simp [e] at this

theorem Dead.aside {d e : D} (h : Dead d) (c : Aside d e) : Dead e :=
  ⟨by rw [c.lineRead]; exact h.line, by rw [c.resetPending]; exact h.reset,
    by rw [c.snd, c.bytesToReceive]; exact h.snd⟩

theorem dead_act {d : D} (h : Dead d) :
    (Dead (act d) ∧ Silent d.trace (act d).trace) ∨ (Stuck (act d) ∧ Deaf d.trace (act d).trace) := by
  obtain ⟨hl, hr, h⟩ := h
  cases hs : d.snd <;> simp only [hs, reduceCtorEq, false_and, or_false, false_or, true_and] at h
  case sendCiprxget2 =>
    have e : act d = actCiprxget2 d := by simp only [act, hs]
    rw [e]
    unfold actCiprxget2
    by_cases h1 : d.disconnectPending = true
    · rw [if_pos h1]
      refine .inl ⟨?_, silent_refl ?_⟩
      · unfold handleDisconnect; rw [if_pos h1]; exact ⟨hl, hr, by simp⟩
      · unfold handleDisconnect; rw [if_pos h1]
    · rw [if_neg h1, if_pos h]
      dsimp only
      by_cases hq : d.sendCiprxget2.2 = true
      · rw [if_pos hq]
        obtain ⟨g1, k, g3, ht⟩ := SimDev.sendCiprxget2_take hq
        refine .inr ⟨⟨by simp [hl], by simp [hr], .inr (by simp), by simp⟩, ?_⟩
        exact deaf_cmd ht (by simp)
      · rw [if_neg hq, SimDev.sendCiprxget2_false (by simpa using hq)]
        exact .inl ⟨⟨hl, hr, .inl ⟨hs, h⟩⟩, silent_refl rfl⟩
  case sendCiprxget4 =>
    unfold act; rw [hs]; dsimp only
    exact .inr ⟨⟨hl, hr, .inl (by simp), by simp⟩, deaf_cmd (sendCommand_trace2 d b!"AT+CIPRXGET=4,0") (by simp)⟩
  case sendNetclose =>
    unfold act; rw [hs]; dsimp only
    exact .inr ⟨⟨hl, hr, .inl (by simp), by simp⟩, deaf_cmd (sendCommand_trace2 d b!"AT+NETCLOSE") (by simp)⟩
  case serialError =>
    unfold act; rw [hs]
    exact .inl ⟨⟨hl, hr, by simp [hs]⟩, silent_refl rfl⟩

theorem sendNext_off {d : D} (h : d.lineRead = false) : sendNext d = act d := by
  unfold sendNext
  rw [if_neg (by simp [h])]
  have e : d.sendIDRequest iccidCommand = (d, false) := by
    unfold SimDev.sendIDRequest
    rw [if_neg (by simp [h])]
  rw [e]
  simp

theorem dead_proceed {d : D} (h : Dead d) :
    (Dead (proceed d) ∧ Silent d.trace (proceed d).trace) ∨
      (Stuck (proceed d) ∧ Deaf d.trace (proceed d).trace) := by
  unfold proceed
  by_cases hw : d.wait ≠ none ∨ d.rep ≠ .okReply
  · rw [if_pos hw]; exact .inl ⟨h, silent_refl rfl⟩
  · rw [if_neg hw]
    split
    · exact .inl ⟨⟨h.line, h.reset, h.snd⟩, silent_refl rfl⟩
    · rw [sendNext_off (d := askSpace d) h.line]
      exact dead_act (d := askSpace d) ⟨h.line, h.reset, h.snd⟩

theorem dead_run (p : Platform) {d : D} (ok : Bool) (h : Dead d) :
    (Dead (run p d ok) ∧ Silent d.trace (run p d ok).trace) ∨
      (Stuck (run p d ok) ∧ Deaf d.trace (run p d ok).trace) := by
  unfold run
  split
  · unfold tryOpen
    split
    · exact .inl ⟨⟨h.line, h.reset, h.snd⟩, silent_refl rfl⟩
    · exact .inl ⟨⟨h.line, h.reset, by simp⟩, silent_refl rfl⟩
  · split
    · exact .inl ⟨h, silent_refl rfl⟩
    · rw [h.reset]
      simp only [Bool.false_eq_true, if_false]
      rw [work_deaf p h.line h.notReceiving]
      exact dead_proceed h

theorem dead_step (p : Platform) (d : D) (op : Op) (ho : op ≠ .resetStates) (h : Dead d) :
    (Dead (step p d op) ∧ Silent d.trace (step p d op).trace) ∨
      (Stuck (step p d op) ∧ Deaf d.trace (step p d op).trace) := by
  by_cases hr : ∃ ok, op = .run ok
  · obtain ⟨ok, rfl⟩ := hr
    exact dead_run p ok h
  · have c := calm_step p d op ho fun ok e => hr ⟨ok, e⟩
    exact .inl ⟨h.aside c, c.trace⟩

/-- Nothing is read any more unless the application calls `resetStates()`. -/
theorem dead_exec (p : Platform) {d : D} (h : Dead d) (ops : List Op) (ho : .resetStates ∉ ops) :
    (Dead (exec (step p) d ops) ∨ Stuck (exec (step p) d ops)) ∧ Deaf d.trace (exec (step p) d ops).trace :=
  exec_deaf (tr := (·.trace)) (ok := (· ≠ .resetStates)) (stuck_step p) (dead_step p) h ops
    fun op hop e => ho (e ▸ hop)

/-- A header announced nothing. -/
structure Empty (d : D) : Prop where
  line : d.lineRead = false
  reset : d.resetPending = false
  snd : d.snd = .receiving
  none : d.bytesToRead = 0
  stay : d.disconnectPending = false

theorem empty_proceed {d : D} (h : Empty d) :
    (Empty (proceed d) ∨ Dead (proceed d)) ∧ (proceed d).trace = d.trace := by
  unfold proceed
  by_cases hw : d.wait ≠ Option.none ∨ d.rep ≠ .okReply
  · rw [if_pos hw]; exact ⟨.inl h, rfl⟩
  · rw [if_neg hw]
    split
    · exact ⟨.inl ⟨h.line, h.reset, h.snd, h.none, h.stay⟩, rfl⟩
    · rw [sendNext_off (d := askSpace d) h.line]
      have e : act (askSpace d) = actReceiving (askSpace d) := by
        have : (askSpace d).snd = .receiving := h.snd
        simp only [act, this]
      rw [e]
      unfold actReceiving
      rw [if_neg (by show ¬ d.bytesToRead > 0; rw [h.none]; decide)]
      split
      · rename_i hb
        exact ⟨.inr ⟨h.line, h.reset, .inl ⟨rfl, hb⟩⟩, rfl⟩
      · exact ⟨.inr ⟨h.line, h.reset, by simp⟩, rfl⟩

theorem empty_run (p : Platform) {d : D} (ok : Bool) (h : Empty d) :
    (Empty (run p d ok) ∨ Dead (run p d ok)) ∧ (run p d ok).trace = d.trace := by
  unfold run
  split
  · unfold tryOpen
    split
    · exact ⟨.inl ⟨h.line, h.reset, h.snd, h.none, h.stay⟩, rfl⟩
    · exact ⟨.inr ⟨h.line, h.reset, by simp⟩, rfl⟩
  · split
    · exact ⟨.inl h, rfl⟩
    · rw [h.reset]
      simp only [Bool.false_eq_true, if_false]
      unfold work
      dsimp only
      have e : d.fillLineBuffer = (d, false) := fillLine_off d _ h.line
      rw [e]
      have e2 : flushIfDisconnecting d = d := by
        unfold flushIfDisconnecting; rw [if_neg (by simp [h.stay])]
      simp only [Bool.false_eq_true, if_false, e2]
      exact empty_proceed h

theorem empty_step (p : Platform) (d : D) (op : Op) (ho : op ≠ .resetStates) (hd : op ≠ .disconnect)
    (h : Empty d) :
    (Empty (step p d op) ∨ Dead (step p d op)) ∧ Silent d.trace (step p d op).trace := by
  by_cases hr : ∃ ok, op = .run ok
  · obtain ⟨ok, rfl⟩ := hr
    obtain ⟨h1, h2⟩ := empty_run p ok h
    exact ⟨h1, silent_refl h2⟩
  · have c := calm_step p d op ho fun ok e => hr ⟨ok, e⟩
    refine ⟨.inl ⟨by rw [c.lineRead]; exact h.line, by rw [c.resetPending]; exact h.reset,
      by rw [c.snd]; exact h.snd, by rw [c.bytesToRead]; exact h.none, ?_⟩, c.trace⟩
    have := h.stay
    cases op <;> first
      | exact absurd rfl ho
      | exact absurd rfl hd
      | exact absurd ⟨_, rfl⟩ hr
      | (simp only [step, common, logConnect, SimDev.connect, ipConnect, Dev.write, Dev.read, Dev.log,
          Dev.setHostPort, Dev.requestRSSI, Dev.serialWrite, Dev.serialRead, SimDev.setApn,
          SimDev.serialLock, SimDev.serialUnlock, SimDev.requestIDString]
         (repeat' split) <;> first | exact this | (exact absurd this (by simp_all)))

theorem empty_exec (p : Platform) {d : D} (h : Empty d) (ops : List Op) (ho : .resetStates ∉ ops)
    (hd : .disconnect ∉ ops) :
    (Empty (exec (step p) d ops) ∨ Dead (exec (step p) d ops) ∨ Stuck (exec (step p) d ops)) ∧
    Deaf d.trace (exec (step p) d ops).trace := by
  unfold exec
  induction ops generalizing d with
  | nil => exact ⟨.inl h, Silent.deaf (silent_refl rfl)⟩
  | cons op ops ih =>
    have ho' : Op.resetStates ∉ ops := fun x => ho (by simp [x])
    have hd' : Op.disconnect ∉ ops := fun x => hd (by simp [x])
    obtain ⟨h1 | h1, h2⟩ := empty_step p d op (fun e => ho (by simp [e])) (fun e => hd (by simp [e])) h
    · obtain ⟨h3, h4⟩ := ih h1 ho' hd'
      exact ⟨h3, h2.then_deaf h4⟩
    · obtain ⟨h3, h4⟩ := dead_exec p h1 ops ho'
      exact ⟨.inr h3, h2.then_deaf h4⟩

/-- The header of an empty data block was read. -/
theorem empty_header (p : Platform) {d : D} (hv : LineOk d) (hi : RxI p d) (hrs : d.resetPending = false)
    (hdp : d.disconnectPending = false) {ok : Bool} {l : List Byte} {rest : List Ev}
    (ht : (run p d ok).trace = d.trace ++ .line l :: rest)
    (hreq : ((rx requestSim (headerSim p)).after d.trace).req ≠ none) (hz : headerSim p l = some 0) :
    Empty (run p d ok) ∨ Dead (run p d ok) := by
  have hrep : d.rep = .ciprxget2 := hi.req.mp hreq
  have hne : ∀ e : D, e.trace = d.trace → e.trace ≠ d.trace ++ .line l :: rest := by
    intro e he h
    rw [he] at h
    have := congrArg List.length h
    simp at this
  unfold run at ht ⊢
  by_cases ho : d.isOpen = false
  · rw [if_pos ho] at ht
    refine absurd ht (hne _ ?_)
    unfold tryOpen; split <;> rfl
  rw [if_neg ho] at ht ⊢
  by_cases hk : d.serialLocked = true
  · rw [if_pos hk] at ht
    exact absurd ht (hne _ rfl)
  rw [if_neg hk, hrs] at ht ⊢
  simp only [Bool.false_eq_true, if_false] at ht ⊢
  unfold work at ht ⊢
  dsimp only at ht ⊢
  rcases fillLine_cases d (SimDev.lineStop d.rep) (stopOk_sim (x := NoHeader) d.rep).full hv with
    ⟨s, m, k, e⟩ | ⟨hlr, s, m, r, l', e, hl, hlo, m', c, hc, _⟩
  · have e' : d.fillLineBuffer = (d.setIo s m k, false) := e
    rw [e'] at ht
    simp only [Bool.false_eq_true, if_false] at ht
    have e2 : flushIfDisconnecting (d.setIo s m k) = d.setIo s m k := by
      unfold flushIfDisconnecting; rw [if_neg (by simp [hdp])]
    rw [e2] at ht
    have : proceed (d.setIo s m k) = d.setIo s m k := by
      unfold proceed; rw [if_pos (by rw [hrep]; simp)]
    rw [this] at ht
    exact absurd ht (hne _ rfl)
  · have hr : r = d.rep := SimDev.lineStop_rep hc
    subst hr
    have e' : d.fillLineBuffer = (d.gotLine s m d.rep l', true) := e
    rw [e'] at ht ⊢
    simp only [if_true] at ht ⊢
    have hll : l' = l := by
      have hnew : ∃ new, (if (parseLine p (d.gotLine s m d.rep l')).2 = true
          then (parseLine p (d.gotLine s m d.rep l')).1
          else proceed (parseLine p (d.gotLine s m d.rep l')).1).trace = d.trace ++ .line l' :: new := by
        split
        · exact ⟨[], by rw [parseLine_trace]⟩
        · obtain ⟨new, h⟩ := proceed_grows (parseLine p (d.gotLine s m d.rep l')).1
          exact ⟨new, by rw [h, parseLine_trace]; simp⟩
      obtain ⟨new, h⟩ := hnew
      have := h.symm.trans ht
      have := List.append_cancel_left this
      injection this with x _
      injection x
    subst hll
    unfold headerSim at hz
    have hh : b!"+CIPRXGET: 2,0,".isPrefixOf l' = true := by
      revert hz; split <;> simp_all
    rw [if_pos hh] at hz
    injection hz with hz
    have hhas := hl.has_iff (lit := b!"+CIPRXGET: 2,0,") (by decide)
    rw [hh] at hhas
    have he : ∀ lit ∈ [b!"ERROR", b!"+CME ERROR", b!"+PDP: DEACT"],
        (d.gotLine s m d.rep l').has lit = false := by
      intro lit hm
      have h0 : (0 : Byte) ∉ lit ∧ ¬ (lit <+: b!"+CIPRXGET: 2,0," ∨ b!"+CIPRXGET: 2,0," <+: lit) := by
        revert lit; decide
      rw [hl.has_iff h0.1]; exact not_prefix hh h0.2
    obtain ⟨x1, x2, x3, x4⟩ := (parseLine_rx p (d.gotLine s m d.rep l')).2.2.2 hrep hhas
      (he _ (by simp))
    obtain ⟨y1, y2, y3⟩ := parseLine_header p (d.gotLine s m d.rep l') hrep hhas he
    have hemp : Empty (parseLine p (d.gotLine s m d.rep l')).1 := by
      refine ⟨x2, y2.trans hrs, x3, ?_, y3.trans hdp⟩
      rw [x4, hl.number _ (by
          have := (List.isPrefixOf_iff_prefix.mp hh).length_le
          simpa using this)]
      show addSize d.bytesToRead _ = _
      rw [hi.held.zero hlr, addSize_zero]
      exact hz
    rw [if_neg (by rw [y1]; simp)]
    exact (empty_proceed hemp).1

end Sim7x00

namespace Sim800

/-- Nothing is read, an answer is awaited. -/
structure Stuck (d : D) : Prop where
  line : d.lineRead = false
  reset : d.resetPending = false
  wait : d.wait ≠ none ∨ d.rep ≠ .okReply
  snd : d.snd ≠ .receiving

theorem Stuck.calm {d e : D} (h : Stuck d) (c : Aside d e) : Stuck e :=
  ⟨by rw [c.lineRead]; exact h.line, by rw [c.resetPending]; exact h.reset,
    by rw [c.wait, c.rep]; exact h.wait, by rw [c.snd]; exact h.snd⟩

theorem calm_step (p : Platform) (d : D) (op : Op) (h1 : op ≠ .resetStates) (h2 : ∀ ok, op ≠ .run ok) :
    Aside d (step p d op) := by
  cases op
  case run ok => exact absurd rfl (h2 ok)
  case resetStates => exact absurd rfl h1
  case connect =>
    refine calm_connect (SimDev.connect d).1 d (SimDev.connect d).2 ?_
    unfold SimDev.connect
    split
    · exact .of_same rfl rfl rfl rfl rfl rfl rfl rfl rfl
    · exact calm_ipConnect d
  case serialLock =>
    show Aside d (SimDev.serialLock d .okReply).1
    unfold SimDev.serialLock
    split <;> exact .of_same rfl rfl rfl rfl rfl rfl rfl rfl rfl
  case setApn a => exact .of_same rfl rfl rfl rfl rfl rfl rfl rfl rfl
  case serialUnlock => exact .of_same rfl rfl rfl rfl rfl rfl rfl rfl rfl
  case requestID t => exact .of_same rfl rfl rfl rfl rfl rfl rfl rfl rfl
  case irq a => exact calm_common d (.irq a)
  case closePort => exact calm_common d .closePort
  case disconnect => exact calm_common d .disconnect
  case setHostPort a b c => exact calm_common d (.setHostPort a b c)
  case write a => exact calm_common d (.write a)
  case read a => exact calm_common d (.read a)
  case requestRSSI => exact calm_common d .requestRSSI
  case serialWrite a => exact calm_common d (.serialWrite a)
  case serialRead a => exact calm_common d (.serialRead a)
  all_goals exact .of_same rfl rfl rfl rfl rfl rfl rfl rfl rfl

theorem work_deaf (p : Platform) {d : D} (h : d.lineRead = false) (hs : d.snd ≠ .receiving) :
    work p d = proceed d := by
  unfold work
  dsimp only
  have e : d.fillLineBuffer = (d, false) := fillLine_off d _ h
  rw [e]
  have e2 : flushIfDisconnecting d = d := by unfold flushIfDisconnecting; rw [if_neg (by simp [hs])]
  simp only [Bool.false_eq_true, if_false, e2]

theorem stuck_run (p : Platform) {d : D} (ok : Bool) (h : Stuck d) :
    Stuck (run p d ok) ∧ (run p d ok).trace = d.trace := by
  unfold run
  split
  · unfold tryOpen
    split
    · exact ⟨⟨h.line, h.reset, h.wait, h.snd⟩, rfl⟩
    · exact ⟨⟨h.line, h.reset, h.wait, by simp⟩, rfl⟩
  · split
    · exact ⟨h, rfl⟩
    · rw [h.reset]
      simp only [Bool.false_eq_true, if_false]
      rw [work_deaf p h.line h.snd]
      unfold proceed
      rw [if_pos h.wait]
      exact ⟨h, rfl⟩

theorem stuck_step (p : Platform) (d : D) (op : Op) (ho : op ≠ .resetStates) (h : Stuck d) :
    Stuck (step p d op) ∧ Silent d.trace (step p d op).trace := by
  by_cases hr : ∃ ok, op = .run ok
  · obtain ⟨ok, rfl⟩ := hr
    obtain ⟨h1, h2⟩ := stuck_run p ok h
    exact ⟨h1, [], by rw [List.append_nil]; exact h2, by simp⟩
  · have c := calm_step p d op ho fun ok e => hr ⟨ok, e⟩
    exact ⟨h.calm c, c.trace⟩

/-- Nothing happens any more unless the application calls `resetStates()`. -/
theorem stuck_exec (p : Platform) {d : D} (h : Stuck d) (ops : List Op) (ho : .resetStates ∉ ops) :
    Silent d.trace (exec (step p) d ops).trace :=
  (exec_silent (tr := (·.trace)) (ok := (· ≠ .resetStates)) (stuck_step p) h ops
    fun op hop e => ho (e ▸ hop)).2

theorem parseLine_header (p : Platform) (d : D) (hr : d.rep = .ciprxget2)
    (hh : d.has b!"+CIPRXGET: 2,0," = true)
    (he : ∀ lit ∈ [b!"ERROR", b!"+CME ERROR", b!"+PDP: DEACT"], d.has lit = false) :
    (parseLine p d).2 = false ∧ (parseLine p d).1.resetPending = d.resetPending ∧
    (parseLine p d).1.disconnectPending = d.disconnectPending := by
  have he1 := he b!"ERROR" (by simp)
  have hc : ∀ e : D, (checkState e).resetPending = e.resetPending ∧
      (checkState e).disconnectPending = e.disconnectPending := by
    intro e; unfold checkState; split <;> simp
  have hx : (parseWait d).rep = d.rep ∧
      (parseWait d).line = d.line ∧ (parseWait d).resetPending = d.resetPending ∧
      (parseWait d).disconnectPending = d.disconnectPending := by
    unfold parseWait
    split <;> simp_all
  obtain ⟨h2, h3, h4, h5⟩ := hx
  have hy : (parseReply p (parseWait d)).resetPending = (parseWait d).resetPending ∧
      (parseReply p (parseWait d)).disconnectPending = (parseWait d).disconnectPending := by
    unfold parseReply
    rw [h2, hr]
    unfold SimDev.parseCiprxget2
    have : (parseWait d).has b!"+CIPRXGET: 2,0," = true := by
      unfold has at hh ⊢; rw [h3]; exact hh
    simp [this]
  obtain ⟨y2, y3⟩ := hy
  unfold parseLine
  have hi : isError d = false := by
    unfold isError
    rw [he1, he b!"+CME ERROR" (by simp), he b!"+PDP: DEACT" (by simp)]; rfl
  rw [if_neg (by rw [hi]; simp)]
  exact ⟨rfl, (hc _).1.trans (y2.trans h4), (hc _).2.trans (y3.trans h5)⟩

theorem proceed_grows (d : D) : ∃ new, (proceed d).trace = d.trace ++ new := by
  unfold proceed
  split
  · exact ⟨[], by simp⟩
  · split
    · exact ⟨[], by simp [askSpace]⟩
    · have ht : d.trace = (askSpace d).trace := rfl
      rw [ht]
      generalize askSpace d = d
      unfold sendNext
      split
      · exact ⟨_, sendCommand_trace2 d _⟩
      · dsimp only
        split
        · rename_i hq
          obtain ⟨v, hm, g1, g2, ht⟩ := SimDev.sendIDRequest_true hq
          exact ⟨_, by rw [ht]; simp; rfl⟩
        · rename_i hq
          obtain ⟨new, h⟩ := (act_turn (SimDev.sendIDRequest d iccidCommand).1).grows
          exact ⟨new, by rw [h, (SimDev.sendIDRequest_false (by simpa using hq)).1]⟩

/-- Nothing is read; the answer to the next command will not be read. -/
structure Dead (d : D) : Prop where
  line : d.lineRead = false
  reset : d.resetPending = false
  snd : (d.snd = .sendCiprxget2 ∧ 0 < d.bytesToReceive) ∨ d.snd = .sendCiprxget4 ∨
    d.snd = .sendCipclose ∨ d.snd = .sendCipshut ∨ d.snd = .serialError

theorem Dead.notReceiving {d : D} (h : Dead d) : d.snd ≠ .receiving := by
  have := h.snd
  intro e
  simp [e] at this

theorem Dead.aside {d e : D} (h : Dead d) (c : Aside d e) : Dead e :=
  ⟨by rw [c.lineRead]; exact h.line, by rw [c.resetPending]; exact h.reset,
    by rw [c.snd, c.bytesToReceive]; exact h.snd⟩

theorem dead_act {d : D} (h : Dead d) :
    (Dead (act d) ∧ Silent d.trace (act d).trace) ∨ (Stuck (act d) ∧ Deaf d.trace (act d).trace) := by
  obtain ⟨hl, hr, h⟩ := h
  cases hs : d.snd <;> simp only [hs, reduceCtorEq, false_and, or_false, false_or, true_and] at h
  case sendCiprxget2 =>
    have e : act d = actCiprxget2 d := by simp only [act, hs]
    rw [e]
    unfold actCiprxget2
    by_cases h1 : d.disconnectPending = true
    · rw [if_pos h1]
      refine .inl ⟨?_, silent_refl ?_⟩
      · unfold handleDisconnect; rw [if_pos h1]; exact ⟨hl, hr, by simp⟩
      · unfold handleDisconnect; rw [if_pos h1]
    · rw [if_neg h1, if_pos h]
      dsimp only
      by_cases hq : d.sendCiprxget2.2 = true
      · rw [if_pos hq]
        obtain ⟨g1, k, g3, ht⟩ := SimDev.sendCiprxget2_take hq
        refine .inr ⟨⟨by simp [hl], by simp [hr], .inr (by simp), by simp⟩, ?_⟩
        exact deaf_cmd ht (by simp)
      · rw [if_neg hq, SimDev.sendCiprxget2_false (by simpa using hq)]
        exact .inl ⟨⟨hl, hr, .inl ⟨hs, h⟩⟩, silent_refl rfl⟩
  case sendCiprxget4 =>
    unfold act; rw [hs]; dsimp only
    exact .inr ⟨⟨hl, hr, .inl (by simp), by simp⟩, deaf_cmd (sendCommand_trace2 d b!"AT+CIPRXGET=4,0") (by simp)⟩
  case sendCipclose =>
    unfold act; rw [hs]; dsimp only
    by_cases hc : d.ipConnected = true
    · rw [if_pos hc]
      exact .inr ⟨⟨hl, hr, .inl (by simp), by simp⟩, deaf_cmd (sendCommand_trace2 d b!"AT+CIPCLOSE=0") (by simp)⟩
    · rw [if_neg hc]
      exact .inl ⟨⟨hl, hr, by simp⟩, silent_refl rfl⟩
  case sendCipshut =>
    unfold act; rw [hs]; dsimp only
    exact .inr ⟨⟨hl, hr, .inl (by simp), by simp⟩, deaf_cmd (sendCommand_trace2 d b!"AT+CIPSHUT") (by simp)⟩
  case serialError =>
    unfold act; rw [hs]
    exact .inl ⟨⟨hl, hr, by simp [hs]⟩, silent_refl rfl⟩

theorem sendNext_off {d : D} (h : d.lineRead = false) : sendNext d = act d := by
  unfold sendNext
  rw [if_neg (by simp [h])]
  have e : d.sendIDRequest iccidCommand = (d, false) := by
    unfold SimDev.sendIDRequest
    rw [if_neg (by simp [h])]
  rw [e]
  simp

theorem dead_proceed {d : D} (h : Dead d) :
    (Dead (proceed d) ∧ Silent d.trace (proceed d).trace) ∨
      (Stuck (proceed d) ∧ Deaf d.trace (proceed d).trace) := by
  unfold proceed
  by_cases hw : d.wait ≠ none ∨ d.rep ≠ .okReply
  · rw [if_pos hw]; exact .inl ⟨h, silent_refl rfl⟩
  · rw [if_neg hw]
    split
    · exact .inl ⟨⟨h.line, h.reset, h.snd⟩, silent_refl rfl⟩
    · rw [sendNext_off (d := askSpace d) h.line]
      exact dead_act (d := askSpace d) ⟨h.line, h.reset, h.snd⟩

theorem dead_run (p : Platform) {d : D} (ok : Bool) (h : Dead d) :
    (Dead (run p d ok) ∧ Silent d.trace (run p d ok).trace) ∨
      (Stuck (run p d ok) ∧ Deaf d.trace (run p d ok).trace) := by
  unfold run
  split
  · unfold tryOpen
    split
    · exact .inl ⟨⟨h.line, h.reset, h.snd⟩, silent_refl rfl⟩
    · exact .inl ⟨⟨h.line, h.reset, by simp⟩, silent_refl rfl⟩
  · split
    · exact .inl ⟨h, silent_refl rfl⟩
    · rw [h.reset]
      simp only [Bool.false_eq_true, if_false]
      rw [work_deaf p h.line h.notReceiving]
      exact dead_proceed h

theorem dead_step (p : Platform) (d : D) (op : Op) (ho : op ≠ .resetStates) (h : Dead d) :
    (Dead (step p d op) ∧ Silent d.trace (step p d op).trace) ∨
      (Stuck (step p d op) ∧ Deaf d.trace (step p d op).trace) := by
  by_cases hr : ∃ ok, op = .run ok
  · obtain ⟨ok, rfl⟩ := hr
    exact dead_run p ok h
  · have c := calm_step p d op ho fun ok e => hr ⟨ok, e⟩
    exact .inl ⟨h.aside c, c.trace⟩

/-- Nothing is read any more unless the application calls `resetStates()`. -/
theorem dead_exec (p : Platform) {d : D} (h : Dead d) (ops : List Op) (ho : .resetStates ∉ ops) :
    (Dead (exec (step p) d ops) ∨ Stuck (exec (step p) d ops)) ∧ Deaf d.trace (exec (step p) d ops).trace :=
  exec_deaf (tr := (·.trace)) (ok := (· ≠ .resetStates)) (stuck_step p) (dead_step p) h ops
    fun op hop e => ho (e ▸ hop)

/-- A header announced nothing. -/
structure Empty (d : D) : Prop where
  line : d.lineRead = false
  reset : d.resetPending = false
  snd : d.snd = .receiving
  none : d.bytesToRead = 0
  stay : d.disconnectPending = false

theorem empty_proceed {d : D} (h : Empty d) :
    (Empty (proceed d) ∨ Dead (proceed d)) ∧ (proceed d).trace = d.trace := by
  unfold proceed
  by_cases hw : d.wait ≠ Option.none ∨ d.rep ≠ .okReply
  · rw [if_pos hw]; exact ⟨.inl h, rfl⟩
  · rw [if_neg hw]
    split
    · exact ⟨.inl ⟨h.line, h.reset, h.snd, h.none, h.stay⟩, rfl⟩
    · rw [sendNext_off (d := askSpace d) h.line]
      have e : act (askSpace d) = actReceiving (askSpace d) := by
        have : (askSpace d).snd = .receiving := h.snd
        simp only [act, this]
      rw [e]
      unfold actReceiving
      rw [if_neg (by show ¬ d.bytesToRead > 0; rw [h.none]; decide)]
      split
      · rename_i hb
        exact ⟨.inr ⟨h.line, h.reset, .inl ⟨rfl, hb⟩⟩, rfl⟩
      · exact ⟨.inr ⟨h.line, h.reset, by simp⟩, rfl⟩

theorem empty_run (p : Platform) {d : D} (ok : Bool) (h : Empty d) :
    (Empty (run p d ok) ∨ Dead (run p d ok)) ∧ (run p d ok).trace = d.trace := by
  unfold run
  split
  · unfold tryOpen
    split
    · exact ⟨.inl ⟨h.line, h.reset, h.snd, h.none, h.stay⟩, rfl⟩
    · exact ⟨.inr ⟨h.line, h.reset, by simp⟩, rfl⟩
  · split
    · exact ⟨.inl h, rfl⟩
    · rw [h.reset]
      simp only [Bool.false_eq_true, if_false]
      unfold work
      dsimp only
      have e : d.fillLineBuffer = (d, false) := fillLine_off d _ h.line
      rw [e]
      have e2 : flushIfDisconnecting d = d := by
        unfold flushIfDisconnecting; rw [if_neg (by simp [h.stay])]
      simp only [Bool.false_eq_true, if_false, e2]
      exact empty_proceed h

theorem empty_step (p : Platform) (d : D) (op : Op) (ho : op ≠ .resetStates) (hd : op ≠ .disconnect)
    (h : Empty d) :
    (Empty (step p d op) ∨ Dead (step p d op)) ∧ Silent d.trace (step p d op).trace := by
  by_cases hr : ∃ ok, op = .run ok
  · obtain ⟨ok, rfl⟩ := hr
    obtain ⟨h1, h2⟩ := empty_run p ok h
    exact ⟨h1, silent_refl h2⟩
  · have c := calm_step p d op ho fun ok e => hr ⟨ok, e⟩
    refine ⟨.inl ⟨by rw [c.lineRead]; exact h.line, by rw [c.resetPending]; exact h.reset,
      by rw [c.snd]; exact h.snd, by rw [c.bytesToRead]; exact h.none, ?_⟩, c.trace⟩
    have := h.stay
    cases op <;> first
      | exact absurd rfl ho
      | exact absurd rfl hd
      | exact absurd ⟨_, rfl⟩ hr
      | (simp only [step, common, logConnect, SimDev.connect, ipConnect, Dev.write, Dev.read, Dev.log,
          Dev.setHostPort, Dev.requestRSSI, Dev.serialWrite, Dev.serialRead, SimDev.setApn,
          SimDev.serialLock, SimDev.serialUnlock, SimDev.requestIDString]
         (repeat' split) <;> first | exact this | (exact absurd this (by simp_all)))

theorem empty_exec (p : Platform) {d : D} (h : Empty d) (ops : List Op) (ho : .resetStates ∉ ops)
    (hd : .disconnect ∉ ops) :
    (Empty (exec (step p) d ops) ∨ Dead (exec (step p) d ops) ∨ Stuck (exec (step p) d ops)) ∧
    Deaf d.trace (exec (step p) d ops).trace := by
  unfold exec
  induction ops generalizing d with
  | nil => exact ⟨.inl h, Silent.deaf (silent_refl rfl)⟩
  | cons op ops ih =>
    have ho' : Op.resetStates ∉ ops := fun x => ho (by simp [x])
    have hd' : Op.disconnect ∉ ops := fun x => hd (by simp [x])
    obtain ⟨h1 | h1, h2⟩ := empty_step p d op (fun e => ho (by simp [e])) (fun e => hd (by simp [e])) h
    · obtain ⟨h3, h4⟩ := ih h1 ho' hd'
      exact ⟨h3, h2.then_deaf h4⟩
    · obtain ⟨h3, h4⟩ := dead_exec p h1 ops ho'
      exact ⟨.inr h3, h2.then_deaf h4⟩

/-- The header of an empty data block was read. -/
theorem empty_header (p : Platform) {d : D} (hv : LineOk d) (hi : RxI p d) (hrs : d.resetPending = false)
    (hdp : d.disconnectPending = false) {ok : Bool} {l : List Byte} {rest : List Ev}
    (ht : (run p d ok).trace = d.trace ++ .line l :: rest)
    (hreq : ((rx requestSim (headerSim p)).after d.trace).req ≠ none) (hz : headerSim p l = some 0) :
    Empty (run p d ok) ∨ Dead (run p d ok) := by
  have hrep : d.rep = .ciprxget2 := hi.req.mp hreq
  have hne : ∀ e : D, e.trace = d.trace → e.trace ≠ d.trace ++ .line l :: rest := by
    intro e he h
    rw [he] at h
    have := congrArg List.length h
    simp at this
  unfold run at ht ⊢
  by_cases ho : d.isOpen = false
  · rw [if_pos ho] at ht
    refine absurd ht (hne _ ?_)
    unfold tryOpen; split <;> rfl
  rw [if_neg ho] at ht ⊢
  by_cases hk : d.serialLocked = true
  · rw [if_pos hk] at ht
    exact absurd ht (hne _ rfl)
  rw [if_neg hk, hrs] at ht ⊢
  simp only [Bool.false_eq_true, if_false] at ht ⊢
  unfold work at ht ⊢
  dsimp only at ht ⊢
  rcases fillLine_cases d (SimDev.lineStop d.rep) (stopOk_sim (x := NoHeader) d.rep).full hv with
    ⟨s, m, k, e⟩ | ⟨hlr, s, m, r, l', e, hl, hlo, m', c, hc, _⟩
  · have e' : d.fillLineBuffer = (d.setIo s m k, false) := e
    rw [e'] at ht
    simp only [Bool.false_eq_true, if_false] at ht
    have e2 : flushIfDisconnecting (d.setIo s m k) = d.setIo s m k := by
      unfold flushIfDisconnecting; rw [if_neg (by simp [hdp])]
    rw [e2] at ht
    have : proceed (d.setIo s m k) = d.setIo s m k := by
      unfold proceed; rw [if_pos (by rw [hrep]; simp)]
    rw [this] at ht
    exact absurd ht (hne _ rfl)
  · have hr : r = d.rep := SimDev.lineStop_rep hc
    subst hr
    have e' : d.fillLineBuffer = (d.gotLine s m d.rep l', true) := e
    rw [e'] at ht ⊢
    simp only [if_true] at ht ⊢
    have hll : l' = l := by
      have hnew : ∃ new, (if (parseLine p (d.gotLine s m d.rep l')).2 = true
          then (parseLine p (d.gotLine s m d.rep l')).1
          else proceed (parseLine p (d.gotLine s m d.rep l')).1).trace = d.trace ++ .line l' :: new := by
        split
        · exact ⟨[], by rw [parseLine_trace]⟩
        · obtain ⟨new, h⟩ := proceed_grows (parseLine p (d.gotLine s m d.rep l')).1
          exact ⟨new, by rw [h, parseLine_trace]; simp⟩
      obtain ⟨new, h⟩ := hnew
      have := h.symm.trans ht
      have := List.append_cancel_left this
      injection this with x _
      injection x
    subst hll
    unfold headerSim at hz
    have hh : b!"+CIPRXGET: 2,0,".isPrefixOf l' = true := by
      revert hz; split <;> simp_all
    rw [if_pos hh] at hz
    injection hz with hz
    have hhas := hl.has_iff (lit := b!"+CIPRXGET: 2,0,") (by decide)
    rw [hh] at hhas
    have he : ∀ lit ∈ [b!"ERROR", b!"+CME ERROR", b!"+PDP: DEACT"],
        (d.gotLine s m d.rep l').has lit = false := by
      intro lit hm
      have h0 : (0 : Byte) ∉ lit ∧ ¬ (lit <+: b!"+CIPRXGET: 2,0," ∨ b!"+CIPRXGET: 2,0," <+: lit) := by
        revert lit; decide
      rw [hl.has_iff h0.1]; exact not_prefix hh h0.2
    obtain ⟨x1, x2, x3, x4⟩ := (parseLine_rx p (d.gotLine s m d.rep l')).2.2.2 hrep hhas
      (by unfold isError; rw [he _ (by simp), he _ (by simp), he _ (by simp)]; rfl)
    obtain ⟨y1, y2, y3⟩ := parseLine_header p (d.gotLine s m d.rep l') hrep hhas he
    have hemp : Empty (parseLine p (d.gotLine s m d.rep l')).1 := by
      refine ⟨x2, y2.trans hrs, x3, ?_, y3.trans hdp⟩
      rw [x4, hl.number _ (by
          have := (List.isPrefixOf_iff_prefix.mp hh).length_le
          simpa using this)]
      show addSize d.bytesToRead _ = _
      rw [hi.held.zero hlr, addSize_zero]
      exact hz
    rw [if_neg (by rw [y1]; simp)]
    exact (empty_proceed hemp).1

end Sim800

namespace Espressif

/-- Nothing is read, an answer is awaited. -/
structure Stuck (d : D) : Prop where
  line : d.lineRead = false
  reset : d.resetPending = false
  wait : d.wait ≠ none ∨ d.rep ≠ .okReply
  snd : d.snd ≠ .receiving

theorem Stuck.calm {d e : D} (h : Stuck d) (c : Aside d e) : Stuck e :=
  ⟨by rw [c.lineRead]; exact h.line, by rw [c.resetPending]; exact h.reset,
    by rw [c.wait, c.rep]; exact h.wait, by rw [c.snd]; exact h.snd⟩

theorem calm_step (p : Platform) (d : D) (op : Op) (h1 : op ≠ .resetStates) (h2 : ∀ ok, op ≠ .run ok) :
    Aside d (step p d op) := by
  cases op
  case run ok => exact absurd rfl (h2 ok)
  case resetStates => exact absurd rfl h1
  case connect =>
    refine calm_connect (connect d).1 d (connect d).2 ?_
    unfold connect
    dsimp only
    split <;> split <;> first
      | exact .of_same rfl rfl rfl rfl rfl rfl rfl rfl rfl
      | exact calm_ipConnect d
      | (obtain ⟨a, b, c, e, f, g, i, j, k⟩ := calm_ipConnect { d with ub := true }
         exact ⟨a, b, c, e, f, g, i, j, k⟩)
  case setSSID a => exact .of_same rfl rfl rfl rfl rfl rfl rfl rfl rfl
  case setPassword a => exact .of_same rfl rfl rfl rfl rfl rfl rfl rfl rfl
  case requestMac => exact .of_same rfl rfl rfl rfl rfl rfl rfl rfl rfl
  case irq a => exact calm_common d (.irq a)
  case closePort => exact calm_common d .closePort
  case disconnect => exact calm_common d .disconnect
  case setHostPort a b c => exact calm_common d (.setHostPort a b c)
  case write a => exact calm_common d (.write a)
  case read a => exact calm_common d (.read a)
  case requestRSSI => exact calm_common d .requestRSSI
  case serialWrite a => exact calm_common d (.serialWrite a)
  case serialRead a => exact calm_common d (.serialRead a)
  all_goals exact .of_same rfl rfl rfl rfl rfl rfl rfl rfl rfl

theorem work_deaf (p : Platform) {d : D} (h : d.lineRead = false) (hs : d.snd ≠ .receiving) :
    work p d = proceed p d := by
  unfold work
  dsimp only
  have e : fillLineBuffer d = (d, false) := fillLine_off d _ h
  rw [e]
  have e2 : flushIfDisconnecting d = d := by unfold flushIfDisconnecting; rw [if_neg (by simp [hs])]
  simp only [Bool.false_eq_true, if_false, e2]

theorem stuck_run (p : Platform) {d : D} (ok : Bool) (h : Stuck d) :
    Stuck (run p d ok) ∧ (run p d ok).trace = d.trace := by
  unfold run
  split
  · unfold tryOpen
    split
    · exact ⟨⟨h.line, h.reset, h.wait, h.snd⟩, rfl⟩
    · exact ⟨⟨h.line, h.reset, h.wait, by simp⟩, rfl⟩
  · rw [h.reset]
    simp only [Bool.false_eq_true, if_false]
    rw [work_deaf p h.line h.snd]
    unfold proceed
    rw [if_pos h.wait]
    exact ⟨h, rfl⟩

theorem stuck_step (p : Platform) (d : D) (op : Op) (ho : op ≠ .resetStates) (h : Stuck d) :
    Stuck (step p d op) ∧ Silent d.trace (step p d op).trace := by
  by_cases hr : ∃ ok, op = .run ok
  · obtain ⟨ok, rfl⟩ := hr
    obtain ⟨h1, h2⟩ := stuck_run p ok h
    exact ⟨h1, [], by rw [List.append_nil]; exact h2, by simp⟩
  · have c := calm_step p d op ho fun ok e => hr ⟨ok, e⟩
    exact ⟨h.calm c, c.trace⟩

/-- Nothing happens any more unless the application calls `resetStates()`. -/
theorem stuck_exec (p : Platform) {d : D} (h : Stuck d) (ops : List Op) (ho : .resetStates ∉ ops) :
    Silent d.trace (exec (step p) d ops).trace :=
  (exec_silent (tr := (·.trace)) (ok := (· ≠ .resetStates)) (stuck_step p) h ops
    fun op hop e => ho (e ▸ hop)).2

theorem proceed_grows (p : Platform) (d : D) : ∃ new, (proceed p d).trace = d.trace ++ new := by
  unfold proceed
  split
  · exact ⟨[], by simp⟩
  · split
    · exact ⟨[], by simp [askSpace]⟩
    · have ht : d.trace = (askSpace d).trace := rfl
      rw [ht]
      generalize askSpace d = d
      unfold sendNext
      split
      · exact ⟨_, sendCommand_trace2 d _⟩
      · split
        · exact ⟨_, sendCommand_trace2 d _⟩
        · exact (act_turn d).grows

/-- A datagram is announced while an answer is awaited. -/
theorem stuck_datagram (p : Platform) {d : D} (hv : LineOk d) (hrs : d.resetPending = false)
    (htyp : d.typ ≠ .tcp) (hc : Snd.connected.idx ≤ d.snd.idx) (hnr : d.snd ≠ .receiving)
    (hw : (∃ w, d.wait = some w ∧ (0 : Byte) ∉ w ∧ ¬ (w <+: b!"+IPD" ∨ b!"+IPD" <+: w)) ∨ d.rep ≠ .okReply)
    {ok : Bool} {l : List Byte} {rest : List Ev}
    (ht : (run p d ok).trace = d.trace ++ .line l :: rest) (hl : b!"+IPD" <+: l) :
    Stuck (run p d ok) := by
  have hw' : d.wait ≠ none ∨ d.rep ≠ .okReply := by
    rcases hw with ⟨w, h, _⟩ | h
    · exact .inl (by rw [h]; simp)
    · exact .inr h
  have hne : ∀ e : D, e.trace = d.trace → e.trace ≠ d.trace ++ .line l :: rest := by
    intro e he h
    rw [he] at h
    have := congrArg List.length h
    simp at this
  unfold run at ht ⊢
  by_cases ho : d.isOpen = false
  · rw [if_pos ho] at ht
    refine absurd ht (hne _ ?_)
    unfold tryOpen; split <;> rfl
  rw [if_neg ho, hrs] at ht ⊢
  simp only [Bool.false_eq_true, if_false] at ht ⊢
  unfold work at ht ⊢
  dsimp only at ht ⊢
  rcases fillLine_cases d (lineStop d.typ d.rep) (stopOk d.typ d.rep).full hv with
    ⟨s, m, k, e⟩ | ⟨hlr, s, m, r, l', eq0, hd, hlo, m', c, h3, htk, h5⟩
  · have e' : fillLineBuffer d = (d.setIo s m k, false) := e
    rw [e'] at ht
    simp only [Bool.false_eq_true, if_false] at ht
    have e2 : flushIfDisconnecting (d.setIo s m k) = d.setIo s m k := by
      unfold flushIfDisconnecting; rw [if_neg (by simp [hnr])]
    rw [e2] at ht
    have : proceed p (d.setIo s m k) = d.setIo s m k := by
      unfold proceed; rw [if_pos hw']
    rw [this] at ht
    exact absurd ht (hne _ rfl)
  · have e' : fillLineBuffer d = (d.gotLine s m r l', true) := eq0
    rw [e'] at ht ⊢
    simp only [if_true] at ht ⊢
    have hll : l' = l := by
      have hnew : ∃ new, (if (parseLine p (d.gotLine s m r l')).2 = true
          then (parseLine p (d.gotLine s m r l')).1
          else proceed p (parseLine p (d.gotLine s m r l')).1).trace = d.trace ++ .line l' :: new := by
        split
        · exact ⟨[], by rw [parseLine_trace]⟩
        · obtain ⟨new, h⟩ := proceed_grows p (parseLine p (d.gotLine s m r l')).1
          exact ⟨new, by rw [h, parseLine_trace]; simp⟩
      obtain ⟨new, h⟩ := hnew
      have := h.symm.trans ht
      have := List.append_cancel_left this
      injection this with x _
      injection x
    subst hll
    have hr : r = d.rep := by
      rcases repAfter_of_stop h3 htk with h | ⟨_, _, h | h⟩
      · exact h
      · exact absurd (not_prefix (List.isPrefixOf_iff_prefix.mpr h) (c := b!"+IPD") (by decide))
          (by rw [List.isPrefixOf_iff_prefix.mpr hl]; simp)
      · exact absurd (not_prefix (List.isPrefixOf_iff_prefix.mpr h) (c := b!"+IPD") (by decide))
          (by rw [List.isPrefixOf_iff_prefix.mpr hl]; simp)
    subst hr
    have hno : ∀ lit : List Byte, (0 : Byte) ∉ lit → ¬ (lit <+: b!"+IPD" ∨ b!"+IPD" <+: lit) →
        (d.gotLine s m d.rep l').has lit = false := fun lit h0 h1 => by
      rw [hd.has_iff h0]; exact not_prefix (List.isPrefixOf_iff_prefix.mpr hl) h1
    have hipd : strncmpEq (d.gotLine s m d.rep l').line.cells b!"+IPD," 4 = true := by
      have h1 : (d.gotLine s m d.rep l').has b!"+IPD" = true := by
        rw [hd.has_iff (by decide)]; exact List.isPrefixOf_iff_prefix.mpr hl
      exact h1
    generalize he : d.gotLine s m d.rep l' = e at *
    have f1 : e.wait = d.wait := by rw [← he]
    have f2 : e.rep = d.rep := by rw [← he]
    have f3 : e.snd = d.snd := by rw [← he]
    have f4 : e.typ = d.typ := by rw [← he]
    have f5 : e.resetPending = d.resetPending := by rw [← he]
    have e1 : isError e = false := by
      unfold isError; rw [hno b!"ERROR" (by decide) (by decide), hno b!"FAIL" (by decide) (by decide)]; rfl
    have e2 : parseSendFail e = e := by
      unfold parseSendFail
      rw [if_neg (by rw [hno b!"SEND FAIL" (by decide) (by decide)]; simp)]
    have hp : ∃ e', parseReply p (parseWait e) = e' ∧ (e'.wait ≠ none ∨ e'.rep ≠ .okReply) ∧
        e'.snd = d.snd ∧ e'.typ = d.typ ∧ e'.resetPending = d.resetPending ∧ e'.line = e.line := by
      refine ⟨_, rfl, ?_⟩
      have hwt : (parseWait e).rep = d.rep ∧ (parseWait e).snd = d.snd ∧ (parseWait e).typ = d.typ ∧
          (parseWait e).resetPending = d.resetPending ∧ (parseWait e).line = e.line ∧
          ((parseWait e).wait ≠ none ∨ d.rep ≠ .okReply) := by
        unfold parseWait
        split
        · rename_i hm
          refine ⟨f2, f3, f4, f5, rfl, .inr ?_⟩
          rcases hw with ⟨w, h1, h2, h3⟩ | h
          · unfold waitMatches at hm
            rw [f1, h1] at hm
            have : hasPrefix e.line w = false := hno w h2 h3
            simp [this] at hm
          · exact h
        · exact ⟨f2, f3, f4, f5, rfl, by rw [f1]; exact hw'⟩
      obtain ⟨g1, g2, g3, g4, g5, g6⟩ := hwt
      have hh : ∀ lit, (parseWait e).has lit = e.has lit := fun lit => by unfold has; rw [g5]
      unfold parseReply
      split
      · unfold parseCiprecvdata
        rw [hh, hno b!"+CIPRECVDATA" (by decide) (by decide)]
        rename_i hr
        simp only [Bool.false_eq_true, if_false]
        exact ⟨.inr (by rw [hr]; simp), g2, g3, g4, g5⟩
      · rename_i hr
        rw [hh, hno b!"+CIPSTAMAC:\"" (by decide) (by decide)]
        simp only [Bool.false_eq_true, if_false]
        exact ⟨.inr (by rw [hr]; simp), g2, g3, g4, g5⟩
      · rename_i hr
        rw [hh, hh, hno b!"+CWJAP:" (by decide) (by decide), hno b!"No AP" (by decide) (by decide)]
        simp only [Bool.false_eq_true, if_false]
        exact ⟨.inr (by rw [hr]; simp), g2, g3, g4, g5⟩
      · rename_i hr
        exact ⟨g6.imp id fun h => by rw [g1]; exact h, g2, g3, g4, g5⟩
      · rename_i hr
        exact ⟨.inr (by rw [hr]; simp), g2, g3, g4, g5⟩
    obtain ⟨e', h1, h2, h3, h4, h5, h6⟩ := hp
    have hst : Stuck (checkState p e') := by
      unfold checkState
      rw [if_pos (by rw [h3]; exact hc), if_pos (by rw [h6]; exact hipd)]
      dsimp only
      rw [if_neg (by rw [h4]; exact htyp)]
      exact ⟨rfl, h5.trans hrs, h2, by show e'.snd ≠ _; rw [h3]; exact hnr⟩
    have hpl : parseLine p e = (checkState p e', false) := by
      unfold parseLine
      rw [if_neg (by rw [e1]; simp), e2, h1]
    rw [hpl]
    simp only [Bool.false_eq_true, if_false]
    unfold proceed
    rw [if_pos hst.wait]
    exact hst

end Espressif

namespace CC1352P7

/-- Nothing is read, an answer is awaited. -/
structure Stuck (d : D) : Prop where
  line : d.lineRead = false
  reset : d.resetPending = false
  wait : d.wait ≠ none ∨ d.rep ≠ .okReply
  snd : d.snd ≠ .receiving

theorem Stuck.calm {d e : D} (h : Stuck d) (c : Aside d e) : Stuck e :=
  ⟨by rw [c.lineRead]; exact h.line, by rw [c.resetPending]; exact h.reset,
    by rw [c.wait, c.rep]; exact h.wait, by rw [c.snd]; exact h.snd⟩

theorem calm_step (p : Platform) (d : D) (op : Op) (h1 : op ≠ .resetStates) (h2 : ∀ ok, op ≠ .run ok) :
    Aside d (step p d op) := by
  cases op
  case run ok => exact absurd rfl (h2 ok)
  case resetStates => exact absurd rfl h1
  case connect => exact calm_connect d.ipConnect.1 d d.ipConnect.2 (calm_ipConnect d)
  case requestMac => exact .of_same rfl rfl rfl rfl rfl rfl rfl rfl rfl
  case irq a => exact calm_common d (.irq a)
  case closePort => exact calm_common d .closePort
  case disconnect => exact calm_common d .disconnect
  case setHostPort a b c => exact calm_common d (.setHostPort a b c)
  case write a => exact calm_common d (.write a)
  case read a => exact calm_common d (.read a)
  case requestRSSI => exact calm_common d .requestRSSI
  case serialWrite a => exact calm_common d (.serialWrite a)
  case serialRead a => exact calm_common d (.serialRead a)
  all_goals exact .of_same rfl rfl rfl rfl rfl rfl rfl rfl rfl

theorem work_deaf (p : Platform) {d : D} (h : d.lineRead = false) (hs : d.snd ≠ .receiving) :
    work p d = proceed p d := by
  unfold work
  dsimp only
  have e : fillLineBuffer d = (d, false) := fillLine_off d _ h
  rw [e]
  have e2 : flushIfDisconnecting d = d := by unfold flushIfDisconnecting; rw [if_neg (by simp [hs])]
  simp only [Bool.false_eq_true, if_false, e2]

theorem stuck_run (p : Platform) {d : D} (ok : Bool) (h : Stuck d) :
    Stuck (run p d ok) ∧ (run p d ok).trace = d.trace := by
  unfold run
  split
  · unfold tryOpen
    split
    · exact ⟨⟨h.line, h.reset, h.wait, h.snd⟩, rfl⟩
    · exact ⟨⟨h.line, h.reset, h.wait, by simp⟩, rfl⟩
  · rw [h.reset]
    simp only [Bool.false_eq_true, if_false]
    rw [work_deaf p h.line h.snd]
    unfold proceed
    rw [if_pos h.wait]
    exact ⟨h, rfl⟩

theorem stuck_step (p : Platform) (d : D) (op : Op) (ho : op ≠ .resetStates) (h : Stuck d) :
    Stuck (step p d op) ∧ Silent d.trace (step p d op).trace := by
  by_cases hr : ∃ ok, op = .run ok
  · obtain ⟨ok, rfl⟩ := hr
    obtain ⟨h1, h2⟩ := stuck_run p ok h
    exact ⟨h1, [], by rw [List.append_nil]; exact h2, by simp⟩
  · have c := calm_step p d op ho fun ok e => hr ⟨ok, e⟩
    exact ⟨h.calm c, c.trace⟩

/-- Nothing happens any more unless the application calls `resetStates()`. -/
theorem stuck_exec (p : Platform) {d : D} (h : Stuck d) (ops : List Op) (ho : .resetStates ∉ ops) :
    Silent d.trace (exec (step p) d ops).trace :=
  (exec_silent (tr := (·.trace)) (ok := (· ≠ .resetStates)) (stuck_step p) h ops
    fun op hop e => ho (e ▸ hop)).2

end CC1352P7

end Verif
