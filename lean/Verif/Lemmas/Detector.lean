import Verif.Lemmas.ClientDrv
import Verif.Lemmas.Returns
import Verif.Lemmas.Detected
import Verif.Model.Program

/-!
# The detector and the driver inside, as the task of the example uses them
-/

namespace Verif

/-! ### The serial device while the detector uses it -/

theorem Ser.rxOk_readLineLoop (size fuel : Nat) {s : Ser} (h : Ser.RxOk s) (c : Byte) (acc : List Byte) :
    Ser.RxOk (Ser.readLineLoop size fuel s c acc).1 := by
  induction fuel generalizing s c acc with
  | zero => exact h
  | succ n ih =>
    obtain ⟨rq, h⟩ := h
    obtain ⟨a, h1, e1⟩ := Ser.rxRep_bytesAvailable h
    unfold Ser.readLineLoop
    dsimp only
    split
    · rename_i hc
      cases hq : rq ++ a with
      | nil => rw [hq] at e1; exact absurd e1 hc.1
      | cons x xs =>
        rw [hq] at h1
        obtain ⟨a2, h2, _⟩ := Ser.rxRep_read1 h1
        exact ih ⟨_, h2⟩ _ _
    · exact ⟨_, h1⟩

theorem Ser.rxOk_readLine {s : Ser} (h : Ser.RxOk s) (size : Nat) : Ser.RxOk (s.readLine size).1 := by
  unfold Ser.readLine
  split
  · exact h
  · exact Ser.rxOk_readLineLoop _ _ h _ _

theorem Ser.rxOk_canReadLine {s : Ser} (h : Ser.RxOk s) : Ser.RxOk s.canReadLine.1 := by
  obtain ⟨rq, h⟩ := h
  obtain ⟨a, h1⟩ := Ser.rxRep_sync h
  exact ⟨_, h1.rx, h1.rxs⟩

theorem Ser.rxOk_bytesAvailable {s : Ser} (h : Ser.RxOk s) : Ser.RxOk s.bytesAvailable.1 := by
  obtain ⟨rq, h⟩ := h
  obtain ⟨a, h1, _⟩ := Ser.rxRep_bytesAvailable h
  exact ⟨_, h1⟩

theorem Ser.rxOk_writeStr {s : Ser} (h : Ser.RxOk s) (cs : List Byte) : Ser.RxOk (s.writeStr cs).1 := by
  obtain ⟨rq, h⟩ := h
  obtain ⟨a, h1⟩ := Ser.rxRep_writeStr h cs
  exact ⟨_, h1⟩

theorem Ser.rxOk_transfers {s : Ser} (h : Ser.RxOk s) (hs : List Hw) : Ser.RxOk (s.transfers hs) := by
  obtain ⟨rq, h⟩ := h
  obtain ⟨a, h1⟩ := Ser.rxRep_transfers h hs
  exact ⟨_, h1⟩

namespace ModemDetect

variable {p : Platform}

theorem examine_rxOk {m : MD} (h : Ser.RxOk m.ser) (l : List Byte) : Ser.RxOk (examine m l).ser := by
  unfold examine
  (repeat' split) <;> first | exact h | exact Ser.rxOk_writeStr h _

theorem examine_modem (m : MD) (l : List Byte) : (examine m l).modem = m.modem := by
  unfold examine
  (repeat' split) <;> rfl

theorem query_rxOk {m : MD} (h : Ser.RxOk m.ser) : Ser.RxOk (query m).ser := by
  unfold query
  split
  · split <;> exact h
  · exact Ser.rxOk_writeStr (Ser.rxOk_flush h) _
  · exact h

theorem query_modem (m : MD) : (query m).modem = m.modem := by
  unfold query
  split
  · split <;> rfl
  · rfl
  · rfl

theorem readReply_rxOk {m : MD} (h : Ser.RxOk m.ser) : Ser.RxOk (readReply m).ser := by
  unfold readReply
  dsimp only
  split
  · split
    · exact Ser.rxOk_bytesAvailable (Ser.rxOk_canReadLine h)
    · exact examine_rxOk (Ser.rxOk_readLine (Ser.rxOk_bytesAvailable (Ser.rxOk_canReadLine h)) _) _
  · exact Ser.rxOk_canReadLine h

theorem readReply_modem (m : MD) : (readReply m).modem = m.modem := by
  unfold readReply
  dsimp only
  split
  · split
    · rfl
    · exact examine_modem _ _
  · rfl

/-- The invariants of the driver. -/
def DrvOk : Driver → Prop
  | .sim800 d => Sim800.Inv d ∧ Sim800.Tie d
  | .sim7x00 d => Sim7x00.Inv d ∧ Sim7x00.Tie d
  | .espressif d => Espressif.Inv d ∧ Espressif.Tie d
  | .cc1352p7 d => CC1352P7.Inv d ∧ CC1352P7.Tie d

/-- The invariant of the detector. -/
def Sound (m : MD) : Prop :=
  match m.modem with
  | none => Ser.RxOk m.ser
  | some d => DrvOk d

theorem DrvOk.app {d : Driver} (h : DrvOk d) (op : Op) : DrvOk (d.app p op) := by
  cases d
  · exact (Sim800.fits p).keep _ op h
  · exact (Sim7x00.fits p).keep _ op h
  · exact (Espressif.fits p).keep _ op h
  · exact (CC1352P7.fits p).keep _ op h

theorem run_app (d : Driver) (ok : Bool) : d.run p ok = d.app p (.run ok) := by cases d <;> rfl
theorem irq_app (d : Driver) (hs : List Hw) : d.common (.irq hs) = d.app p (.irq hs) := by cases d <;> rfl
theorem close_app (d : Driver) : d.common .closePort = d.app p .closePort := by cases d <;> rfl

theorem Sound.step {m : MD} (h : Sound m) {op : DOp} (hg : ∀ b, op ≠ .get b) : Sound (step p m op) := by
  obtain ⟨ser, isOpen, det, started, modem, delay, ub, trace⟩ := m
  cases modem with
  | none =>
    cases op with
    | irq hs => exact Ser.rxOk_transfers h hs
    | closePort => exact h
    | start => exact h
    | get b => exact absurd rfl (hg b)
    | app op => exact h
    | run ok =>
      simp only [ModemDetect.step, run]
      split
      · split <;> exact h
      · unfold Sound
        rw [readReply_modem, query_modem]
        exact readReply_rxOk (query_rxOk h)
  | some d =>
    have h : DrvOk d := h
    cases op with
    | irq hs => show DrvOk (d.common (.irq hs)); rw [irq_app (p := p)]; exact h.app _
    | closePort => show DrvOk (d.common .closePort); rw [close_app (p := p)]; exact h.app _
    | start => exact h
    | get b => exact absurd rfl (hg b)
    | app op => exact h.app op
    | run ok => show DrvOk (d.run p ok); rw [run_app]; exact h.app _

/-- A driver that is made has no data. -/
theorem construct_ok {det : Det} {s : Ser} (h : Ser.RxOk s) (o : Bool) {b : Mems} (hl : b.line.length = lineMax + 1) {d : Driver}
    (e : construct det s o b = some d) : DrvOk d := by
  unfold construct at e
  split at e <;> cases e
  · exact ⟨⟨⟨Ser.rxOk_flush h, ⟨hl, (by decide : 0 < lineMax), rfl⟩,
      ⟨by intro c hc; simp [Sim800.init, SimDev.init, SimDev.resetStates, Dev.part] at hc,
       by intro l hc; simp [Sim800.init, SimDev.init, SimDev.resetStates] at hc⟩⟩, .of_zero rfl⟩,
      Or.inr ⟨fun h => (by cases h), fun _ => rfl, fun _ => rfl⟩⟩
  · exact ⟨⟨⟨Ser.rxOk_flush h, ⟨hl, (by decide : 0 < lineMax), rfl⟩,
      ⟨by intro c hc; simp [Sim7x00.init, SimDev.init, SimDev.resetStates, Dev.part] at hc,
       by intro l hc; simp [Sim7x00.init, SimDev.init, SimDev.resetStates] at hc⟩⟩, .of_zero rfl⟩,
      Or.inr ⟨fun h => (by cases h), fun _ => rfl, fun _ => rfl⟩⟩
  · exact ⟨⟨Ser.rxOk_flush h, ⟨hl, (by decide : 0 < lineMax), rfl⟩,
      ⟨by intro c hc; simp [Espressif.init, Espressif.resetStates, Dev.part] at hc,
       by intro l hc; simp [Espressif.init, Espressif.resetStates] at hc⟩⟩,
      Or.inr ⟨fun h => (by cases h), fun _ => rfl, fun _ => rfl⟩⟩
  · exact ⟨⟨⟨Ser.rxOk_flush h, ⟨hl, (by decide : 0 < lineMax), rfl⟩,
      ⟨by intro c hc; simp [CC1352P7.init, CC1352P7.resetStates, Dev.part] at hc,
       by intro l hc; simp [CC1352P7.init, CC1352P7.resetStates] at hc⟩⟩, .of_zero rfl⟩,
      Or.inr ⟨fun h => (by cases h), fun _ => rfl, fun _ => rfl⟩⟩

theorem Sound.serial {m : MD} (h : Sound m) : Ser.RxOk m.serial := by
  unfold Sound at h
  unfold MD.serial
  cases e : m.modem with
  | none => rw [e] at h; exact h
  | some d =>
    rw [e] at h
    cases d
    · exact h.1.1.rx
    · exact h.1.1.rx
    · exact h.1.rx
    · exact h.1.1.rx

theorem Sound.get {m : MD} (h : Sound m) {b : Mems} (hl : b.line.length = lineMax + 1) : Sound (ModemDetect.step p m (.get b)) := by
  simp only [ModemDetect.step, getDetectedModem]
  split
  · rename_i d e
    exact construct_ok h.serial _ hl e
  · exact h

theorem get_some {m : MD} (h : modemDetected m = true) (b : Mems) : (ModemDetect.step p m (.get b)).modem ≠ none := by
  unfold modemDetected at h
  simp only [ModemDetect.step, getDetectedModem]
  cases e : m.det <;> rw [e] at h <;> first | exact absurd h (by decide) | simp [construct]

theorem some_step {m : MD} (h : m.modem ≠ none) (op : DOp) : (ModemDetect.step p m op).modem ≠ none := by
  obtain ⟨ser, isOpen, det, started, modem, delay, ub, trace⟩ := m
  cases modem with
  | none => exact absurd rfl h
  | some d =>
    cases op with
    | get b =>
      simp only [ModemDetect.step, getDetectedModem]
      split <;> simp
    | _ => simp [ModemDetect.step, run, startDetection]

open Program

/-- Does the operation run the driver? -/
def isRunD : DOp → Bool
  | .run _ => true
  | .app op => Spec.Client.isRun op
  | _ => false

/-- Operations that do not make a new driver. -/
def Tame (op : DOp) : Prop := ∀ b, op ≠ .get b

theorem quiet_app (d : Driver) (op : Op) (hr : Spec.Client.isRun op = false) (h : avail (d.app p op) ≠ 0) :
    avail d ≠ 0 ∧ connected (d.app p op) = connected d := by
  cases d
  · exact (Sim800.fits p).quiet _ op hr h
  · exact (Sim7x00.fits p).quiet _ op hr h
  · exact (Espressif.fits p).quiet _ op hr h
  · exact (CC1352P7.fits p).quiet _ op hr h

theorem run_app_stored {d : Driver} (hd : DrvOk d) (ok : Bool) (h0 : avail d = 0) (h : avail (d.app p (.run ok)) ≠ 0) :
    connected (d.app p (.run ok)) = true := by
  cases d
  · rcases (Sim800.fits p).run _ ok hd with q | q
    · exact absurd ((congrArg Ring.bytesAvailable q).trans h0) h
    · exact q
  · rcases (Sim7x00.fits p).run _ ok hd with q | q
    · exact absurd ((congrArg Ring.bytesAvailable q).trans h0) h
    · exact q
  · rcases (Espressif.fits p).run _ ok hd with q | q
    · exact absurd ((congrArg Ring.bytesAvailable q).trans h0) h
    · exact q
  · rcases (CC1352P7.fits p).run _ ok hd with q | q
    · exact absurd ((congrArg Ring.bytesAvailable q).trans h0) h
    · exact q

/-- `bytesAvailable()` and `isConnected()` as the task sees them. -/
abbrev left (m : MD) : Nat := m.modem.elim 0 avail
abbrev up (m : MD) : Bool := m.modem.elim false connected

theorem none_step {m : MD} (hm : m.modem = none) {op : DOp} (ht : Tame op) : (ModemDetect.step p m op).modem = none := by
  obtain ⟨ser, isOpen, det, started, modem, delay, ub, trace⟩ := m
  simp only at hm
  subst hm
  cases op with
  | get b => exact absurd rfl (ht b)
  | run ok =>
    simp only [ModemDetect.step, run]
    split
    · split <;> rfl
    · rw [readReply_modem, query_modem]
  | _ => rfl

/-- With a driver, an operation is one on the driver. -/
theorem step_some {m : MD} {d : Driver} (hm : m.modem = some d) {op : DOp} (ht : Tame op) :
    (ModemDetect.step p m op).modem = some d ∧ isRunD op = false ∨
      ∃ o, (ModemDetect.step p m op).modem = some (d.app p o) ∧ Spec.Client.isRun o = isRunD op := by
  obtain ⟨ser, isOpen, det, started, modem, delay, ub, trace⟩ := m
  simp only at hm
  subst hm
  cases op with
  | get b => exact absurd rfl (ht b)
  | run ok => exact .inr ⟨.run ok, by simp only [ModemDetect.step, run, run_app], rfl⟩
  | irq hs => exact .inr ⟨.irq hs, by simp only [ModemDetect.step, irq_app (p := p)], rfl⟩
  | closePort => exact .inr ⟨.closePort, by simp only [ModemDetect.step, close_app (p := p)], rfl⟩
  | start => exact .inl ⟨rfl, rfl⟩
  | app o => exact .inr ⟨o, rfl, rfl⟩

theorem quiet_step {m : MD} {op : DOp} (ht : Tame op) (hr : isRunD op = false) (h : left (ModemDetect.step p m op) ≠ 0) :
    left m ≠ 0 ∧ up (ModemDetect.step p m op) = up m := by
  cases hm : m.modem with
  | none =>
    unfold left at h
    rw [none_step hm ht] at h
    exact absurd rfl h
  | some d =>
    unfold left up at *
    rcases step_some (p := p) hm ht with ⟨e, _⟩ | ⟨o, e, ho⟩
    · rw [e] at h ⊢; rw [hm]; exact ⟨h, rfl⟩
    · rw [e] at h ⊢; rw [hm]
      exact quiet_app d o (ho.trans hr) h

theorem run_step {m : MD} (hm : Sound m) {op : DOp} (ht : Tame op) (h0 : left m = 0) (hr : isRunD op = true)
    (h : left (ModemDetect.step p m op) ≠ 0) : up (ModemDetect.step p m op) = true := by
  cases e : m.modem with
  | none =>
    unfold left at h
    rw [none_step e ht] at h
    exact absurd rfl h
  | some d =>
    unfold left up Sound at *
    rw [e] at h0 hm
    rcases step_some (p := p) e ht with ⟨_, q⟩ | ⟨o, e2, ho⟩
    · rw [hr] at q; cases q
    · rw [e2] at h ⊢
      rw [hr] at ho
      cases o <;> simp only [Spec.Client.isRun, Bool.false_eq_true] at ho
      exact run_app_stored hm _ h0 h

theorem Sound.execD {m : MD} (h : Sound m) {ops : List DOp} (ht : ∀ op ∈ ops, Tame op) : Sound (execD p m ops) := by
  induction ops generalizing m with
  | nil => exact h
  | cons op ops ih => exact ih (h.step (ht op (List.mem_cons_self ..))) fun o ho => ht o (List.mem_cons_of_mem _ ho)

theorem some_execD {m : MD} (h : m.modem ≠ none) (ops : List DOp) : (execD p m ops).modem ≠ none := by
  induction ops generalizing m with
  | nil => exact h
  | cons op ops ih => exact ih (some_step h op)

theorem still_execD {m : MD} {ops : List DOp} (ht : ∀ op ∈ ops, Tame op) (hn : ops.countP isRunD = 0)
    (h : left (ModemDetect.execD p m ops) ≠ 0) : left m ≠ 0 ∧ up (ModemDetect.execD p m ops) = up m := by
  induction ops generalizing m with
  | nil => exact ⟨h, rfl⟩
  | cons op ops ih =>
    have hn' : isRunD op = false ∧ ops.countP isRunD = 0 := by
      rw [List.countP_cons] at hn
      cases ho : isRunD op
      · exact ⟨rfl, by omega⟩
      · simp [ho] at hn
    obtain ⟨h1, h2⟩ := ih (m := ModemDetect.step p m op) (fun o ho => ht o (List.mem_cons_of_mem _ ho)) hn'.2 h
    obtain ⟨h3, h4⟩ := quiet_step (ht op (List.mem_cons_self ..)) hn'.1 h1
    exact ⟨h3, h2.trans h4⟩

theorem once_execD {m : MD} (hm : Sound m) {ops : List DOp} (ht : ∀ op ∈ ops, Tame op) (hn : ops.countP isRunD ≤ 1)
    (h0 : left m = 0) (h : left (ModemDetect.execD p m ops) ≠ 0) : up (ModemDetect.execD p m ops) = true := by
  induction ops generalizing m with
  | nil => exact absurd h0 h
  | cons op ops ih =>
    rw [List.countP_cons] at hn
    have ht' := fun o ho => ht o (List.mem_cons_of_mem _ ho)
    have h1 := ht op (List.mem_cons_self ..)
    cases ho : isRunD op with
    | false =>
      refine ih (hm.step h1) ht' (by omega) ?_ h
      exact Classical.byContradiction fun hq => (quiet_step h1 ho hq).1 h0
    | true =>
      have hz : ops.countP isRunD = 0 := by simp only [ho, if_true] at hn; omega
      obtain ⟨h2, h3⟩ := still_execD ht' hz h
      exact h3.trans (run_step hm h1 h0 ho h2)

end ModemDetect
end Verif
