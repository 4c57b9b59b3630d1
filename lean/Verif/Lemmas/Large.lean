import Verif.Lemmas.Wedge
import Verif.Lemmas.Request

/-! Data blocks that are bigger than the receive buffer of the serial device. -/

namespace Verif

open Dev Spec

variable {S R X : Type}

theorem Ser.avail_le {s : Ser} (h : Ser.RxOk s) : s.bytesAvailable.2 ≤ s.rx.ring.size := by
  obtain ⟨rq, h⟩ := h
  obtain ⟨add, h1⟩ := Ser.rxRep_sync h
  have h2 := h1.rx.ring.le
  have h3 := h1.rx.ring.av
  have e : s.sync.rx.ring.size = s.rx.ring.size := Ser.rxSize_sync s
  show s.sync.rx.ring.avail ≤ _
  omega

/-- A block that does not fit is never complete. -/
theorem receive_short {d : Dev S R X} (h : Ser.RxOk d.ser) (hb : d.ser.rx.ring.size < d.bytesToRead) :
    d.receive = (d.askAvail, false) := by
  unfold receive
  have : d.serAvail ≤ d.ser.rx.ring.size := Ser.avail_le h
  rw [if_neg (by omega)]

theorem later_common (d : Dev S R X) (op : Op) : Ser.Later d.ser (d.common op).ser := by
  cases op
  case irq hs => exact Ser.later_transfers _ _
  case serialWrite s =>
    show Ser.Later d.ser (d.serialWrite s).1.ser
    unfold serialWrite
    split
    · exact Ser.later_writeStr _ _
    · exact .refl _
  case serialRead n =>
    show Ser.Later d.ser (d.serialRead n).1.ser
    unfold serialRead
    split
    · exact Ser.later_read _ _
    · exact .refl _
  case write bs =>
    show Ser.Later d.ser (d.write bs).1.ser
    unfold write
    split <;> exact .refl _
  case disconnect =>
    show Ser.Later d.ser (d.disconnect).ser
    simp only [disconnect]
    split <;> exact .refl _
  all_goals exact .refl _

theorem later_connect (d : Dev S R X) (r : Dev S R X × Bool) (h : r.1.ser = d.ser) :
    Ser.Later d.ser (logConnect r).ser := by
  obtain ⟨r, b⟩ := r
  cases b
  · show Ser.Later d.ser r.ser
    have : r.ser = d.ser := h
    rw [this]; exact .refl _
  · show Ser.Later d.ser r.ser
    have : r.ser = d.ser := h
    rw [this]; exact .refl _

theorem ser_ipConnect (d : Dev S R X) : d.ipConnect.1.ser = d.ser := by
  unfold ipConnect
  split <;> rfl

namespace Sim7x00

theorem later_step (p : Platform) (d : D) (op : Op) : Ser.Later d.ser (step p d op).ser := by
  cases op
  case run ok => exact (eff_run (x := NoHeader) (st := false) p d ok (by simp)).later
  case resetStates => exact Ser.later_flush _
  case connect =>
    refine later_connect d (SimDev.connect d) ?_
    unfold SimDev.connect
    split
    · rfl
    · exact ser_ipConnect d
  case serialLock =>
    show Ser.Later d.ser (SimDev.serialLock d .okReply).1.ser
    unfold SimDev.serialLock
    split <;> exact .refl _
  case irq a => exact later_common d (.irq a)
  case closePort => exact later_common d .closePort
  case disconnect => exact later_common d .disconnect
  case setHostPort a b c => exact later_common d (.setHostPort a b c)
  case write a => exact later_common d (.write a)
  case read a => exact later_common d (.read a)
  case requestRSSI => exact later_common d .requestRSSI
  case serialWrite a => exact later_common d (.serialWrite a)
  case serialRead a => exact later_common d (.serialRead a)
  all_goals exact .refl _

theorem later_exec (p : Platform) (d : D) (ops : List Op) : Ser.Later d.ser (exec (step p) d ops).ser := by
  unfold exec
  induction ops generalizing d with
  | nil => exact .refl _
  | cons op ops ih => exact (later_step p d op).trans (ih _)

/-- More payload is due than the serial device can hold. -/
structure Large (d : D) : Prop where
  inv : Inv d
  line : d.lineRead = false
  reset : d.resetPending = false
  snd : d.snd = .receiving ∨ d.snd = .serialError
  big : d.ser.rx.ring.size < d.bytesToRead
  stay : d.disconnectPending = false

theorem large_proceed {d : D} (hv : Ser.RxOk d.ser) (hl : d.lineRead = false)
    (hs : d.snd = .receiving ∨ d.snd = .serialError) (hb : d.ser.rx.ring.size < d.bytesToRead) :
    ∃ s, proceed d = { d with ser := s } := by
  unfold proceed
  split
  · exact ⟨d.ser, rfl⟩
  · split
    · exact ⟨_, rfl⟩
    · rw [sendNext_off (d := askSpace d) hl]
      have hv' : Ser.RxOk (askSpace d).ser := (Eff.askSpace (x := NoHeader) (strict := false) d).rxOk hv
      have hb' : (askSpace d).ser.rx.ring.size < (askSpace d).bytesToRead := by
        have : (askSpace d).ser.rx.ring.size = d.ser.rx.ring.size := (Ser.later_spaceAvailable d.ser).rxSize
        rw [this]; exact hb
      rcases hs with hs | hs
      · have e : act (askSpace d) = actReceiving (askSpace d) := by
          have : (askSpace d).snd = .receiving := hs
          simp only [act, this]
        rw [e]
        unfold actReceiving
        rw [if_pos (by omega)]
        dsimp only
        rw [receive_short hv' hb']
        exact ⟨_, rfl⟩
      · have e : act (askSpace d) = askSpace d := by
          have : (askSpace d).snd = .serialError := hs
          simp only [act, this]
        rw [e]
        exact ⟨_, rfl⟩

theorem large_run (p : Platform) {d : D} (ok : Bool) (h : Large d) :
    Large (run p d ok) ∧ (run p d ok).trace = d.trace := by
  have hv : Inv (run p d ok) := step_inv p (.run ok) h.inv
  have hz : (run p d ok).ser.rx.ring.size = d.ser.rx.ring.size := (later_step p d (.run ok)).rxSize
  suffices hx : (run p d ok).lineRead = d.lineRead ∧ (run p d ok).resetPending = d.resetPending ∧
      ((run p d ok).snd = .receiving ∨ (run p d ok).snd = .serialError) ∧
      (run p d ok).bytesToRead = d.bytesToRead ∧ (run p d ok).disconnectPending = d.disconnectPending ∧
      (run p d ok).trace = d.trace by
    obtain ⟨h1, h2, h3, h4, h5, h6⟩ := hx
    exact ⟨⟨hv, h1.trans h.line, h2.trans h.reset, h3, by rw [hz, h4]; exact h.big, h5.trans h.stay⟩, h6⟩
  unfold run
  split
  · unfold tryOpen
    split
    · exact ⟨rfl, rfl, h.snd, rfl, rfl, rfl⟩
    · exact ⟨rfl, rfl, .inr rfl, rfl, rfl, rfl⟩
  · split
    · exact ⟨rfl, rfl, h.snd, rfl, rfl, rfl⟩
    · rw [h.reset]
      simp only [Bool.false_eq_true, if_false]
      unfold work
      dsimp only
      have e : d.fillLineBuffer = (d, false) := fillLine_off d _ h.line
      rw [e]
      have e2 : flushIfDisconnecting d = d := by
        unfold flushIfDisconnecting; rw [if_neg (by simp [h.stay])]
      simp only [Bool.false_eq_true, if_false, e2]
      obtain ⟨s, e3⟩ := large_proceed h.inv.1.rx h.line h.snd h.big
      rw [e3]
      exact ⟨rfl, h.reset, h.snd, rfl, rfl, rfl⟩

theorem large_step (p : Platform) (d : D) (op : Op) (ho : op ≠ .resetStates ∧ op ≠ .disconnect)
    (h : Large d) : Large (step p d op) ∧ Silent d.trace (step p d op).trace := by
  by_cases hr : ∃ ok, op = .run ok
  · obtain ⟨ok, rfl⟩ := hr
    obtain ⟨h1, h2⟩ := large_run p ok h
    exact ⟨h1, silent_refl h2⟩
  · have c := calm_step p d op ho.1 fun ok e => hr ⟨ok, e⟩
    refine ⟨⟨step_inv p op h.inv, by rw [c.lineRead]; exact h.line, by rw [c.resetPending]; exact h.reset,
      by rw [c.snd]; exact h.snd, by rw [c.bytesToRead, (later_step p d op).rxSize]; exact h.big, ?_⟩, c.trace⟩
    have := h.stay
    cases op <;> first
      | exact absurd rfl ho.1
      | exact absurd rfl ho.2
      | exact absurd ⟨_, rfl⟩ hr
      | (simp only [step, common, logConnect, SimDev.connect, ipConnect, Dev.write, Dev.read, Dev.log,
          Dev.setHostPort, Dev.requestRSSI, Dev.serialWrite, Dev.serialRead, SimDev.setApn,
          SimDev.serialLock, SimDev.serialUnlock, SimDev.requestIDString]
         (repeat' split) <;> first | exact this | (exact absurd this (by simp_all)))

/-- Nothing happens any more unless the application calls `resetStates()` or `disconnect()`. -/
theorem large_exec (p : Platform) {d : D} (h : Large d) (ops : List Op) (ho : .resetStates ∉ ops)
    (hd : .disconnect ∉ ops) : Silent d.trace (exec (step p) d ops).trace :=
  (exec_silent (tr := (·.trace)) (ok := fun op => op ≠ .resetStates ∧ op ≠ .disconnect) (large_step p) h ops
    fun _ hop => ⟨fun e => ho (e ▸ hop), fun e => hd (e ▸ hop)⟩).2

end Sim7x00

namespace Sim800

theorem later_step (p : Platform) (d : D) (op : Op) : Ser.Later d.ser (step p d op).ser := by
  cases op
  case run ok => exact (eff_run (x := NoHeader) (st := false) p d ok (by simp)).later
  case resetStates => exact Ser.later_flush _
  case connect =>
    refine later_connect d (SimDev.connect d) ?_
    unfold SimDev.connect
    split
    · rfl
    · exact ser_ipConnect d
  case serialLock =>
    show Ser.Later d.ser (SimDev.serialLock d .okReply).1.ser
    unfold SimDev.serialLock
    split <;> exact .refl _
  case irq a => exact later_common d (.irq a)
  case closePort => exact later_common d .closePort
  case disconnect => exact later_common d .disconnect
  case setHostPort a b c => exact later_common d (.setHostPort a b c)
  case write a => exact later_common d (.write a)
  case read a => exact later_common d (.read a)
  case requestRSSI => exact later_common d .requestRSSI
  case serialWrite a => exact later_common d (.serialWrite a)
  case serialRead a => exact later_common d (.serialRead a)
  all_goals exact .refl _

theorem later_exec (p : Platform) (d : D) (ops : List Op) : Ser.Later d.ser (exec (step p) d ops).ser := by
  unfold exec
  induction ops generalizing d with
  | nil => exact .refl _
  | cons op ops ih => exact (later_step p d op).trans (ih _)

/-- More payload is due than the serial device can hold. -/
structure Large (d : D) : Prop where
  inv : Inv d
  line : d.lineRead = false
  reset : d.resetPending = false
  snd : d.snd = .receiving ∨ d.snd = .serialError
  big : d.ser.rx.ring.size < d.bytesToRead
  stay : d.disconnectPending = false

theorem large_proceed {d : D} (hv : Ser.RxOk d.ser) (hl : d.lineRead = false)
    (hs : d.snd = .receiving ∨ d.snd = .serialError) (hb : d.ser.rx.ring.size < d.bytesToRead) :
    ∃ s, proceed d = { d with ser := s } := by
  unfold proceed
  split
  · exact ⟨d.ser, rfl⟩
  · split
    · exact ⟨_, rfl⟩
    · rw [sendNext_off (d := askSpace d) hl]
      have hv' : Ser.RxOk (askSpace d).ser := (Eff.askSpace (x := NoHeader) (strict := false) d).rxOk hv
      have hb' : (askSpace d).ser.rx.ring.size < (askSpace d).bytesToRead := by
        have : (askSpace d).ser.rx.ring.size = d.ser.rx.ring.size := (Ser.later_spaceAvailable d.ser).rxSize
        rw [this]; exact hb
      rcases hs with hs | hs
      · have e : act (askSpace d) = actReceiving (askSpace d) := by
          have : (askSpace d).snd = .receiving := hs
          simp only [act, this]
        rw [e]
        unfold actReceiving
        rw [if_pos (by omega)]
        dsimp only
        rw [receive_short hv' hb']
        exact ⟨_, rfl⟩
      · have e : act (askSpace d) = askSpace d := by
          have : (askSpace d).snd = .serialError := hs
          simp only [act, this]
        rw [e]
        exact ⟨_, rfl⟩

theorem large_run (p : Platform) {d : D} (ok : Bool) (h : Large d) :
    Large (run p d ok) ∧ (run p d ok).trace = d.trace := by
  have hv : Inv (run p d ok) := step_inv p (.run ok) h.inv
  have hz : (run p d ok).ser.rx.ring.size = d.ser.rx.ring.size := (later_step p d (.run ok)).rxSize
  suffices hx : (run p d ok).lineRead = d.lineRead ∧ (run p d ok).resetPending = d.resetPending ∧
      ((run p d ok).snd = .receiving ∨ (run p d ok).snd = .serialError) ∧
      (run p d ok).bytesToRead = d.bytesToRead ∧ (run p d ok).disconnectPending = d.disconnectPending ∧
      (run p d ok).trace = d.trace by
    obtain ⟨h1, h2, h3, h4, h5, h6⟩ := hx
    exact ⟨⟨hv, h1.trans h.line, h2.trans h.reset, h3, by rw [hz, h4]; exact h.big, h5.trans h.stay⟩, h6⟩
  unfold run
  split
  · unfold tryOpen
    split
    · exact ⟨rfl, rfl, h.snd, rfl, rfl, rfl⟩
    · exact ⟨rfl, rfl, .inr rfl, rfl, rfl, rfl⟩
  · split
    · exact ⟨rfl, rfl, h.snd, rfl, rfl, rfl⟩
    · rw [h.reset]
      simp only [Bool.false_eq_true, if_false]
      unfold work
      dsimp only
      have e : d.fillLineBuffer = (d, false) := fillLine_off d _ h.line
      rw [e]
      have e2 : flushIfDisconnecting d = d := by
        unfold flushIfDisconnecting; rw [if_neg (by simp [h.stay])]
      simp only [Bool.false_eq_true, if_false, e2]
      obtain ⟨s, e3⟩ := large_proceed h.inv.1.rx h.line h.snd h.big
      rw [e3]
      exact ⟨rfl, h.reset, h.snd, rfl, rfl, rfl⟩

theorem large_step (p : Platform) (d : D) (op : Op) (ho : op ≠ .resetStates ∧ op ≠ .disconnect)
    (h : Large d) : Large (step p d op) ∧ Silent d.trace (step p d op).trace := by
  by_cases hr : ∃ ok, op = .run ok
  · obtain ⟨ok, rfl⟩ := hr
    obtain ⟨h1, h2⟩ := large_run p ok h
    exact ⟨h1, silent_refl h2⟩
  · have c := calm_step p d op ho.1 fun ok e => hr ⟨ok, e⟩
    refine ⟨⟨step_inv p op h.inv, by rw [c.lineRead]; exact h.line, by rw [c.resetPending]; exact h.reset,
      by rw [c.snd]; exact h.snd, by rw [c.bytesToRead, (later_step p d op).rxSize]; exact h.big, ?_⟩, c.trace⟩
    have := h.stay
    cases op <;> first
      | exact absurd rfl ho.1
      | exact absurd rfl ho.2
      | exact absurd ⟨_, rfl⟩ hr
      | (simp only [step, common, logConnect, SimDev.connect, ipConnect, Dev.write, Dev.read, Dev.log,
          Dev.setHostPort, Dev.requestRSSI, Dev.serialWrite, Dev.serialRead, SimDev.setApn,
          SimDev.serialLock, SimDev.serialUnlock, SimDev.requestIDString]
         (repeat' split) <;> first | exact this | (exact absurd this (by simp_all)))

/-- Nothing happens any more unless the application calls `resetStates()` or `disconnect()`. -/
theorem large_exec (p : Platform) {d : D} (h : Large d) (ops : List Op) (ho : .resetStates ∉ ops)
    (hd : .disconnect ∉ ops) : Silent d.trace (exec (step p) d ops).trace :=
  (exec_silent (tr := (·.trace)) (ok := fun op => op ≠ .resetStates ∧ op ≠ .disconnect) (large_step p) h ops
    fun _ hop => ⟨fun e => ho (e ▸ hop), fun e => hd (e ▸ hop)⟩).2

end Sim800

namespace Espressif

theorem later_step (p : Platform) (d : D) (op : Op) : Ser.Later d.ser (step p d op).ser := by
  cases op
  case run ok => exact (eff_run (st := false) p d ok (by simp)).later
  case resetStates => exact Ser.later_flush _
  case connect =>
    refine later_connect d (connect d) ?_
    unfold connect
    dsimp only
    split <;> split <;> first | rfl | exact ser_ipConnect _
  case irq a => exact later_common d (.irq a)
  case closePort => exact later_common d .closePort
  case disconnect => exact later_common d .disconnect
  case setHostPort a b c => exact later_common d (.setHostPort a b c)
  case write a => exact later_common d (.write a)
  case read a => exact later_common d (.read a)
  case requestRSSI => exact later_common d .requestRSSI
  case serialWrite a => exact later_common d (.serialWrite a)
  case serialRead a => exact later_common d (.serialRead a)
  all_goals exact .refl _

theorem later_exec (p : Platform) (d : D) (ops : List Op) : Ser.Later d.ser (exec (step p) d ops).ser := by
  unfold exec
  induction ops generalizing d with
  | nil => exact .refl _
  | cons op ops ih => exact (later_step p d op).trans (ih _)

/-- More payload is due than the serial device can hold. -/
structure Large (d : D) : Prop where
  inv : Inv d
  line : d.lineRead = false
  reset : d.resetPending = false
  snd : d.snd = .receiving ∨ d.snd = .serialError
  big : d.ser.rx.ring.size < d.bytesToRead
  stay : d.disconnectPending = false

theorem sendNext_off (p : Platform) {d : D} (h : d.lineRead = false) : sendNext p d = act d := by
  unfold sendNext
  simp [h]

theorem large_proceed (p : Platform) {d : D} (hv : Ser.RxOk d.ser) (hl : d.lineRead = false)
    (hs : d.snd = .receiving ∨ d.snd = .serialError) (hb : d.ser.rx.ring.size < d.bytesToRead) :
    ∃ s, proceed p d = { d with ser := s } := by
  unfold proceed
  split
  · exact ⟨d.ser, rfl⟩
  · split
    · exact ⟨_, rfl⟩
    · rw [sendNext_off p (d := askSpace d) hl]
      have hv' : Ser.RxOk (askSpace d).ser := (Eff.askSpace (x := HeaderEnd) (strict := false) d).rxOk hv
      have hb' : (askSpace d).ser.rx.ring.size < (askSpace d).bytesToRead := by
        have : (askSpace d).ser.rx.ring.size = d.ser.rx.ring.size := (Ser.later_spaceAvailable d.ser).rxSize
        rw [this]; exact hb
      rcases hs with hs | hs
      · have e : act (askSpace d) = actReceiving (askSpace d) := by
          have : (askSpace d).snd = .receiving := hs
          simp only [act, this]
        rw [e]
        unfold actReceiving
        rw [if_pos (by omega)]
        dsimp only
        rw [receive_short hv' hb']
        exact ⟨_, rfl⟩
      · have e : act (askSpace d) = askSpace d := by
          have : (askSpace d).snd = .serialError := hs
          simp only [act, this]
        rw [e]
        exact ⟨_, rfl⟩

theorem large_run (p : Platform) {d : D} (ok : Bool) (h : Large d) :
    Large (run p d ok) ∧ (run p d ok).trace = d.trace := by
  have hv : Inv (run p d ok) := step_inv p (.run ok) h.inv
  have hz : (run p d ok).ser.rx.ring.size = d.ser.rx.ring.size := (later_step p d (.run ok)).rxSize
  suffices hx : (run p d ok).lineRead = d.lineRead ∧ (run p d ok).resetPending = d.resetPending ∧
      ((run p d ok).snd = .receiving ∨ (run p d ok).snd = .serialError) ∧
      (run p d ok).bytesToRead = d.bytesToRead ∧ (run p d ok).disconnectPending = d.disconnectPending ∧
      (run p d ok).trace = d.trace by
    obtain ⟨h1, h2, h3, h4, h5, h6⟩ := hx
    exact ⟨⟨hv, h1.trans h.line, h2.trans h.reset, h3, by rw [hz, h4]; exact h.big, h5.trans h.stay⟩, h6⟩
  unfold run
  split
  · unfold tryOpen
    split
    · exact ⟨rfl, rfl, h.snd, rfl, rfl, rfl⟩
    · exact ⟨rfl, rfl, .inr rfl, rfl, rfl, rfl⟩
  · rw [h.reset]
    simp only [Bool.false_eq_true, if_false]
    unfold work
    dsimp only
    have e : fillLineBuffer d = (d, false) := fillLine_off d _ h.line
    rw [e]
    have e2 : flushIfDisconnecting d = d := by
      unfold flushIfDisconnecting; rw [if_neg (by simp [h.stay])]
    simp only [Bool.false_eq_true, if_false, e2]
    obtain ⟨s, e3⟩ := large_proceed p h.inv.rx h.line h.snd h.big
    rw [e3]
    exact ⟨rfl, h.reset, h.snd, rfl, rfl, rfl⟩

theorem large_step (p : Platform) (d : D) (op : Op) (ho : op ≠ .resetStates ∧ op ≠ .disconnect)
    (h : Large d) : Large (step p d op) ∧ Silent d.trace (step p d op).trace := by
  by_cases hr : ∃ ok, op = .run ok
  · obtain ⟨ok, rfl⟩ := hr
    obtain ⟨h1, h2⟩ := large_run p ok h
    exact ⟨h1, silent_refl h2⟩
  · have c := calm_step p d op ho.1 fun ok e => hr ⟨ok, e⟩
    refine ⟨⟨step_inv p op h.inv, by rw [c.lineRead]; exact h.line, by rw [c.resetPending]; exact h.reset,
      by rw [c.snd]; exact h.snd, by rw [c.bytesToRead, (later_step p d op).rxSize]; exact h.big, ?_⟩, c.trace⟩
    have := h.stay
    cases op <;> first
      | exact absurd rfl ho.1
      | exact absurd rfl ho.2
      | exact absurd ⟨_, rfl⟩ hr
      | (simp only [step, common, logConnect, connect, ipConnect, Dev.write, Dev.read, Dev.log,
          Dev.setHostPort, Dev.requestRSSI, Dev.serialWrite, Dev.serialRead]
         (repeat' split) <;> first | exact this | (exact absurd this (by simp_all)))

/-- Nothing happens any more unless the application calls `resetStates()` or `disconnect()`. -/
theorem large_exec (p : Platform) {d : D} (h : Large d) (ops : List Op) (ho : .resetStates ∉ ops)
    (hd : .disconnect ∉ ops) : Silent d.trace (exec (step p) d ops).trace :=
  (exec_silent (tr := (·.trace)) (ok := fun op => op ≠ .resetStates ∧ op ≠ .disconnect) (large_step p) h ops
    fun _ hop => ⟨fun e => ho (e ▸ hop), fun e => hd (e ▸ hop)⟩).2

end Espressif

namespace CC1352P7

theorem later_step (p : Platform) (d : D) (op : Op) : Ser.Later d.ser (step p d op).ser := by
  cases op
  case run ok => exact (eff_run (x := NoHeader) (st := false) p d ok (by simp)).later
  case resetStates => exact Ser.later_flush _
  case connect =>
    exact later_connect d d.ipConnect (ser_ipConnect d)
  case irq a => exact later_common d (.irq a)
  case closePort => exact later_common d .closePort
  case disconnect => exact later_common d .disconnect
  case setHostPort a b c => exact later_common d (.setHostPort a b c)
  case write a => exact later_common d (.write a)
  case read a => exact later_common d (.read a)
  case requestRSSI => exact later_common d .requestRSSI
  case serialWrite a => exact later_common d (.serialWrite a)
  case serialRead a => exact later_common d (.serialRead a)
  all_goals exact .refl _

theorem later_exec (p : Platform) (d : D) (ops : List Op) : Ser.Later d.ser (exec (step p) d ops).ser := by
  unfold exec
  induction ops generalizing d with
  | nil => exact .refl _
  | cons op ops ih => exact (later_step p d op).trans (ih _)

/-- More payload is due than the serial device can hold. -/
structure Large (d : D) : Prop where
  inv : Inv d
  line : d.lineRead = false
  reset : d.resetPending = false
  snd : d.snd = .receiving ∨ d.snd = .serialError
  big : d.ser.rx.ring.size < d.bytesToRead
  stay : d.disconnectPending = false

theorem sendNext_off (p : Platform) {d : D} (h : d.lineRead = false) : sendNext p d = act d := by
  unfold sendNext
  simp [h]

theorem large_proceed (p : Platform) {d : D} (hv : Ser.RxOk d.ser) (hl : d.lineRead = false)
    (hs : d.snd = .receiving ∨ d.snd = .serialError) (hb : d.ser.rx.ring.size < d.bytesToRead) :
    ∃ s, proceed p d = { d with ser := s } := by
  unfold proceed
  split
  · exact ⟨d.ser, rfl⟩
  · split
    · exact ⟨_, rfl⟩
    · rw [sendNext_off p (d := askSpace d) hl]
      have hv' : Ser.RxOk (askSpace d).ser := (Eff.askSpace (x := NoHeader) (strict := false) d).rxOk hv
      have hb' : (askSpace d).ser.rx.ring.size < (askSpace d).bytesToRead := by
        have : (askSpace d).ser.rx.ring.size = d.ser.rx.ring.size := (Ser.later_spaceAvailable d.ser).rxSize
        rw [this]; exact hb
      rcases hs with hs | hs
      · have e : act (askSpace d) = actReceiving (askSpace d) := by
          have : (askSpace d).snd = .receiving := hs
          simp only [act, this]
        rw [e]
        unfold actReceiving
        rw [if_pos (by omega)]
        dsimp only
        rw [receive_short hv' hb']
        exact ⟨_, rfl⟩
      · have e : act (askSpace d) = askSpace d := by
          have : (askSpace d).snd = .serialError := hs
          simp only [act, this]
        rw [e]
        exact ⟨_, rfl⟩

theorem large_run (p : Platform) {d : D} (ok : Bool) (h : Large d) :
    Large (run p d ok) ∧ (run p d ok).trace = d.trace := by
  have hv : Inv (run p d ok) := step_inv p (.run ok) h.inv
  have hz : (run p d ok).ser.rx.ring.size = d.ser.rx.ring.size := (later_step p d (.run ok)).rxSize
  suffices hx : (run p d ok).lineRead = d.lineRead ∧ (run p d ok).resetPending = d.resetPending ∧
      ((run p d ok).snd = .receiving ∨ (run p d ok).snd = .serialError) ∧
      (run p d ok).bytesToRead = d.bytesToRead ∧ (run p d ok).disconnectPending = d.disconnectPending ∧
      (run p d ok).trace = d.trace by
    obtain ⟨h1, h2, h3, h4, h5, h6⟩ := hx
    exact ⟨⟨hv, h1.trans h.line, h2.trans h.reset, h3, by rw [hz, h4]; exact h.big, h5.trans h.stay⟩, h6⟩
  unfold run
  split
  · unfold tryOpen
    split
    · exact ⟨rfl, rfl, h.snd, rfl, rfl, rfl⟩
    · exact ⟨rfl, rfl, .inr rfl, rfl, rfl, rfl⟩
  · rw [h.reset]
    simp only [Bool.false_eq_true, if_false]
    unfold work
    dsimp only
    have e : fillLineBuffer d = (d, false) := fillLine_off d _ h.line
    rw [e]
    have e2 : flushIfDisconnecting d = d := by
      unfold flushIfDisconnecting; rw [if_neg (by simp [h.stay])]
    simp only [Bool.false_eq_true, if_false, e2]
    obtain ⟨s, e3⟩ := large_proceed p h.inv.1.rx h.line h.snd h.big
    rw [e3]
    exact ⟨rfl, h.reset, h.snd, rfl, rfl, rfl⟩

theorem large_step (p : Platform) (d : D) (op : Op) (ho : op ≠ .resetStates ∧ op ≠ .disconnect)
    (h : Large d) : Large (step p d op) ∧ Silent d.trace (step p d op).trace := by
  by_cases hr : ∃ ok, op = .run ok
  · obtain ⟨ok, rfl⟩ := hr
    obtain ⟨h1, h2⟩ := large_run p ok h
    exact ⟨h1, silent_refl h2⟩
  · have c := calm_step p d op ho.1 fun ok e => hr ⟨ok, e⟩
    refine ⟨⟨step_inv p op h.inv, by rw [c.lineRead]; exact h.line, by rw [c.resetPending]; exact h.reset,
      by rw [c.snd]; exact h.snd, by rw [c.bytesToRead, (later_step p d op).rxSize]; exact h.big, ?_⟩, c.trace⟩
    have := h.stay
    cases op <;> first
      | exact absurd rfl ho.1
      | exact absurd rfl ho.2
      | exact absurd ⟨_, rfl⟩ hr
      | (simp only [step, common, logConnect, ipConnect, Dev.write, Dev.read, Dev.log,
          Dev.setHostPort, Dev.requestRSSI, Dev.serialWrite, Dev.serialRead]
         (repeat' split) <;> first | exact this | (exact absurd this (by simp_all)))

/-- Nothing happens any more unless the application calls `resetStates()` or `disconnect()`. -/
theorem large_exec (p : Platform) {d : D} (h : Large d) (ops : List Op) (ho : .resetStates ∉ ops)
    (hd : .disconnect ∉ ops) : Silent d.trace (exec (step p) d ops).trace :=
  (exec_silent (tr := (·.trace)) (ok := fun op => op ≠ .resetStates ∧ op ≠ .disconnect) (large_step p) h ops
    fun _ hop => ⟨fun e => ho (e ▸ hop), fun e => hd (e ▸ hop)⟩).2

end CC1352P7

end Verif
