import Verif.Lemmas.History

/-! Invariants of the steps of the four drivers: serial stream, line buffer, payload. -/

namespace Verif

open Dev

/-- A line of the cellular and WiSUN drivers ends at newline, `>` or when it is full. -/
def NoHeader (_ : List Byte) (_ : Byte) : Prop := False

theorem SimDev.api_connect {S R : Type} (d : SimDev S R) : Api d (Dev.logConnect (SimDev.connect d)) :=
  api_logConnect _ _ ⟨by simp, by simp, by simp, by simp, by simp, by simp, by simp, Or.inl (by simp)⟩
    (by simp)

theorem Ser.rxOk_flush {s : Ser} (h : Ser.RxOk s) : Ser.RxOk s.flushReceiveBuffers := by
  obtain ⟨rq, h⟩ := h
  exact ⟨[], Ser.rxRep_flush h⟩

theorem Busy.common {S R X : Type} {a b : S} {d : Dev S R X} (h : Busy a b d) (op : Op) :
    Busy a b (d.common op) := by
  cases op with
  | serialWrite s =>
    exact h.congr (by simp [Dev.common]) (by simp [Dev.common]) (by simp [Dev.common])
      (by simp [Dev.common])
  | serialRead n =>
    exact h.congr (by simp [Dev.common]) (by simp [Dev.common]) (by simp [Dev.common])
      (by simp [Dev.common])
  | _ =>
    first
      | exact h
      | exact h.congr (by simp [Dev.common]) (by simp [Dev.common]) (by simp [Dev.common])
          (by simp [Dev.common])

theorem Busy.logConnect {S R X : Type} {a b : S} {r : Dev S R X × Bool} (h : Busy a b r.1) :
    Busy a b (Dev.logConnect r) := by
  unfold Dev.logConnect
  split <;> exact h

namespace Sim7x00

theorem step_api (p : Platform) (d : D) (op : Op) (h : ∀ ok, op ≠ .run ok) : Api d (step p d op) := by
  have hq : ∀ d' : D, d'.ser = d.ser → d'.line = d.line → d'.lbFill = d.lbFill →
      d'.trace = d.trace → Api d d' :=
    fun d' h1 h2 h3 h4 => .quiet (by rw [h1]; exact id) (by rw [h1]) h2 h3 (Or.inl h4)
  cases op with
  | run ok => exact absurd rfl (h ok)
  | connect => exact SimDev.api_connect d
  | resetStates => exact .reset Ser.rxOk_flush rfl rfl rfl
  | setApn => exact hq _ rfl rfl rfl rfl
  | serialLock =>
    simp only [step, SimDev.serialLock]
    split <;> exact hq _ rfl rfl rfl rfl
  | serialUnlock => exact hq _ rfl rfl rfl rfl
  | requestID => exact hq _ rfl rfl rfl rfl
  | _ => simp only [step]; exact api_common d _

theorem step_busy (p : Platform) {d : D} (op : Op) (h : Busy .receiving .serialError d) :
    Busy .receiving .serialError (step p d op) := by
  cases op with
  | run ok => exact busy_run ok h
  | connect => exact Busy.logConnect (h.congr (by simp) (by simp) (by simp) (by simp))
  | resetStates => exact .of_zero rfl
  | setApn => exact h
  | serialLock =>
    simp only [step, SimDev.serialLock]
    split <;> exact h
  | serialUnlock => exact h
  | requestID => exact h
  | _ => simp only [step]; exact h.common _

/-- Invariant of all histories. -/
def Inv (d : D) : Prop := Io NoHeader d ∧ Busy .receiving .serialError d

theorem step_inv (p : Platform) {d : D} (op : Op) (h : Inv d) : Inv (step p d op) := by
  refine ⟨?_, step_busy p op h.2⟩
  by_cases hr : ∃ ok, op = .run ok
  · obtain ⟨ok, rfl⟩ := hr
    exact h.1.eff (eff_run (st := false) p d ok (by simp))
  · exact h.1.api (step_api p d op fun ok e => hr ⟨ok, e⟩)

theorem step_balanced (p : Platform) {d : D} (op : Op) (h : Inv d) : Balanced d (step p d op) := by
  by_cases hr : ∃ ok, op = .run ok
  · obtain ⟨ok, rfl⟩ := hr
    exact .eff h.1.line (eff_run (x := NoHeader) p d ok fun _ => h.2.quiet)
  · exact .api (step_api p d op fun ok e => hr ⟨ok, e⟩)

theorem inv_init (rx tx : List Byte) (sched : List (List Hw)) (rmem wmem : List Byte) (t : ConnType)
    {line : List Byte} (ip id : List Byte) (hl : line.length = lineMax + 1) :
    Inv (init (Ser.init rx tx sched) rmem wmem t line ip id) :=
  ⟨⟨Ser.rxOk_flush ⟨[], Ser.rxRep_init _ _ _⟩, ⟨hl, (by decide : 0 < lineMax), rfl⟩,
    ⟨by intro c hc; simp [init, SimDev.init, SimDev.resetStates, part] at hc,
     by intro l hc; simp [init, SimDev.init, SimDev.resetStates] at hc⟩⟩, .of_zero rfl⟩

end Sim7x00

namespace Sim800

theorem step_api (p : Platform) (d : D) (op : Op) (h : ∀ ok, op ≠ .run ok) : Api d (step p d op) := by
  have hq : ∀ d' : D, d'.ser = d.ser → d'.line = d.line → d'.lbFill = d.lbFill →
      d'.trace = d.trace → Api d d' :=
    fun d' h1 h2 h3 h4 => .quiet (by rw [h1]; exact id) (by rw [h1]) h2 h3 (Or.inl h4)
  cases op with
  | run ok => exact absurd rfl (h ok)
  | connect => exact SimDev.api_connect d
  | resetStates => exact .reset Ser.rxOk_flush rfl rfl rfl
  | setApn => exact hq _ rfl rfl rfl rfl
  | serialLock =>
    simp only [step, SimDev.serialLock]
    split <;> exact hq _ rfl rfl rfl rfl
  | serialUnlock => exact hq _ rfl rfl rfl rfl
  | requestID => exact hq _ rfl rfl rfl rfl
  | _ => simp only [step]; exact api_common d _

theorem step_busy (p : Platform) {d : D} (op : Op) (h : Busy .receiving .serialError d) :
    Busy .receiving .serialError (step p d op) := by
  cases op with
  | run ok => exact busy_run ok h
  | connect => exact Busy.logConnect (h.congr (by simp) (by simp) (by simp) (by simp))
  | resetStates => exact .of_zero rfl
  | setApn => exact h
  | serialLock =>
    simp only [step, SimDev.serialLock]
    split <;> exact h
  | serialUnlock => exact h
  | requestID => exact h
  | _ => simp only [step]; exact h.common _

/-- Invariant of all histories. -/
def Inv (d : D) : Prop := Io NoHeader d ∧ Busy .receiving .serialError d

theorem step_inv (p : Platform) {d : D} (op : Op) (h : Inv d) : Inv (step p d op) := by
  refine ⟨?_, step_busy p op h.2⟩
  by_cases hr : ∃ ok, op = .run ok
  · obtain ⟨ok, rfl⟩ := hr
    exact h.1.eff (eff_run (st := false) p d ok (by simp))
  · exact h.1.api (step_api p d op fun ok e => hr ⟨ok, e⟩)

theorem step_balanced (p : Platform) {d : D} (op : Op) (h : Inv d) : Balanced d (step p d op) := by
  by_cases hr : ∃ ok, op = .run ok
  · obtain ⟨ok, rfl⟩ := hr
    exact .eff h.1.line (eff_run (x := NoHeader) p d ok fun _ => h.2.quiet)
  · exact .api (step_api p d op fun ok e => hr ⟨ok, e⟩)

theorem inv_init (rx tx : List Byte) (sched : List (List Hw)) (rmem wmem : List Byte) (t : ConnType)
    {line : List Byte} (ip id : List Byte) (hl : line.length = lineMax + 1) :
    Inv (init (Ser.init rx tx sched) rmem wmem t line ip id) :=
  ⟨⟨Ser.rxOk_flush ⟨[], Ser.rxRep_init _ _ _⟩, ⟨hl, (by decide : 0 < lineMax), rfl⟩,
    ⟨by intro c hc; simp [init, SimDev.init, SimDev.resetStates, part] at hc,
     by intro l hc; simp [init, SimDev.init, SimDev.resetStates] at hc⟩⟩, .of_zero rfl⟩

end Sim800

namespace Espressif

theorem step_api (p : Platform) (d : D) (op : Op) (h : ∀ ok, op ≠ .run ok) : Api d (step p d op) := by
  have hq : ∀ d' : D, d'.ser = d.ser → d'.line = d.line → d'.lbFill = d.lbFill →
      d'.trace = d.trace → Api d d' :=
    fun d' h1 h2 h3 h4 => .quiet (by rw [h1]; exact id) (by rw [h1]) h2 h3 (Or.inl h4)
  cases op with
  | run ok => exact absurd rfl (h ok)
  | connect =>
    exact api_logConnect _ _ ⟨by simp, by simp, by simp, by simp, by simp, by simp, by simp,
      Or.inl (by simp)⟩ (by simp)
  | resetStates => exact .reset Ser.rxOk_flush rfl rfl rfl
  | setSSID => exact hq _ rfl rfl rfl rfl
  | setPassword => exact hq _ rfl rfl rfl rfl
  | requestMac => exact hq _ rfl rfl rfl rfl
  | _ => simp only [step]; exact api_common d _

theorem step_busy (p : Platform) {d : D} (op : Op) (ht : d.typ = .tcp) (h : Busy .receiving .serialError d) :
    Busy .receiving .serialError (step p d op) := by
  cases op with
  | run ok => exact busy_run ht ok h
  | connect => exact Busy.logConnect (h.congr (by simp) (by simp) (by simp) (by simp))
  | resetStates => exact .of_zero rfl
  | setSSID => exact h
  | setPassword => exact h
  | requestMac => exact h
  | _ => simp only [step]; exact h.common _

/-- The connection type does not change except by `setHostPort()`. -/
theorem run_typ (p : Platform) (d : D) (ok : Bool) : (run p d ok).typ = d.typ := by
  have hl : ∀ e : D, (parseLine p e).1.typ = e.typ := by
    intro e
    unfold parseLine
    split
    · rfl
    · have h1 : ∀ e, (checkState p e).typ = e.typ := by
        intro e; unfold checkState; dsimp only; (repeat' split) <;> rfl
      have h2 : ∀ e, (parseReply p e).typ = e.typ := by
        intro e; unfold parseReply; split <;> (try dsimp only) <;> (repeat' split) <;> simp
      have h3 : ∀ e, (parseWait e).typ = e.typ := by intro e; unfold parseWait; split <;> rfl
      have h4 : ∀ e, (parseSendFail e).typ = e.typ := by intro e; unfold parseSendFail; split <;> rfl
      rw [h1, h2, h3, h4]
  have ha : ∀ e : D, (act e).typ = e.typ := by
    intro e
    unfold act
    split <;> first
      | (simp; done)
      | (unfold actCwjap; simp; done)
      | (unfold actCipstart; dsimp only; split <;> simp)
      | (unfold actConnected; dsimp only; (repeat' split) <;> simp)
      | (unfold actCiprecvdata; dsimp only; (repeat' split) <;> simp)
      | (unfold actReceiving; dsimp only; (repeat' split) <;> simp)
      | (split <;> simp)
  have hp : ∀ e : D, (proceed p e).typ = e.typ := by
    intro e
    unfold proceed sendNext
    (repeat' split) <;> simp [ha]
  unfold run
  split
  · unfold tryOpen; split <;> rfl
  · split
    · rfl
    · unfold work flushIfDisconnecting
      dsimp only
      (repeat' split) <;> simp [hl, hp]

/-- Operations that do not select another protocol than TCP. -/
def TcpOp (op : Op) : Prop := ∀ h q t, op = .setHostPort h q t → t = .tcp

theorem step_typ (p : Platform) {d : D} {op : Op} (ho : TcpOp op) (ht : d.typ = .tcp) :
    (step p d op).typ = .tcp := by
  cases op with
  | run ok => exact (run_typ p d ok).trans ht
  | connect =>
    show (Dev.logConnect _).typ = _
    unfold Dev.logConnect
    split <;> simpa using ht
  | setHostPort h q t => exact ho h q t rfl
  | resetStates => exact ht
  | setSSID => exact ht
  | setPassword => exact ht
  | requestMac => exact ht
  | _ => first | exact ht | simpa [step, Dev.common] using ht

/-- Invariant of all histories. -/
def Inv (d : D) : Prop := Io HeaderEnd d

theorem step_inv (p : Platform) {d : D} (op : Op) (h : Inv d) : Inv (step p d op) := by
  by_cases hr : ∃ ok, op = .run ok
  · obtain ⟨ok, rfl⟩ := hr
    exact h.eff (eff_run (st := false) p d ok (by simp))
  · exact h.api (step_api p d op fun ok e => hr ⟨ok, e⟩)

/-- Invariant of all histories with TCP only. -/
def TcpInv (d : D) : Prop := Inv d ∧ Busy .receiving .serialError d ∧ d.typ = .tcp

theorem step_tcpInv (p : Platform) {d : D} (op : Op) (ho : TcpOp op) (h : TcpInv d) :
    TcpInv (step p d op) :=
  ⟨step_inv p op h.1, step_busy p op h.2.2 h.2.1, step_typ p ho h.2.2⟩

theorem step_balanced (p : Platform) {d : D} (op : Op) (h : TcpInv d) : Balanced d (step p d op) := by
  by_cases hr : ∃ ok, op = .run ok
  · obtain ⟨ok, rfl⟩ := hr
    exact .eff h.1.line (eff_run p d ok fun _ => h.2.1.quiet)
  · exact .api (step_api p d op fun ok e => hr ⟨ok, e⟩)

theorem inv_init (rx tx : List Byte) (sched : List (List Hw)) (rmem wmem : List Byte) (t : ConnType)
    {line : List Byte} (mac : List Byte) (ssid passwd : CPtr) (hl : line.length = lineMax + 1) :
    Inv (init (Ser.init rx tx sched) rmem wmem t line mac ssid passwd) :=
  ⟨Ser.rxOk_flush ⟨[], Ser.rxRep_init _ _ _⟩, ⟨hl, (by decide : 0 < lineMax), rfl⟩,
    ⟨by intro c hc; simp [init, resetStates, part] at hc,
     by intro l hc; simp [init, resetStates] at hc⟩⟩

end Espressif

namespace CC1352P7

theorem step_api (p : Platform) (d : D) (op : Op) (h : ∀ ok, op ≠ .run ok) : Api d (step p d op) := by
  have hq : ∀ d' : D, d'.ser = d.ser → d'.line = d.line → d'.lbFill = d.lbFill →
      d'.trace = d.trace → Api d d' :=
    fun d' h1 h2 h3 h4 => .quiet (by rw [h1]; exact id) (by rw [h1]) h2 h3 (Or.inl h4)
  cases op with
  | run ok => exact absurd rfl (h ok)
  | connect =>
    exact api_logConnect _ _ ⟨by simp, by simp, by simp, by simp, by simp, by simp, by simp,
      Or.inl (by simp)⟩ (by simp)
  | resetStates => exact .reset Ser.rxOk_flush rfl rfl rfl
  | requestMac => exact hq _ rfl rfl rfl rfl
  | _ => simp only [step]; exact api_common d _

theorem step_busy (p : Platform) {d : D} (op : Op) (h : Busy .receiving .serialError d) :
    Busy .receiving .serialError (step p d op) := by
  cases op with
  | run ok => exact busy_run ok h
  | connect => exact Busy.logConnect (h.congr (by simp) (by simp) (by simp) (by simp))
  | resetStates => exact .of_zero rfl
  | requestMac => exact h
  | _ => simp only [step]; exact h.common _

/-- Invariant of all histories. -/
def Inv (d : D) : Prop := Io NoHeader d ∧ Busy .receiving .serialError d

theorem step_inv (p : Platform) {d : D} (op : Op) (h : Inv d) : Inv (step p d op) := by
  refine ⟨?_, step_busy p op h.2⟩
  by_cases hr : ∃ ok, op = .run ok
  · obtain ⟨ok, rfl⟩ := hr
    exact h.1.eff (eff_run (st := false) p d ok (by simp))
  · exact h.1.api (step_api p d op fun ok e => hr ⟨ok, e⟩)

theorem step_balanced (p : Platform) {d : D} (op : Op) (h : Inv d) : Balanced d (step p d op) := by
  by_cases hr : ∃ ok, op = .run ok
  · obtain ⟨ok, rfl⟩ := hr
    exact .eff h.1.line (eff_run (x := NoHeader) p d ok fun _ => h.2.quiet)
  · exact .api (step_api p d op fun ok e => hr ⟨ok, e⟩)

theorem inv_init (rx tx : List Byte) (sched : List (List Hw)) (rmem wmem : List Byte) (t : ConnType)
    {line : List Byte} (mac : List Byte) (hl : line.length = lineMax + 1) :
    Inv (init (Ser.init rx tx sched) rmem wmem t line mac) :=
  ⟨⟨Ser.rxOk_flush ⟨[], Ser.rxRep_init _ _ _⟩, ⟨hl, (by decide : 0 < lineMax), rfl⟩,
    ⟨by intro c hc; simp [init, resetStates, part] at hc,
     by intro l hc; simp [init, resetStates] at hc⟩⟩, .of_zero rfl⟩

end CC1352P7

end Verif
