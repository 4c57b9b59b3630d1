import Verif.Model.Mbed
import Verif.Lemmas.Stm32

/-!
# The mbed port as a special case of the STM32 port

A history of a `MbedSerial` is a history of a `Stm32Uart` that is open all the time and in which nothing
happens between the load and the store of `startTransmit()`.
-/

namespace Verif.Mbed

open Verif.Stm32 (Uart)

/-- The STM32 UART in the same situation. -/
def up (p : Port) : Uart :=
  { ser := p.ser, txeie := p.txIrq, rxneie := true, clk := true, nvic := true, isOpen := true,
    pc := match p.pc with
      | .idle => .idle
      | .copy r => .copy r
      | .start => .load }

theorem up_idle (p : Port) : (up p).pc = .idle ↔ p.pc = .idle := by
  unfold up
  cases p.pc <;> simp

/-- The steps of the STM32 port for a step of the mbed port. -/
def tr (p : Port) : Act → List Stm32.Act
  | .callWrite d => [.callWrite d]
  | .callWrite1 c => [.callWrite1 c]
  | .go => if p.pc = .start then [.go, .go] else [.go]
  | .callRead => [.callRead]
  | .callFlush => [.callFlush]
  | .callOpen => []
  | .callClose => []
  | .callConfig .. => []
  | .event h => [.event h]

theorem step_rxIrq (p : Port) (a : Act) : (step p a).rxIrq = p.rxIrq := by
  cases a <;> unfold step <;> dsimp only
  case go => unfold go; split <;> rfl
  case event => unfold handleInterrupt; split <;> rfl
  all_goals split <;> rfl

theorem up_step (p : Port) (h : p.rxIrq = true) (a : Act) : up (step p a) = Stm32.exec (up p) (tr p a) := by
  cases a with
  | callWrite d =>
    show up (step p (.callWrite d)) = Stm32.step (up p) (.callWrite d)
    unfold step Stm32.step; dsimp only
    by_cases hp : p.pc = .idle
    · rw [if_pos hp, if_pos ((up_idle p).2 hp)]; rfl
    · rw [if_neg hp, if_neg (fun x => hp ((up_idle p).1 x))]
  | callWrite1 c =>
    show up (step p (.callWrite1 c)) = Stm32.step (up p) (.callWrite1 c)
    unfold step Stm32.step; dsimp only
    by_cases hp : p.pc = .idle
    · rw [if_pos hp, if_pos ((up_idle p).2 hp)]; rfl
    · rw [if_neg hp, if_neg (fun x => hp ((up_idle p).1 x))]
  | callRead =>
    show up (step p .callRead) = Stm32.step (up p) .callRead
    unfold step Stm32.step; dsimp only
    by_cases hp : p.pc = .idle
    · rw [if_pos hp, if_pos ((up_idle p).2 hp)]; rfl
    · rw [if_neg hp, if_neg (fun x => hp ((up_idle p).1 x))]
  | callFlush =>
    show up (step p .callFlush) = Stm32.step (up p) .callFlush
    unfold step Stm32.step; dsimp only
    by_cases hp : p.pc = .idle
    · rw [if_pos hp, if_pos ((up_idle p).2 hp)]; rfl
    · rw [if_neg hp, if_neg (fun x => hp ((up_idle p).1 x))]
  | callOpen =>
    show up (step p _) = up p
    unfold step openPort; dsimp only; split <;> rfl
  | callClose =>
    show up (step p _) = up p
    unfold step closePort; dsimp only; split <;> rfl
  | callConfig b d =>
    show up (step p _) = up p
    unfold step setSerialConfig; dsimp only; split <;> rfl
  | go =>
    obtain ⟨s, r, t, b, d, pc⟩ := p
    cases pc with
    | idle => rfl
    | start => rfl
    | copy l => cases l <;> rfl
  | event hw =>
    show up (step p (.event hw)) = Stm32.step (up p) (.event hw)
    have e : Stm32.fires (up p) hw = fires p hw := by
      simp [Stm32.fires, fires, up, h]
    unfold step Stm32.step; dsimp only
    rw [e]
    split <;> rfl

theorem tr_stays (p : Port) (a : Act) : ∀ x ∈ tr p a, Stm32.Stays x := by
  intro x hx
  cases a <;> simp only [tr] at hx
  case go => split at hx <;> simp at hx <;> subst hx <;> trivial
  all_goals first | (simp at hx; subst hx; trivial) | simp at hx

/-- Not the unchecked `write(uint8_t)`. -/
def Sized : Act → Prop
  | .callWrite1 _ => False
  | _ => True

theorem tr_checked (p : Port) (a : Act) (h : Sized a) : ∀ x ∈ tr p a, Stm32.Checked x := by
  intro x hx
  cases a <;> simp only [tr] at hx
  case callWrite1 => exact h.elim
  case go => split at hx <;> simp at hx <;> subst hx <;> trivial
  all_goals first | (simp at hx; subst hx; trivial) | simp at hx

/-- No write function is called. -/
def Quiet : Act → Prop
  | .callWrite _ => False
  | .callWrite1 _ => False
  | _ => True

theorem tr_noCall (p : Port) (a : Act) (h : Quiet a) : ∀ x ∈ tr p a, Stm32.NoCall x := by
  intro x hx
  cases a <;> simp only [tr] at hx
  case callWrite1 => exact h.elim
  case callWrite => exact h.elim
  case go => split at hx <;> simp at hx <;> subst hx <;> trivial
  all_goals first | (simp at hx; subst hx; trivial) | simp at hx

/-- The steps of the STM32 port for a history of the mbed port. -/
def trs : Port → List Act → List Stm32.Act
  | _, [] => []
  | p, a :: as => tr p a ++ trs (step p a) as

theorem up_exec (as : List Act) (p : Port) (h : p.rxIrq = true) : up (exec p as) = Stm32.exec (up p) (trs p as) := by
  induction as generalizing p with
  | nil => rfl
  | cons a as ih =>
    show up (exec (step p a) as) = _
    rw [ih _ (by rw [step_rxIrq]; exact h), up_step p h]
    simp [trs, Stm32.exec, List.foldl_append]

theorem trs_all {P : Act → Prop} {Q : Stm32.Act → Prop} (hPQ : ∀ p a, P a → ∀ x ∈ tr p a, Q x) (as : List Act)
    (h : ∀ a ∈ as, P a) (p : Port) : ∀ x ∈ trs p as, Q x := by
  induction as generalizing p with
  | nil => intro x hx; simp [trs] at hx
  | cons a as ih =>
    intro x hx
    simp only [trs, List.mem_append] at hx
    rcases hx with hx | hx
    · exact hPQ p a (h a (by simp)) x hx
    · exact ih (fun b hb => h b (by simp [hb])) _ x hx

theorem exec_rxIrq (as : List Act) (p : Port) : (exec p as).rxIrq = p.rxIrq := by
  induction as generalizing p with
  | nil => rfl
  | cons a as ih => exact (ih (step p a)).trans (step_rxIrq p a)

/-! ## The receiving side -/

theorem copy_arrived {s : Ser} (h : s.sched = []) (c : Byte) : (s.copyToBuffer c).arrived = s.arrived := by
  unfold Ser.copyToBuffer
  simp only [Stm32.sync_nil h]
  rfl

theorem transferTx_arrived (s : Ser) (ok : Bool) : (s.transferTx ok).arrived = s.arrived := by
  unfold Ser.transferTx
  repeat' split
  all_goals rfl

theorem transfer_arrived (s : Ser) (h : Hw) : (s.transfer h).arrived = s.arrived ++ h.rx.toList := by
  unfold Ser.transfer
  rw [transferTx_arrived]
  unfold Ser.transferRx
  cases h.rx with
  | none => simp
  | some c => dsimp only; split <;> rfl

/-- The byte an action brings. -/
def brought : Act → List Byte
  | .event h => h.rx.toList
  | _ => []

theorem step_sched {p : Port} (hr : p.rxIrq = true) (h : p.ser.sched = []) (a : Act) : (step p a).ser.sched = [] := by
  have e := up_step p hr a
  have := Stm32.exec_run (tr p a) (u := up p) ⟨rfl, rfl, h⟩ (tr_stays p a)
  rw [← e] at this
  exact this.sched

theorem step_arrived {p : Port} (hr : p.rxIrq = true) (h : p.ser.sched = []) (a : Act) :
    (step p a).ser.arrived = p.ser.arrived ++ brought a := by
  cases a with
  | callWrite d =>
    unfold step brought; dsimp only; split
    · unfold Ser.spaceAvailable; simp only [Stm32.sync_nil h]; simp [Ser.enable, Ser.disable]
    · simp
  | callWrite1 c => unfold step brought; dsimp only; split <;> simp
  | go =>
    show (go p).ser.arrived = _
    unfold go brought
    split <;> simp [copy_arrived h]
  | callRead =>
    unfold step brought; dsimp only; split
    · unfold Ser.read1; simp only [Stm32.sync_nil h]; simp [Ser.enable, Ser.disable]
    · simp
  | callFlush =>
    unfold step brought; dsimp only; split
    · unfold Ser.flushReceiveBuffers; simp only [Stm32.sync_nil h]; simp [Ser.enable, Ser.disable]
    · simp
  | callOpen => unfold step openPort brought; dsimp only; split <;> simp
  | callClose => unfold step closePort brought; dsimp only; split <;> simp
  | callConfig => unfold step setSerialConfig brought; dsimp only; split <;> simp
  | event hw =>
    unfold step brought; dsimp only
    by_cases hf : fires p hw = true
    · rw [if_pos hf]
      exact transfer_arrived p.ser hw
    · rw [if_neg hf]
      have : hw.rx = none := by
        cases hx : hw.rx with
        | none => rfl
        | some c => simp [fires, hx, hr] at hf
      simp [this]

theorem exec_arrived (as : List Act) {p : Port} (hr : p.rxIrq = true) (h : p.ser.sched = []) :
    (exec p as).ser.arrived = p.ser.arrived ++ as.flatMap brought := by
  induction as generalizing p with
  | nil => simp [exec]
  | cons a as ih =>
    show (exec (step p a) as).ser.arrived = _
    rw [ih (by rw [step_rxIrq]; exact hr) (step_sched hr h a), step_arrived hr h]
    simp [List.append_assoc]

/-! ## The clock -/

theorem tick_eq (n : Nat) : tick n = n % 4294967296 := by
  induction n with
  | zero => rfl
  | succ n ih => show increase (tick n) = _; rw [ih]; unfold increase; omega

end Verif.Mbed
