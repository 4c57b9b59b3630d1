import Verif.Lemmas.Client
import Verif.Lemmas.Lasting

/-!
# The task of the example with the drivers
-/

namespace Verif

open Dev Client Spec.Client

variable {S R X : Type}

theorem Ring.length_pullLoop {α : Type} [Inhabited α] (n : Nat) (r : Ring α) : (r.pullLoop n).2.length = n := by
  induction n generalizing r with
  | zero => rfl
  | succ n ih => simp [pullLoop, ih]

theorem Ring.length_pullN {α : Type} [Inhabited α] (n : Nat) (r : Ring α) : (r.pullN n).2.length = min n r.bytesAvailable := by
  simp only [pullN, length_pullLoop]
  split <;> omega

theorem Ring.avail_pullN {α : Type} [Inhabited α] (n : Nat) (r : Ring α) : (r.pullN n).1.bytesAvailable = r.bytesAvailable - n := by
  show (r.pullLoop _).1.avail - (if n > r.bytesAvailable then r.bytesAvailable else n) = _
  rw [avail_pullLoop]
  show r.bytesAvailable - _ = _
  split <;> omega

/-- What the task needs to know about a driver. -/
structure Copes (step : Dev S R X → Op → Dev S R X) (I : Dev S R X → Prop) : Prop where
  keep : ∀ d op, I d → I (step d op)
  quiet : ∀ d op, isRun op = false → (step d op).rbuf.bytesAvailable ≠ 0 →
    d.rbuf.bytesAvailable ≠ 0 ∧ (step d op).isConnected = d.isConnected
  run : ∀ d ok, I d → (step d (.run ok)).rbuf = d.rbuf ∨ (step d (.run ok)).isConnected = true
  read : ∀ d n, step d (.read n) = d.common (.read n)
  write : ∀ d bs, step d (.write bs) = d.common (.write bs)

theorem common_quiet (d : Dev S R X) (op : Op) (h : (d.common op).rbuf.bytesAvailable ≠ 0) :
    d.rbuf.bytesAvailable ≠ 0 ∧ (d.common op).isConnected = d.isConnected := by
  cases op
  case read n =>
    simp only [Dev.common, Dev.read, Dev.log] at h ⊢
    rw [Ring.avail_pullN] at h
    exact ⟨by omega, rfl⟩
  case disconnect =>
    simp only [Dev.common, Dev.disconnect] at h ⊢
    split at h <;> rename_i hi
    · rw [if_pos hi]; exact ⟨h, rfl⟩
    · rw [if_neg hi]; exact ⟨h, rfl⟩
  case write bs =>
    simp only [Dev.common, Dev.write] at h ⊢
    split at h <;> rename_i hi
    · rw [if_pos hi]; exact ⟨h, rfl⟩
    · rw [if_neg hi]; exact ⟨h, rfl⟩
  case serialWrite s =>
    simp only [Dev.common, Dev.serialWrite] at h ⊢
    split at h <;> rename_i hi
    · rw [if_pos hi]; exact ⟨h, rfl⟩
    · rw [if_neg hi]; exact ⟨h, rfl⟩
  case serialRead n =>
    simp only [Dev.common, Dev.serialRead] at h ⊢
    split at h <;> rename_i hi
    · rw [if_pos hi]; exact ⟨h, rfl⟩
    · rw [if_neg hi]; exact ⟨h, rfl⟩
  all_goals exact ⟨h, rfl⟩

theorem Copes.exec {step : Dev S R X → Op → Dev S R X} {I : Dev S R X → Prop} (f : Copes step I) (ops : List Op) {d : Dev S R X} (h : I d) :
    I (exec step d ops) := by
  induction ops generalizing d with
  | nil => exact h
  | cons op ops ih => exact ih (f.keep d op h)

theorem Copes.still {step : Dev S R X → Op → Dev S R X} {I : Dev S R X → Prop} (f : Copes step I) (ops : List Op) (hn : ops.countP isRun = 0)
    (d : Dev S R X) (h : (Verif.exec step d ops).rbuf.bytesAvailable ≠ 0) :
    d.rbuf.bytesAvailable ≠ 0 ∧ (Verif.exec step d ops).isConnected = d.isConnected := by
  induction ops generalizing d with
  | nil => exact ⟨h, rfl⟩
  | cons op ops ih =>
    have hn' : isRun op = false ∧ ops.countP isRun = 0 := by
      rw [List.countP_cons] at hn
      cases ho : isRun op
      · exact ⟨rfl, by omega⟩
      · simp [ho] at hn
    obtain ⟨h1, h2⟩ := ih hn'.2 (step d op) h
    obtain ⟨h3, h4⟩ := f.quiet d op hn'.1 h1
    exact ⟨h3, h2.trans h4⟩

/-- Data stored during a single call of `run()` come with an open connection. -/
theorem Copes.once {step : Dev S R X → Op → Dev S R X} {I : Dev S R X → Prop} (f : Copes step I) (ops : List Op) (hn : ops.countP isRun ≤ 1)
    (d : Dev S R X) (hi : I d) (h0 : d.rbuf.bytesAvailable = 0) (h : (Verif.exec step d ops).rbuf.bytesAvailable ≠ 0) :
    (Verif.exec step d ops).isConnected = true := by
  induction ops generalizing d with
  | nil => exact absurd h0 h
  | cons op ops ih =>
    rw [List.countP_cons] at hn
    cases ho : isRun op with
    | false =>
      refine ih (by omega) (step d op) (f.keep d op hi) ?_ h
      exact Classical.byContradiction fun hq => (f.quiet d op ho hq).1 h0
    | true =>
      have hz : ops.countP isRun = 0 := by simp only [ho, if_true] at hn; omega
      obtain ⟨h1, h2⟩ := f.still ops hz (step d op) h
      refine h2.trans ?_
      cases op <;> simp only [isRun, Bool.false_eq_true] at ho
      rcases f.run d _ hi with q | q
      · rw [q] at h1; exact absurd h0 h1
      · exact q

/-- What holds of the task and the driver at all times. -/
def InHand (I : Dev S R X → Prop) (w : World (Bool × Dev S R X)) : Prop :=
  I w.dev.2 ∧ w.oob = false ∧ ∀ bs, .read bs ∈ w.log → bs ≠ [] ∧ bs.length ≤ 40

theorem InHand.call {I : Dev S R X → Prop} {w : World (Bool × Dev S R X)} (h : InHand I w) {c : Call} {f : Bool × Dev S R X → Bool × Dev S R X}
    (hc : ∀ bs, c ≠ .read bs) (hf : I (f w.dev).2) : InHand I (Client.call c f w) := by
  refine ⟨hf, h.2.1, fun bs hb => ?_⟩
  simp only [Client.call, List.mem_append, List.mem_singleton] at hb
  rcases hb with hb | hb
  · exact h.2.2 bs hb
  · exact absurd hb.symm (hc bs)

theorem logConnect_quiet {d e : Dev S R X} {b : Bool} (h1 : e.rbuf = d.rbuf) (h2 : e.cs = d.cs)
    (h : (Dev.logConnect (e, b)).rbuf.bytesAvailable ≠ 0) :
    d.rbuf.bytesAvailable ≠ 0 ∧ (Dev.logConnect (e, b)).isConnected = d.isConnected := by
  unfold Dev.logConnect at h ⊢
  cases b
  · exact ⟨by rw [← h1]; exact h, isConnected_of_cs h2⟩
  · exact ⟨by rw [← h1]; exact h, isConnected_of_cs h2⟩

theorem ipConnect_same (d : Dev S R X) : d.ipConnect.1.rbuf = d.rbuf ∧ d.ipConnect.1.cs = d.cs := by
  unfold Dev.ipConnect
  split <;> exact ⟨rfl, rfl⟩

theorem simConnect_same {S R : Type} (d : SimDev S R) : (SimDev.connect d).1.rbuf = d.rbuf ∧ (SimDev.connect d).1.cs = d.cs := by
  unfold SimDev.connect
  split
  · exact ⟨rfl, rfl⟩
  · exact ipConnect_same d

theorem Sim7x00.fits (p : Platform) : Copes (Sim7x00.step p) (fun d => Sim7x00.Inv d ∧ Sim7x00.Tie d) where
  keep _ op h := Sim7x00.step_tied p op h
  quiet d op ho h := by
    cases op
    case run => cases ho
    case connect => exact logConnect_quiet (simConnect_same d).1 (simConnect_same d).2 h
    case resetStates => exact absurd rfl h
    case serialLock =>
      simp only [Sim7x00.step, SimDev.serialLock] at h ⊢
      split at h <;> rename_i hi
      · rw [if_pos hi]; exact ⟨h, rfl⟩
      · rw [if_neg hi]; exact ⟨h, rfl⟩
    all_goals first | exact common_quiet d _ h | exact ⟨h, rfl⟩
  run d ok h := Sim7x00.run_stored p d ok h.2
  read _ _ := rfl
  write _ _ := rfl

theorem Sim800.fits (p : Platform) : Copes (Sim800.step p) (fun d => Sim800.Inv d ∧ Sim800.Tie d) where
  keep _ op h := Sim800.step_tied p op h
  quiet d op ho h := by
    cases op
    case run => cases ho
    case connect => exact logConnect_quiet (simConnect_same d).1 (simConnect_same d).2 h
    case resetStates => exact absurd rfl h
    case serialLock =>
      simp only [Sim800.step, SimDev.serialLock] at h ⊢
      split at h <;> rename_i hi
      · rw [if_pos hi]; exact ⟨h, rfl⟩
      · rw [if_neg hi]; exact ⟨h, rfl⟩
    all_goals first | exact common_quiet d _ h | exact ⟨h, rfl⟩
  run d ok h := Sim800.run_stored p d ok h.2
  read _ _ := rfl
  write _ _ := rfl

theorem espConnect_same (d : Espressif.D) : (Espressif.connect d).1.rbuf = d.rbuf ∧ (Espressif.connect d).1.cs = d.cs := by
  simp only [Espressif.connect]
  (repeat' split) <;> first | exact ⟨rfl, rfl⟩ | exact ipConnect_same _

theorem Espressif.fits (p : Platform) : Copes (Espressif.step p) (fun d => Espressif.Inv d ∧ Espressif.Tie d) where
  keep _ op h := Espressif.step_tied p op h
  quiet d op ho h := by
    cases op
    case run => cases ho
    case connect => exact logConnect_quiet (espConnect_same d).1 (espConnect_same d).2 h
    case resetStates => exact absurd rfl h
    all_goals first | exact common_quiet d _ h | exact ⟨h, rfl⟩
  run d ok h := Espressif.run_stored p d ok h.2
  read _ _ := rfl
  write _ _ := rfl

theorem CC1352P7.fits (p : Platform) : Copes (CC1352P7.step p) (fun d => CC1352P7.Inv d ∧ CC1352P7.Tie d) where
  keep _ op h := CC1352P7.step_tied p op h
  quiet d op ho h := by
    cases op
    case run => cases ho
    case connect => exact logConnect_quiet (ipConnect_same d).1 (ipConnect_same d).2 h
    case resetStates => exact absurd rfl h
    all_goals first | exact common_quiet d _ h | exact ⟨h, rfl⟩
  run d ok h := CC1352P7.run_stored p d ok h.2
  read _ _ := rfl
  write _ _ := rfl

/-- The task with a driver that is run once at most between two turns of the task. -/
theorem Copes.side {step : Dev S R X → Op → Dev S R X} {I : Dev S R X → Prop} (f : Copes step I) (conf : List Op) :
    Side (driver step conf) (OnceRun step) (InHand I) (fun w => w.dev.2.rbuf.bytesAvailable ≠ 0 → w.dev.2.isConnected = true)
      (fun w => w.dev.2.rbuf.bytesAvailable ≠ 0 → w.dev.2.isConnected = true) True (fun n => n = 0) where
  others _ _ r := ⟨r.1.1, r.1.2.1⟩
  keep u v h r := by
    obtain ⟨ops, _, e⟩ := r.2
    refine ⟨by rw [e]; exact f.exec ops h.1, r.1.2.2.trans h.2.1, ?_⟩
    rw [r.1.1]
    exact h.2.2
  start w h := h.call (by intro bs; simp) h.1
  get w h _ := h.call (by intro bs; simp) h.1
  conf w h := h.call (by intro bs; simp) (f.exec conf h.1)
  host w h := h.call (by intro bs; simp) (f.keep _ _ h.1)
  conn w h := h.call (by intro bs; simp) (f.keep _ _ h.1)
  write w h hc := by
    refine ⟨h.call (by intro bs; simp) (f.keep _ _ h.1), fun hq => ?_⟩
    have := (f.quiet w.dev.2 (.write request) rfl hq).2
    exact this.trans hc
  wait u v h _ h0 r hq := by
    obtain ⟨ops, h1, e⟩ := r.2
    rw [e] at hq ⊢
    exact f.once ops h1 u.dev.2 h.1 h0 hq
  enter _ _ h _ := h
  entered _ _ := trivial
  read w h hl hc ha := by
    have e : ((driver step conf).read w.dev 40).2.length = min 40 w.dev.2.rbuf.bytesAvailable := Ring.length_pullN 40 _
    refine ⟨⟨f.keep _ _ h.1, ?_, fun bs hb => ?_⟩, fun hq => ?_⟩
    · simp only [readSome, h.2.1, Bool.false_or, decide_eq_false_iff_not]
      rw [e]; omega
    · simp only [readSome, List.mem_append, List.mem_singleton, Call.read.injEq] at hb
      rcases hb with hb | hb
      · exact h.2.2 bs hb
      · subst hb
        refine ⟨fun q => ?_, by rw [e]; omega⟩
        rw [q] at e
        have : w.dev.2.rbuf.bytesAvailable ≠ 0 := ha
        simp only [List.length_nil] at e
        omega
    · exact ((f.quiet w.dev.2 (.read 40) rfl hq).2).trans hc
  rest u v h _ _ h0 r hq := by
    obtain ⟨ops, h1, e⟩ := r.2
    rw [e] at hq ⊢
    exact f.once ops h1 u.dev.2 h.1 h0 hq
  leave w _ hl hc := by
    refine Classical.byContradiction fun hq => ?_
    have := hl hq
    simp only [driver] at hc
    rw [hc] at this
    cases this
  disc w n h := h.call (by intro bs; simp) (f.keep _ _ h.1)
  done w h := h.call (by intro bs; simp) h.1

end Verif
