import Verif.Props.Sched
import Verif.Spec.Pace

/-!
# The time between two runs of a task
-/

namespace Verif

open Spec Props.Sched

variable {σ : Type}

theorem stAt_shape {body : Bodies σ} (hb : Respects body) (tasks : List Task) (w : σ) (tm : Nat → Nat)
    (hn : 0 < tasks.length) (k : Nat) :
    (stAt body (Sched.init tasks w) tm k).tasks.length = tasks.length ∧
    (stAt body (Sched.init tasks w) tm k).cur = k % tasks.length := by
  induction k with
  | zero => exact ⟨rfl, by simp [stAt, Sched.init]⟩
  | succ k ih =>
    have hlt : (stAt body (Sched.init tasks w) tm k).cur <
        (stAt body (Sched.init tasks w) tm k).tasks.length := by
      rw [ih.1, ih.2]; exact Nat.mod_lt _ hn
    obtain ⟨_, _, _, h3, h4, _, _⟩ := runTask_spec hb _ (tm k % 4294967296) hlt
    refine ⟨h3.trans ih.1, ?_⟩
    show (Sched.runTask body _ _).1.cur = _
    rw [h4, ih.1, ih.2, Nat.mod_add_mod]

theorem mono_of_step {tm : Nat → Nat} (h : ∀ k, tm k ≤ tm (k + 1)) {a b : Nat} (hab : a ≤ b) : tm a ≤ tm b := by
  induction b with
  | zero => rw [Nat.le_zero.mp hab]; exact Nat.le_refl _
  | succ b ih =>
    rcases Nat.lt_or_ge a (b + 1) with h1 | h1
    · exact Nat.le_trans (ih (by omega)) (h b)
    · rw [show a = b + 1 by omega]; exact Nat.le_refl _

theorem gap_of_step {tm : Nat → Nat} {B : Nat} (h : ∀ k, tm (k + 1) ≤ tm k + B) (a d : Nat) :
    tm (a + d) ≤ tm a + d * B := by
  induction d with
  | zero => simp
  | succ d ih =>
    have := h (a + d)
    rw [Nat.succ_mul]
    show tm (a + d + 1) ≤ _
    omega

/-- After a run the task keeps the time of this run until the next one. -/
theorem lastRun_kept {body : Bodies σ} (hb : Respects body) (tasks : List Task) (w : σ) (tm : Nat → Nat)
    {i j : Nat} (hi : i < tasks.length) (hj : RunsAt body (Sched.init tasks w) tm i j) (d : Nat)
    (hno : ∀ k, j < k → k < j + 1 + d → ¬ RunsAt body (Sched.init tasks w) tm i k) :
    (stAt body (Sched.init tasks w) tm (j + 1 + d)).tasks[i]?.map Task.lastRun = some (tm j % 4294967296) := by
  have hn : 0 < tasks.length := by omega
  have hlt : ∀ k, (stAt body (Sched.init tasks w) tm k).cur <
      (stAt body (Sched.init tasks w) tm k).tasks.length := by
    intro k
    have ih := stAt_shape hb tasks w tm hn k
    rw [ih.1, ih.2]; exact Nat.mod_lt _ hn
  induction d with
  | zero =>
    obtain ⟨t, h1, h2, h3, h4, h5, h6⟩ := runTask_spec hb _ (tm j % 4294967296) (hlt j)
    obtain ⟨e, he, hei, her⟩ := hj
    rw [h2] at he
    simp only [Option.some.injEq] at he
    subst he
    show (Sched.runTask body _ _).1.tasks[i]?.map Task.lastRun = _
    rw [h6 i, if_pos ⟨hei.symm, her⟩]
  | succ d ih =>
    have ih := ih fun k h1 h2 => hno k h1 (by omega)
    obtain ⟨t, h1, h2, h3, h4, h5, h6⟩ :=
      runTask_spec hb _ (tm (j + 1 + d) % 4294967296) (hlt (j + 1 + d))
    show (Sched.runTask body (stAt body (Sched.init tasks w) tm (j + 1 + d))
      (tm (j + 1 + d) % 4294967296)).1.tasks[i]?.map Task.lastRun = _
    rw [h6 i, if_neg, ih]
    rintro ⟨ha, hd⟩
    exact hno (j + 1 + d) (by omega) (by omega) ⟨_, h2, ha.symm, hd⟩

theorem first_after {P : Nat → Prop} (j : Nat) (h : ∃ k, j < k ∧ P k) :
    ∃ m, j < m ∧ P m ∧ ∀ k, j < k → k < m → ¬ P k := by
  obtain ⟨k, hk, hp⟩ := h
  induction k using Nat.strongRecOn with
  | _ k ih =>
    by_cases hq : ∃ q, j < q ∧ q < k ∧ P q
    · obtain ⟨q, h1, h2, h3⟩ := hq
      exact ih q h2 h1 h3
    · exact ⟨k, hk, hp, fun q h1 h2 h3 => hq ⟨q, h1, h2, h3⟩⟩

/-- A task that never asks for more than `D` milliseconds is run again after at most `D + n * B`. -/
theorem next_run {body : Bodies σ} (hb : Respects body) (tasks : List Task) (w : σ) (tm : Nat → Nat) {B D i : Nat}
    (hc : Clock tm B) (hi : i < tasks.length) (hs : D + tasks.length * B < 4294967296) (j : Nat)
    (hj : RunsAt body (Sched.init tasks w) tm i j)
    (hd : ∀ k, j < k → tm k ≤ tm j + D + tasks.length * B → ∀ t,
      (stAt body (Sched.init tasks w) tm k).tasks[i]? = some t → t.delay ≤ D) :
    ∃ k, j < k ∧ RunsAt body (Sched.init tasks w) tm i k ∧ tm k ≤ tm j + D + tasks.length * B := by
  have hn : 0 < tasks.length := by omega
  obtain ⟨m, hm1, hm2, hm3⟩ := first_after (P := fun k => tm j + D ≤ tm k) j (by
    obtain ⟨k, hk⟩ := hc.goes (tm j + D)
    refine ⟨k + j + 1, by omega, ?_⟩
    exact Nat.le_trans hk (mono_of_step hc.mono (by omega)))
  have hmB : tm m ≤ tm j + D + B := by
    obtain ⟨q, rfl⟩ : ∃ q, m = q + 1 := ⟨m - 1, by omega⟩
    have := hc.gap q
    rcases Nat.lt_or_ge j q with h1 | h1
    · have := hm3 q h1 (by omega)
      omega
    · have : q = j := by omega
      subst this; omega
  obtain ⟨q, hq1, hq2, hq3, _⟩ := C17_each_once tasks.length m i hi
  have hq4 : tm q ≤ tm j + D + tasks.length * B := by
    obtain ⟨r, rfl⟩ : ∃ r, q = m + r := ⟨q - m, by omega⟩
    have h1 := gap_of_step hc.gap m r
    have h2 : r * B + B ≤ tasks.length * B := by
      have : (r + 1) * B ≤ tasks.length * B := Nat.mul_le_mul_right B (by omega)
      rw [Nat.succ_mul] at this; exact this
    omega
  by_cases hr : ∃ k, j < k ∧ k < q ∧ RunsAt body (Sched.init tasks w) tm i k
  · obtain ⟨k, h1, h2, h3⟩ := hr
    exact ⟨k, h1, h3, Nat.le_trans (mono_of_step hc.mono (by omega)) hq4⟩
  · refine ⟨q, by omega, ?_, hq4⟩
    obtain ⟨hl, hcur⟩ := stAt_shape hb tasks w tm hn q
    have hlt : (stAt body (Sched.init tasks w) tm q).cur < (stAt body (Sched.init tasks w) tm q).tasks.length := by
      rw [hl, hcur]; exact Nat.mod_lt _ hn
    obtain ⟨t, h1, h2, _⟩ := runTask_spec hb _ (tm q % 4294967296) hlt
    refine ⟨_, h2, by rw [hcur, hq3], ?_⟩
    have hk := lastRun_kept hb tasks w tm hi hj (q - j - 1) (fun k a b c => hr ⟨k, a, by omega, c⟩)
    rw [show j + 1 + (q - j - 1) = q by omega] at hk
    rw [hcur, hq3] at h1
    rw [h1] at hk
    simp only [Option.map_some, Option.some.injEq] at hk
    have hd' := hd q (by omega) hq4 t h1
    have hjq : tm j + D ≤ tm q := Nat.le_trans hm2 (mono_of_step hc.mono hq1)
    dsimp only
    rw [due_iff, hk]
    right
    simp only [sub32]
    omega

/-! ## The system -/

variable {S R X W : Type}

theorem respects_system (step : Dev S R X → Op → Dev S R X) (i : Nat)
    (turn : Nat → Dev S R X × W → List Task → Turn W)
    (ht : ∀ j w ts, (turn j w ts).tasks.map Task.lastRun = ts.map Task.lastRun) :
    Respects (system step i turn) := by
  intro j w ts
  unfold system
  dsimp only
  rw [map_modify_of_eq Task.lastRun (·.setDelay _) (fun _ => rfl), ht]

theorem getElem?_modify_delay (ts : List Task) (i n : Nat) :
    (ts.modify i (·.setDelay n))[i]?.map Task.delay = ts[i]?.map (fun _ => n % 65536) := by
  rw [List.getElem?_modify_eq]
  cases ts[i]? <;> rfl

/-- In all states of the system the driver has some history, and its task has the delay of the driver. -/
theorem system_reach (step : Dev S R X → Op → Dev S R X) (i : Nat)
    (turn : Nat → Dev S R X × W → List Task → Turn W)
    (ht : ∀ j w ts, (turn j w ts).tasks.map Task.lastRun = ts.map Task.lastRun)
    (tasks : List Task) (d0 : Dev S R X) (w : W) (tm : Nat → Nat) (hi : i < tasks.length)
    (h0 : tasks[i]?.map Task.delay = some (d0.delay % 65536)) (k : Nat) :
    ∃ ops, (stAt (system step i turn) (Sched.init tasks (d0, w)) tm k).world.1 = exec step d0 ops ∧
      (stAt (system step i turn) (Sched.init tasks (d0, w)) tm k).tasks[i]?.map Task.delay =
        some ((exec step d0 ops).delay % 65536) := by
  have hn : 0 < tasks.length := by omega
  have hb := respects_system step i turn ht
  induction k with
  | zero => exact ⟨[], rfl, h0⟩
  | succ k ih =>
    obtain ⟨ops, e1, e2⟩ := ih
    have hsh := stAt_shape hb tasks (d0, w) tm hn k
    have hsh' := stAt_shape hb tasks (d0, w) tm hn (k + 1)
    have hlt : (stAt (system step i turn) (Sched.init tasks (d0, w)) tm k).cur <
        (stAt (system step i turn) (Sched.init tasks (d0, w)) tm k).tasks.length := by
      rw [hsh.1, hsh.2]; exact Nat.mod_lt _ hn
    simp only [stAt] at hsh' ⊢
    generalize stAt (system step i turn) (Sched.init tasks (d0, w)) tm k = s at *
    obtain ⟨t, h1⟩ : ∃ t, s.tasks[s.cur]? = some t := ⟨_, List.getElem?_eq_getElem hlt⟩
    simp only [Sched.runTask, h1] at hsh' ⊢
    by_cases hd : Sched.due t (tm k % 4294967296) = true
    · simp only [hd, if_true] at hsh' ⊢
      have hl : (system step i turn s.cur s.world
          (s.tasks.set s.cur (t.setLastRun (tm k % 4294967296)))).2.length = tasks.length := hsh'.1
      generalize hT : s.tasks.set s.cur (t.setLastRun (tm k % 4294967296)) = T at *
      unfold system at hl ⊢
      dsimp only at hl ⊢
      rw [List.length_modify] at hl
      rw [getElem?_modify_delay, List.getElem?_eq_getElem (by rw [hl]; exact hi)]
      rw [e1]
      by_cases hji : s.cur = i
      · refine ⟨ops ++ (turn s.cur s.world T).ops ++ [.run (turn s.cur s.world T).ok], ?_, ?_⟩ <;>
          simp [exec, hji]
      · refine ⟨ops ++ (turn s.cur s.world T).ops, ?_, ?_⟩ <;> simp [exec, hji]
    · simp only [hd, Bool.false_eq_true, if_false]
      exact ⟨ops, e1, e2⟩

/-- Time to the next run of a driver. -/
theorem system_next (step : Dev S R X → Op → Dev S R X) {i : Nat}
    (turn : Nat → Dev S R X × W → List Task → Turn W)
    (ht : ∀ j w ts, (turn j w ts).tasks.map Task.lastRun = ts.map Task.lastRun)
    (tasks : List Task) (d0 : Dev S R X) (w : W) (tm : Nat → Nat) (hi : i < tasks.length)
    (h0 : tasks[i]?.map Task.delay = some (d0.delay % 65536)) {B D : Nat} (hc : Clock tm B)
    (hs : D + tasks.length * B < 4294967296) (j : Nat)
    (hj : RunsAt (system step i turn) (Sched.init tasks (d0, w)) tm i j)
    (hd : ∀ k, j < k → tm k ≤ tm j + D + tasks.length * B → ∀ ops,
      (stAt (system step i turn) (Sched.init tasks (d0, w)) tm k).world.1 = exec step d0 ops →
      (exec step d0 ops).delay ≤ D) :
    ∃ k, j < k ∧ RunsAt (system step i turn) (Sched.init tasks (d0, w)) tm i k ∧
      tm k ≤ tm j + D + tasks.length * B := by
  refine next_run (respects_system step i turn ht) tasks (d0, w) tm hc hi hs j hj ?_
  intro k hk hT t htk
  obtain ⟨ops, e1, e2⟩ := system_reach step i turn ht tasks d0 w tm hi h0 k
  rw [htk] at e2
  simp only [Option.map_some, Option.some.injEq] at e2
  have := hd k hk hT ops e1
  have := Nat.mod_le (exec step d0 ops).delay 65536
  omega

end Verif
