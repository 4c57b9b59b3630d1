import Verif.Model.Scheduler

/-!
# Properties C17–C19, C21, C22: scheduler and task timing

Task bodies are arbitrary, apart from `Respects`: the list of tasks is fixed and only the scheduler
calls `setLastRun`. True time is a natural number; ticks are its low 32 bits.
-/

namespace Verif.Props.Sched

open Verif

variable {σ : Type}

/-- Task bodies do not change the task list and do not call `setLastRun`. They may change delays and
anything else. -/
def Respects (body : Bodies σ) : Prop :=
  ∀ i w ts, (body i w ts).2.map Task.lastRun = ts.map Task.lastRun

/-- Ticks at the given true times. -/
def ticks (times : List Nat) : List Nat := times.map (· % 4294967296)

theorem length_of_respects {body : Bodies σ} (hb : Respects body) (i : Nat) (w : σ)
    (ts : List Task) : (body i w ts).2.length = ts.length := by
  simpa using congrArg List.length (hb i w ts)

theorem lastRun_of_respects {body : Bodies σ} (hb : Respects body) (i : Nat) (w : σ)
    (ts : List Task) (j : Nat) :
    (body i w ts).2[j]?.map Task.lastRun = ts[j]?.map Task.lastRun := by
  have := congrArg (fun l => l[j]?) (hb i w ts)
  simpa using this

theorem due_iff (t : Task) (tick : Nat) :
    Sched.due t tick = true ↔ t.delay = 0 ∨ t.delay ≤ sub32 tick t.lastRun := by
  simp [Sched.due]

/-- Effect of one call on a well-formed scheduler. -/
theorem runTask_spec {body : Bodies σ} (hb : Respects body) (s : Sched σ) (tick : Nat)
    (hc : s.cur < s.tasks.length) :
    ∃ t, s.tasks[s.cur]? = some t ∧
      (Sched.runTask body s tick).2 = some ⟨s.cur, tick, t.delay, t.lastRun, Sched.due t tick⟩ ∧
      (Sched.runTask body s tick).1.tasks.length = s.tasks.length ∧
      (Sched.runTask body s tick).1.cur = (s.cur + 1) % s.tasks.length ∧
      (Sched.runTask body s tick).1.ub = s.ub ∧
      (∀ j, (Sched.runTask body s tick).1.tasks[j]?.map Task.lastRun =
        if j = s.cur ∧ Sched.due t tick = true then some tick
        else s.tasks[j]?.map Task.lastRun) := by
  obtain ⟨t, ht⟩ : ∃ t, s.tasks[s.cur]? = some t := ⟨_, List.getElem?_eq_getElem hc⟩
  refine ⟨t, ht, ?_⟩
  have hcur : (if s.cur + 1 ≥ s.tasks.length then 0 else s.cur + 1)
      = (s.cur + 1) % s.tasks.length := by
    split
    · have : s.cur + 1 = s.tasks.length := by omega
      rw [this, Nat.mod_self]
    · rw [Nat.mod_eq_of_lt (by omega)]
  simp only [Sched.runTask, ht, hcur, true_and]
  by_cases hd : Sched.due t tick = true
  · simp only [hd, if_true, true_and, and_true]
    refine ⟨?_, ?_⟩
    · rw [length_of_respects hb]; simp
    · intro j
      rw [lastRun_of_respects hb, List.getElem?_set]
      by_cases hj : s.cur = j
      · subst hj
        simp only [if_true, hc, Option.map_some]
        rfl
      · simp [hj, Ne.symm hj]
  · simp only [hd, Bool.false_eq_true, if_false, and_false]
    simp

theorem runTask_empty {body : Bodies σ} (w : σ) (tick : Nat) :
    (Sched.runTask body (Sched.init [] w) tick).1.ub = true := rfl

/-- **C17.** The `k`-th call of `runTask()` examines task `k mod n` and no other; the scheduler never
leaves the task list. -/
theorem C17_round_robin {body : Bodies σ} (hb : Respects body) (tasks : List Task) (w : σ)
    (hn : tasks ≠ []) (tks : List Nat) :
    let r := Sched.runTasks body (Sched.init tasks w) tks
    r.1.ub = false ∧ r.2.length = tks.length ∧
      ∀ k, k < tks.length → ∃ e, r.2[k]? = some (some e) ∧ e.idx = k % tasks.length ∧
        tks[k]? = some e.tick := by
  have hpos : 0 < tasks.length := List.length_pos_iff.mpr hn
  have key : ∀ (tks : List Nat) (s : Sched σ) (c : Nat), s.tasks.length = tasks.length →
      s.cur = c % tasks.length → s.ub = false →
      let r := Sched.runTasks body s tks
      r.1.ub = false ∧ r.2.length = tks.length ∧
      ∀ k, k < tks.length → ∃ e, r.2[k]? = some (some e) ∧ e.idx = (c + k) % tasks.length ∧
        tks[k]? = some e.tick := by
    intro tks
    induction tks with
    | nil => intro s c _ _ hu; exact ⟨hu, rfl, by intro k hk; simp at hk⟩
    | cons t tks ih =>
      intro s c hl hc hu
      have hlt : s.cur < s.tasks.length := by rw [hl, hc]; exact Nat.mod_lt _ hpos
      obtain ⟨tk, h1, h2, h3, h4, h5, _⟩ := runTask_spec hb s t hlt
      obtain ⟨i1, i2, i3⟩ := ih (Sched.runTask body s t).1 (c + 1) (h3.trans hl)
        (by rw [h4, hl, hc, Nat.mod_add_mod]) (h5.trans hu)
      refine ⟨i1, by simp [Sched.runTasks, i2], ?_⟩
      intro k hk
      cases k with
      | zero =>
        refine ⟨_, by simp [Sched.runTasks, h2]; rfl, ?_, ?_⟩
        · simpa using hc
        · simp
      | succ k =>
        obtain ⟨e, e1, e2, e3⟩ := i3 k (by simpa using hk)
        refine ⟨e, by simpa [Sched.runTasks] using e1, ?_, by simpa using e3⟩
        rw [e2]; congr 1; omega
  have := key tks (Sched.init tasks w) 0 rfl (by simp [Sched.init]) rfl
  simpa using this

/-- **C17**, corollary: every window of `n` consecutive calls examines every task exactly once. -/
theorem C17_each_once (n : Nat) (k i : Nat) (hi : i < n) :
    ∃ j, k ≤ j ∧ j < k + n ∧ j % n = i ∧ ∀ j', k ≤ j' → j' < k + n → j' % n = i → j' = j := by
  have hn : 0 < n := by omega
  have hk := Nat.mod_lt k hn
  have hmod : ∀ d, d < n → (k + d) % n = if k % n + d < n then k % n + d else k % n + d - n := by
    intro d hd
    rw [Nat.add_mod, Nat.mod_eq_of_lt hd]
    split
    · rw [Nat.mod_eq_of_lt ‹_›]
    · rw [Nat.mod_eq_sub_mod (by omega), Nat.mod_eq_of_lt (by omega)]
  by_cases h : k % n ≤ i
  · refine ⟨k + (i - k % n), by omega, by omega, ?_, ?_⟩
    · rw [hmod _ (by omega)]; split <;> omega
    · intro j' h1 h2 h3
      obtain ⟨d, rfl⟩ : ∃ d, j' = k + d := ⟨j' - k, by omega⟩
      rw [hmod _ (by omega)] at h3
      split at h3 <;> omega
  · refine ⟨k + (i + n - k % n), by omega, by omega, ?_, ?_⟩
    · rw [hmod _ (by omega)]; split <;> omega
    · intro j' h1 h2 h3
      obtain ⟨d, rfl⟩ : ∃ d, j' = k + d := ⟨j' - k, by omega⟩
      rw [hmod _ (by omega)] at h3
      split at h3 <;> omega

/-- **C17**, empty task list: undefined behaviour. -/
theorem C17_empty_list {body : Bodies σ} (w : σ) (tick : Nat) :
    (Sched.runTask body (Sched.init [] w) tick).1.ub = true := rfl

/-- An arbitrary body used in the examples: each task sets its own delay to 5 and counts runs. -/
def bodyEx : Bodies Nat := fun i w ts => (w + 1, ts.modify i (·.setDelay 5))

theorem map_modify_of_eq {α β : Type} (g : α → β) (f : α → α) (h : ∀ a, g (f a) = g a)
    (ts : List α) (i : Nat) : (ts.modify i f).map g = ts.map g := by
  induction ts generalizing i with
  | nil => simp
  | cons a ts ih =>
    cases i with
    | zero => simp [h]
    | succ i => simpa using ih i

theorem bodyEx_respects : Respects bodyEx := by
  intro i w ts
  exact map_modify_of_eq Task.lastRun (·.setDelay 5) (fun _ => rfl) ts i

example : (Sched.runTasks bodyEx (Sched.init [Task.init 0 0, Task.init 3 0] 0)
      (ticks [1, 2, 4294967297, 4294967302])).2 =
    [some ⟨0, 1, 0, 0, true⟩, some ⟨1, 2, 3, 0, false⟩, some ⟨0, 1, 5, 1, false⟩,
      some ⟨1, 6, 3, 0, true⟩] := by decide

theorem runTasks_getElem_succ {body : Bodies σ} (s : Sched σ) (t : Nat) (tks : List Nat) (k : Nat) :
    (Sched.runTasks body s (t :: tks)).2[k + 1]? =
      (Sched.runTasks body (Sched.runTask body s t).1 tks).2[k]? := by
  simp [Sched.runTasks]

/-- Core of C18: with `lastRun` the tick at `t0`, every later run respects the delay. -/
theorem later_run {body : Bodies σ} (hb : Respects body) (i : Nat) (times : List Nat) :
    ∀ (s : Sched σ) (t0 : Nat), s.cur < s.tasks.length →
      s.tasks[i]?.map Task.lastRun = some (t0 % 4294967296) →
      (t0 :: times).Pairwise (· ≤ ·) →
      ∀ (k : Nat) (e : SchedEv) (t : Nat), (Sched.runTasks body s (ticks times)).2[k]? = some (some e) → times[k]? = some t →
        e.idx = i → e.ran = true → t0 + e.delay ≤ t := by
  induction times with
  | nil => intro s t0 _ _ _ k e t _ ht; simp at ht
  | cons t1 times ih =>
    intro s t0 hc hl hp k e t hk ht hi hr
    obtain ⟨tk, h1, h2, h3, h4, h5, h6⟩ := runTask_spec hb s (t1 % 4294967296) hc
    have hp' := List.pairwise_cons.mp hp
    have h01 : t0 ≤ t1 := hp'.1 t1 (by simp)
    have hc' : (Sched.runTask body s (t1 % 4294967296)).1.cur <
        (Sched.runTask body s (t1 % 4294967296)).1.tasks.length := by
      rw [h4, h3]; exact Nat.mod_lt _ (by omega)
    cases k with
    | zero =>
      simp only [ticks, List.map_cons, Sched.runTasks, List.getElem?_cons_zero,
        Option.some.injEq, h2] at hk
      simp only [List.getElem?_cons_zero, Option.some.injEq] at ht
      subst hk ht
      simp only at hi hr ⊢
      subst hi
      rw [h1] at hl
      simp only [Option.map_some, Option.some.injEq] at hl
      rw [due_iff, hl] at hr
      simp only [sub32] at hr
      omega
    | succ k =>
      simp only [ticks, List.map_cons] at hk
      rw [runTasks_getElem_succ] at hk
      simp only [List.getElem?_cons_succ] at ht
      have h6i := h6 i
      by_cases hran : i = s.cur ∧ Sched.due tk (t1 % 4294967296) = true
      · rw [if_pos hran] at h6i
        have := ih _ t1 hc' h6i hp'.2 k e t hk ht hi hr
        omega
      · rw [if_neg hran, hl] at h6i
        refine ih _ t0 hc' h6i ?_ k e t hk ht hi hr
        exact List.pairwise_cons.mpr
          ⟨fun a ha => hp'.1 a (by simp [ha]), (List.pairwise_cons.mp hp'.2).2⟩

/-- **C18.** Along every history with non-decreasing true time, whatever the task bodies do, and across
any number of wraps of the tick counter: if a task was run at call `j` and again at call `k`,
the time between is at least the delay it had when it was run again. -/
theorem C18_min_delay {body : Bodies σ} (hb : Respects body) (tasks : List Task) (w : σ)
    (hn : tasks ≠ []) (times : List Nat) (hp : times.Pairwise (· ≤ ·)) (j k : Nat) (hjk : j < k)
    (ej ek : SchedEv) (tj tk : Nat)
    (hj : (Sched.runTasks body (Sched.init tasks w) (ticks times)).2[j]? = some (some ej))
    (hk : (Sched.runTasks body (Sched.init tasks w) (ticks times)).2[k]? = some (some ek))
    (htj : times[j]? = some tj) (htk : times[k]? = some tk)
    (hi : ej.idx = ek.idx) (hrj : ej.ran = true) (hrk : ek.ran = true) :
    tj + ek.delay ≤ tk := by
  have key : ∀ (times : List Nat) (s : Sched σ) (j k : Nat), s.cur < s.tasks.length →
      times.Pairwise (· ≤ ·) → j < k →
      (Sched.runTasks body s (ticks times)).2[j]? = some (some ej) →
      (Sched.runTasks body s (ticks times)).2[k]? = some (some ek) →
      times[j]? = some tj → times[k]? = some tk → tj + ek.delay ≤ tk := by
    intro times
    induction times with
    | nil => intro s j k _ _ _ _ _ h; simp at h
    | cons t1 times ih =>
      intro s j k hc hp hjk hj hk htj htk
      obtain ⟨tsk, h1, h2, h3, h4, h5, h6⟩ := runTask_spec hb s (t1 % 4294967296) hc
      have hc' : (Sched.runTask body s (t1 % 4294967296)).1.cur <
          (Sched.runTask body s (t1 % 4294967296)).1.tasks.length := by
        rw [h4, h3]; exact Nat.mod_lt _ (by omega)
      obtain ⟨k', rfl⟩ : ∃ k', k = k' + 1 := ⟨k - 1, by omega⟩
      simp only [ticks, List.map_cons] at hk
      rw [runTasks_getElem_succ] at hk
      simp only [List.getElem?_cons_succ] at htk
      cases j with
      | zero =>
        simp only [ticks, List.map_cons, Sched.runTasks, List.getElem?_cons_zero,
          Option.some.injEq, h2] at hj
        simp only [List.getElem?_cons_zero, Option.some.injEq] at htj
        subst hj htj
        simp only at hi hrj
        have h6i := h6 s.cur
        rw [if_pos ⟨rfl, hrj⟩] at h6i
        exact later_run hb s.cur times _ t1 hc' h6i hp k' ek tk hk htk hi.symm hrk
      | succ j =>
        simp only [ticks, List.map_cons] at hj
        rw [runTasks_getElem_succ] at hj
        simp only [List.getElem?_cons_succ] at htj
        exact ih _ j k' hc' (List.pairwise_cons.mp hp).2 (by omega) hj hk htj htk
  exact key times (Sched.init tasks w) j k (List.length_pos_iff.mpr hn) hp hjk hj hk htj htk

/-- Two runs of one task around a wrap of the counter meet the hypotheses. -/
example : let r := (Sched.runTasks bodyEx (Sched.init [Task.init 0 0] 0)
      (ticks [4294967295, 4294967297, 4294967300])).2
    r[0]? = some (some ⟨0, 4294967295, 0, 0, true⟩) ∧
      r[2]? = some (some ⟨0, 4, 5, 4294967295, true⟩) ∧
      [4294967295, 4294967297, 4294967300].Pairwise (· ≤ ·) := by decide

/-- **C19** (decision). A task is run at an examination iff its delay is 0 or at least its delay has
passed since its last run, in true time, provided the true gap is below 2^32. -/
theorem C19_run_iff_due {body : Bodies σ} (hb : Respects body) (s : Sched σ)
    (hc : s.cur < s.tasks.length) (t0 t : Nat) (task : Task) (ht : s.tasks[s.cur]? = some task)
    (hl : task.lastRun = t0 % 4294967296) (h0 : t0 ≤ t) (hgap : t < t0 + 4294967296) :
    ∃ e, (Sched.runTask body s (t % 4294967296)).2 = some e ∧ e.idx = s.cur ∧
      (e.ran = true ↔ task.delay = 0 ∨ t0 + task.delay ≤ t) ∧
      (e.ran = true →
        (Sched.runTask body s (t % 4294967296)).1.tasks[s.cur]?.map Task.lastRun =
          some (t % 4294967296)) := by
  obtain ⟨tk, h1, h2, h3, h4, h5, h6⟩ := runTask_spec hb s (t % 4294967296) hc
  rw [ht] at h1
  obtain rfl := Option.some.inj h1
  refine ⟨_, h2, rfl, ?_, ?_⟩
  · rw [due_iff, hl]
    simp only [sub32]
    constructor
    · rintro (h | h)
      · exact Or.inl h
      · right; omega
    · rintro (h | h)
      · exact Or.inl h
      · by_cases hz : task.delay = 0
        · exact Or.inl hz
        · right; omega
  · intro hr
    rw [h6 s.cur, if_pos ⟨rfl, hr⟩]

/-- **C19** (liveness). In every window of `n` consecutive calls there is a call that examines task
`i`, and if the task's delay is 0 at that call, it is run. -/
theorem C19_zero_delay_every_round {body : Bodies σ} (hb : Respects body) (tasks : List Task)
    (w : σ) (hn : tasks ≠ []) (tks : List Nat) (k i : Nat) (hi : i < tasks.length)
    (hk : k + tasks.length ≤ tks.length) :
    ∃ j e, k ≤ j ∧ j < k + tasks.length ∧
      (Sched.runTasks body (Sched.init tasks w) tks).2[j]? = some (some e) ∧ e.idx = i ∧
      (e.ran = true ↔ e.delay = 0 ∨ e.delay ≤ sub32 e.tick e.last) := by
  obtain ⟨j, h1, h2, h3, _⟩ := C17_each_once tasks.length k i hi
  obtain ⟨_, _, hall⟩ := C17_round_robin hb tasks w hn tks
  obtain ⟨e, e1, e2, e3⟩ := hall j (by omega)
  refine ⟨j, e, h1, h2, e1, by rw [e2, h3], ?_⟩
  -- every recorded event carries the decision of `due`
  have key : ∀ (tks : List Nat) (s : Sched σ), ∀ (j : Nat) (e : SchedEv),
      (Sched.runTasks body s tks).2[j]? = some (some e) →
      (e.ran = true ↔ e.delay = 0 ∨ e.delay ≤ sub32 e.tick e.last) := by
    intro tks
    induction tks with
    | nil => intro s j e h; simp [Sched.runTasks] at h
    | cons t tks ih =>
      intro s j e h
      cases j with
      | zero =>
        simp only [Sched.runTasks, List.getElem?_cons_zero, Option.some.injEq,
          Sched.runTask] at h
        split at h
        · simp at h
        · simp only [Option.some.injEq] at h
          subst h
          simp only [due_iff]
      | succ j => rw [runTasks_getElem_succ] at h; exact ih _ j e h
  exact key tks _ j e e1

/-- **C21.** Timeouts. A wait started in a run at true time `t0` (with no timeout running) is reported
expired in a later run at `t` iff more than `T` time units passed, for every gap below 2^32, also
across a wrap of the counter. -/
theorem C21_timeout (task : Task) (t0 t T : Nat) (hT : T < 4294967296) (h0 : t0 ≤ t)
    (hgap : t < t0 + 4294967296) (hr : task.timeoutRunning = false) :
    (((task.setLastRun (t0 % 4294967296)).startTimeout.setLastRun (t % 4294967296)).isTimeout T
      = true) ↔ t0 + T < t := by
  simp only [Task.startTimeout, Task.setLastRun, hr, Bool.false_eq_true, if_false,
    Task.isTimeout, decide_eq_true_eq, sub32]
  omega

/-- A restart while a timeout is running does not move its start. -/
theorem C21_no_restart (task : Task) (hr : task.timeoutRunning = true) :
    task.startTimeout = task := by simp [Task.startTimeout, hr]

example : (((Task.init 0 99).setLastRun (4294967290 % 4294967296)).startTimeout.setLastRun
    (4294967301 % 4294967296)).isTimeout 10 = true := by decide

/-- **C22.** A requested delay up to 65535 is kept, a larger one is reduced modulo 65536. -/
theorem C22_delay (task : Task) (d : Nat) :
    (d ≤ 65535 → (task.setDelay d).delay = d) ∧
      (65536 ≤ d → (task.setDelay d).delay < d ∧ (task.setDelay d).delay = d % 65536) := by
  refine ⟨fun h => ?_, fun h => ⟨?_, rfl⟩⟩
  · show d % 65536 = d
    omega
  · show d % 65536 < d
    omega

/-- **C22**, effect: for every requested delay of at least 65536 the scheduler runs the task again
too early, namely already after `d mod 65536`. -/
theorem C22_runs_early {body : Bodies σ} (hb : Respects body) (d t0 : Nat) (hd : 65536 ≤ d) (w : σ)
    (junk : Nat) :
    ∃ e, (Sched.runTask body
        (Sched.init [((Task.init 0 junk).setLastRun (t0 % 4294967296)).setDelay d] w)
        ((t0 + d % 65536) % 4294967296)).2 = some e ∧ e.ran = true ∧ t0 + d % 65536 < t0 + d := by
  obtain ⟨e, h1, h2, h3, h4⟩ := C19_run_iff_due hb
    (Sched.init [((Task.init 0 junk).setLastRun (t0 % 4294967296)).setDelay d] w) (by simp [Sched.init])
    t0 (t0 + d % 65536) _ rfl rfl (by omega) (by omega)
  refine ⟨e, h1, h3.mpr (Or.inr ?_), by omega⟩
  simp [Task.setDelay]

end Verif.Props.Sched
