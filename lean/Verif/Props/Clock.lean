import Verif.Lemmas.Clock
import Verif.Props.Sched

/-!
# C81: the tick functions, and the scheduler in real time

The tick function of Linux is computed with floating point numbers; `Rounding` says what is used of their arithmetic.
-/

namespace Verif.Props.Clock

open Verif.Spec Verif.Props.Sched

/-- **C81**, accuracy: the tick is the time in milliseconds without fraction, or one more, modulo 2^32. -/
theorem C81_linux_accuracy {rnd : Rat → Rat} (h : Rounding rnd) (c : Clock) (hc : Reads c) :
    ∃ ms, tickLinux rnd c = ms % 4294967296 ∧ nanos c / 1000000 ≤ ms ∧ ms ≤ nanos c / 1000000 + 1 :=
  ⟨tickMs rnd c, rfl, tickMs_near h hc⟩

/-- **C81**, order: a later reading gives no smaller number of milliseconds; between two readings that are less than
2^32 - 2 ms apart the difference of the ticks is less than 2 ms off. -/
theorem C81_linux_elapsed {rnd : Rat → Rat} (h : Rounding rnd) (a b : Clock) (ha : Reads a) (hb : Reads b)
    (hab : nanos a ≤ nanos b) (hg : nanos b - nanos a < 4294967294 * 1000000) :
    let e := sub32 (tickLinux rnd b) (tickLinux rnd a)
    e * 1000000 < nanos b - nanos a + 2000000 ∧ nanos b - nanos a < (e + 2) * 1000000 := by
  intro e
  have h1 := tickMs_near h ha
  have h2 := tickMs_near h hb
  have h3 := tickMs_mono h ha hb hab
  have he : e = tickMs rnd b - tickMs rnd a := by
    simp only [e, tickLinux, sub32]
    omega
  rw [he]
  omega

/-- **C81**, tasks: with the tick function of Linux a task runs again at most 2 ms before its delay has passed in real
time, whatever the bodies of the tasks do and however much time passes. -/
theorem C81_linux_delay {σ : Type} {rnd : Rat → Rat} (h : Rounding rnd) {body : Bodies σ} (hb : Respects body)
    (tasks : List Task) (w : σ) (hn : tasks ≠ []) (times : List Clock) (hr : ∀ c ∈ times, Reads c)
    (hp : times.Pairwise (fun a b => nanos a ≤ nanos b)) (j k : Nat) (hjk : j < k)
    (ej ek : SchedEv) (tj tk : Clock)
    (hj : (Sched.runTasks body (Sched.init tasks w) (times.map (tickLinux rnd))).2[j]? = some (some ej))
    (hk : (Sched.runTasks body (Sched.init tasks w) (times.map (tickLinux rnd))).2[k]? = some (some ek))
    (htj : times[j]? = some tj) (htk : times[k]? = some tk)
    (hi : ej.idx = ek.idx) (hrj : ej.ran = true) (hrk : ek.ran = true) :
    nanos tj + ek.delay * 1000000 < nanos tk + 2000000 := by
  have e : times.map (tickLinux rnd) = ticks (times.map (tickMs rnd)) := by
    simp [ticks, tickLinux, Function.comp_def]
  rw [e] at hj hk
  have hp' : (times.map (tickMs rnd)).Pairwise (· ≤ ·) := by
    rw [List.pairwise_map]
    refine List.Pairwise.imp_of_mem ?_ hp
    intro a b ha hb' hab
    exact tickMs_mono h (hr a ha) (hr b hb') hab
  have := C18_min_delay hb tasks w hn (times.map (tickMs rnd)) hp' j k hjk ej ek (tickMs rnd tj) (tickMs rnd tk) hj hk
    (by simp [htj]) (by simp [htk]) hi hrj hrk
  have h1 := tickMs_near h (hr tj (List.mem_of_getElem? htj))
  have h2 := tickMs_near h (hr tk (List.mem_of_getElem? htk))
  omega

/-- **C81**, due: a task whose delay and one millisecond more have passed since its last run is run when its turn comes,
if that was less than 2^32 - 2 ms ago. -/
theorem C81_linux_due {rnd : Rat → Rat} (h : Rounding rnd) (a b : Clock) (ha : Reads a) (hb : Reads b) (t : Task)
    (hl : t.lastRun = tickLinux rnd a) (hd : nanos a + (t.delay + 1) * 1000000 ≤ nanos b)
    (hg : nanos b - nanos a < 4294967294 * 1000000) : Sched.due t (tickLinux rnd b) = true := by
  have h1 := tickMs_near h ha
  have h2 := tickMs_near h hb
  have h3 := tickMs_mono h ha hb (by omega)
  have he : sub32 (tickLinux rnd b) (tickLinux rnd a) = tickMs rnd b - tickMs rnd a := by
    simp only [tickLinux, sub32]
    omega
  simp only [Sched.due, hl, he]
  simp
  right
  omega

/-- **C81**, early: a task with a delay of 10 ms runs again after 9.000001 ms. -/
theorem C81_linux_early :
    let times := [⟨5, 999999⟩, ⟨5, 10000000⟩]
    (Sched.runTasks (fun _ w ts => (w, ts)) (Sched.init [Task.init 10 0] 0) (times.map (tickLinux id))).2 =
      [some ⟨0, 5000, 10, 0, true⟩, some ⟨0, 5010, 10, 5000, true⟩] ∧
    times.map nanos = [5000999999, 5010000000] := by
  decide +kernel

/-- **C81**, no platform: with the tick function of `noplatform` a task with a delay is never run. -/
theorem C81_none {σ : Type} {body : Bodies σ} (hb : Respects body) (tasks : List Task) (w : σ) (hn : tasks ≠ [])
    (h0 : ∀ t ∈ tasks, t.lastRun = 0) (n k : Nat) (e : SchedEv)
    (hk : (Sched.runTasks body (Sched.init tasks w) (List.replicate n tickNone)).2[k]? = some (some e)) :
    e.ran = true → e.delay = 0 := by
  have key : ∀ (n : Nat) (s : Sched σ) (k : Nat), s.cur < s.tasks.length →
      (∀ (j : Nat) x, s.tasks[j]?.map Task.lastRun = some x → x = 0) →
      (Sched.runTasks body s (List.replicate n tickNone)).2[k]? = some (some e) → e.ran = true → e.delay = 0 := by
    intro n
    induction n with
    | zero => intro s k _ _ h; simp [Sched.runTasks] at h
    | succ n ih =>
      intro s k hc hl hk hr
      obtain ⟨t, h1, h2, h3, h4, h5, h6⟩ := runTask_spec hb s tickNone hc
      rw [List.replicate_succ] at hk
      cases k with
      | zero =>
        simp only [Sched.runTasks, List.getElem?_cons_zero, Option.some.injEq, h2] at hk
        subst hk
        have ht := hl s.cur t.lastRun (by rw [h1]; rfl)
        simp only [Sched.due, ht, tickNone, sub32] at hr ⊢
        simpa using hr
      | succ k =>
        rw [runTasks_getElem_succ] at hk
        refine ih _ k (by rw [h4, h3]; exact Nat.mod_lt _ (by omega)) ?_ hk hr
        intro j x hx
        rw [h6] at hx
        split at hx
        · simpa [tickNone] using hx.symm
        · exact hl j x hx
  refine key n (Sched.init tasks w) k ?_ ?_ hk
  · exact List.length_pos_iff.mpr hn
  · intro j x hx
    simp only [Sched.init, Option.map_eq_some_iff] at hx
    obtain ⟨t, ht, rfl⟩ := hx
    exact h0 t (List.mem_of_getElem? ht)

/-- Readings, a rounding and a history that meet the hypotheses. -/
example : let c : Clock := ⟨5, 999999⟩
    Rounding (fun x : Rat => ((x * 4096).floor : Rat) / 4096) ∧ Reads c ∧
    tickLinux (fun x => ((x * 4096).floor : Rat) / 4096) c = 5000 ∧
    (Sched.runTasks bodyEx (Sched.init [Task.init 0 0, Task.init 3 0] 0) (List.replicate 4 tickNone)).2.map
      (fun e => e.map SchedEv.ran) = [some true, some false, some false, some false] :=
  ⟨rounds_cut, ⟨by decide, by decide⟩, by decide +kernel⟩

end Verif.Props.Clock
