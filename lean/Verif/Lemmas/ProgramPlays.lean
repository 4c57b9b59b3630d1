import Verif.Lemmas.Program
import Verif.Spec.ProgramSession

/-!
# Computing the steps of the program
-/

namespace Verif.Program

open ModemDetect Client

/-- The bodies, the task making `n` steps at most. The flag: they were enough. -/
def bodyN (p : Platform) (b : Mems) (n : Nat) (i : Nat) (w : Main) (ts : List Task) : Bool × Main × List Task :=
  match i, ts with
  | 0, t :: ts =>
    let x := Duff.steps n ((Duff.find w.entry (text (api p b)) []).getD [], ⟨t.setLastRun t.lastRun, w.entry, w.user⟩)
    (x.1.isEmpty, { w with entry := x.2.entry, user := x.2.user }, x.2.task :: ts)
  | 1, t0 :: t1 :: ts =>
    let m := step p w.user.dev (.run (w.opens w.n))
    (true, { w with user := { w.user with dev := m }, n := w.n + 1 }, t0 :: t1.setDelay m.delay :: ts)
  | 2, ts => (true, { w with user := { w.user with dev := step p w.user.dev (.irq [w.feed w.n]) }, n := w.n + 1 }, ts)
  | _, _ => (false, w, ts)

theorem steps_nil {σ : Type} (n : Nat) (s : Duff.St σ) : Duff.steps n ([], s) = ([], s) := by
  induction n with
  | zero => rfl
  | succ n ih => exact ih

theorem steps_add {σ : Type} (n m : Nat) (x : List (Duff.Frame σ) × Duff.St σ) : Duff.steps (n + m) x = Duff.steps m (Duff.steps n x) := by
  induction n generalizing x with
  | zero => rw [Nat.zero_add]; rfl
  | succ n ih => rw [Nat.add_right_comm]; exact ih _

theorem bodyN_eq {p : Platform} {b : Mems} {body : Bodies Main} (hb : Bodied p b body) {n i : Nat} {w : Main} {ts : List Task}
    (h : (bodyN p b n i w ts).1 = true) : body i w ts = (bodyN p b n i w ts).2 := by
  unfold bodyN at h ⊢
  split at h
  · rename_i t ts
    obtain ⟨s, ⟨k, hk⟩, e⟩ := hb.task w t ts
    rw [e]
    dsimp only at h hk ⊢
    have hn := List.isEmpty_iff.mp h
    generalize hx : ((Duff.find w.entry (text (api p b)) []).getD [], (⟨t.setLastRun t.lastRun, w.entry, w.user⟩ : Duff.St (World MD))) = x at *
    have e2 : Duff.steps n x = ([], (Duff.steps n x).2) := Prod.ext hn rfl
    have : Duff.steps (k + n) x = Duff.steps (n + k) x := by rw [Nat.add_comm]
    rw [steps_add, steps_add, hk, e2, steps_nil, steps_nil] at this
    have := (Prod.mk.inj this).2
    rw [this]
  · exact hb.detector ..
  · exact hb.serial ..
  · cases h

/-- As `runTask()`, with `bodyN`. -/
def turn (p : Platform) (b : Mems) (n : Nat) (s : Sched Main) (tick : Nat) : Option (Sched Main) :=
  match s.tasks[s.cur]? with
  | none => none
  | some t =>
    let cur := if s.cur + 1 ≥ s.tasks.length then 0 else s.cur + 1
    if Sched.due t tick then
      let x := bodyN p b n s.cur s.world (s.tasks.set s.cur (t.setLastRun tick))
      if x.1 then some { s with tasks := x.2.2, world := x.2.1, cur := cur } else none
    else some { s with cur := cur }

theorem turn_eq {p : Platform} {b : Mems} {body : Bodies Main} (hb : Bodied p b body) {n : Nat} {s s' : Sched Main} {tick : Nat}
    (h : turn p b n s tick = some s') : (Sched.runTask body s tick).1 = s' := by
  unfold turn at h
  unfold Sched.runTask
  split at h
  · cases h
  · rename_i t e
    rw [e]
    dsimp only at h ⊢
    split at h <;> rename_i hd
    · split at h
      · rename_i hx
        rw [if_pos hd, bodyN_eq hb hx]
        injection h
      · cases h
    · rw [if_neg hd]
      injection h

def turns (p : Platform) (b : Mems) (n : Nat) : List Nat → Sched Main → Option (Sched Main)
  | [], s => some s
  | t :: ts, s => (turn p b n s t).bind (turns p b n ts)

theorem turns_eq {p : Platform} {b : Mems} {body : Bodies Main} (hb : Bodied p b body) {n : Nat} {ticks : List Nat} {s s' : Sched Main}
    (h : turns p b n ticks s = some s') : (Sched.runTasks body s ticks).1 = s' := by
  induction ticks generalizing s with
  | nil => exact Option.some.inj h
  | cons t ts ih =>
    obtain ⟨s1, h1, h2⟩ := Option.bind_eq_some_iff.mp h
    have := ih h2
    rw [← turn_eq hb h1] at this
    exact this

end Verif.Program
