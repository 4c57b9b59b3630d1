import Verif.Lemmas.ProgramPlays
import Verif.Lemmas.SerialTask

/-!
# Computing the steps of the serial example
-/

namespace Verif.SerialTask

/-- The bodies, the task making `n` steps at most. The flag: they were enough. -/
def bodyN (n : Nat) (i : Nat) (w : Main) (ts : List Task) : Bool × Main × List Task :=
  match i, ts with
  | 0, t :: ts =>
    let x := Duff.steps n ((Duff.find w.entry (text true) []).getD [], ⟨t.setLastRun t.lastRun, w.entry, w.user⟩)
    (x.1.isEmpty, { w with entry := x.2.entry, user := x.2.user }, x.2.task :: ts)
  | 1, ts => (true, { w with user := { w.user with ser := w.user.ser.transfer (w.feed w.n) }, n := w.n + 1 }, ts)
  | _, _ => (false, w, ts)

theorem bodyN_eq {body : Bodies Main} (hb : Bodied body) {n i : Nat} {w : Main} {ts : List Task}
    (h : (bodyN n i w ts).1 = true) : body i w ts = (bodyN n i w ts).2 := by
  unfold bodyN at h ⊢
  split at h
  · rename_i t ts
    obtain ⟨s, ⟨k, hk⟩, e⟩ := hb.task w t ts
    rw [e]
    dsimp only at h hk ⊢
    have hn := List.isEmpty_iff.mp h
    generalize hx : ((Duff.find w.entry (text true) []).getD [], (⟨t.setLastRun t.lastRun, w.entry, w.user⟩ : Duff.St World)) = x at *
    have e2 : Duff.steps n x = ([], (Duff.steps n x).2) := Prod.ext hn rfl
    have : Duff.steps (k + n) x = Duff.steps (n + k) x := by rw [Nat.add_comm]
    rw [Program.steps_add, Program.steps_add, hk, e2, Program.steps_nil, Program.steps_nil] at this
    have := (Prod.mk.inj this).2
    rw [this]
  · exact hb.serial ..
  · cases h

/-- As `runTask()`, with `bodyN`. -/
def turn (n : Nat) (s : Sched Main) (tick : Nat) : Option (Sched Main) :=
  match s.tasks[s.cur]? with
  | none => none
  | some t =>
    let cur := if s.cur + 1 ≥ s.tasks.length then 0 else s.cur + 1
    if Sched.due t tick then
      let x := bodyN n s.cur s.world (s.tasks.set s.cur (t.setLastRun tick))
      if x.1 then some { s with tasks := x.2.2, world := x.2.1, cur := cur } else none
    else some { s with cur := cur }

theorem turn_eq {body : Bodies Main} (hb : Bodied body) {n : Nat} {s s' : Sched Main} {tick : Nat}
    (h : turn n s tick = some s') : (Sched.runTask body s tick).1 = s' := by
  unfold turn at h
  unfold Sched.runTask
  split at h
  · cases h
  · rename_i t e
    rw [e]
    dsimp only at h ⊢
    split at h <;> rename_i hd
    · split at h
      · rename_i hx
        rw [if_pos hd, bodyN_eq hb hx]
        injection h
      · cases h
    · rw [if_neg hd]
      injection h

def turns (n : Nat) : List Nat → Sched Main → Option (Sched Main)
  | [], s => some s
  | t :: ts, s => (turn n s t).bind (turns n ts)

theorem turns_eq {body : Bodies Main} (hb : Bodied body) {n : Nat} {ticks : List Nat} {s s' : Sched Main}
    (h : turns n ticks s = some s') : (Sched.runTasks body s ticks).1 = s' := by
  induction ticks generalizing s with
  | nil => exact Option.some.inj h
  | cons t ts ih =>
    obtain ⟨s1, h1, h2⟩ := Option.bind_eq_some_iff.mp h
    have := ih h2
    rw [← turn_eq hb h1] at this
    exact this

end Verif.SerialTask
