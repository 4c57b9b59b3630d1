import Verif.Spec.Thread

/-!
# The `switch` of the task macros finds the place where the thread waits
-/

namespace Verif.Duff

open Spec.Threads

variable {σ : Type}

/-! ### Steps -/

theorem steps_done (n : Nat) (s : St σ) : steps n ([], s) = ([], s) := by
  induction n with
  | zero => rfl
  | succ n ih => exact ih

theorem steps_add (m n : Nat) (x : List (Frame σ) × St σ) : steps (m + n) x = steps n (steps m x) := by
  induction m generalizing x with
  | zero => rw [Nat.zero_add]; rfl
  | succ m ih => rw [Nat.succ_add]; exact ih (step x)

/-! ### Labels -/

/-- What is left to do after the label of a macro. -/
def after (w : Wait σ) (k : List (Frame σ)) : List (Frame σ) :=
  match w with
  | .yield | .delay _ => k
  | .cond c | .condDelay c _ => .run (.unless c) :: k
  | .condTimeout c T | .condTimeoutDelay c T _ => .run (.seq (.unlessTimeout c T) .resetTimeout) :: k

theorem find_wait (l : Nat) (w : Wait σ) (k : List (Frame σ)) : find l (w.expand l) k = some (after w k) := by
  cases w <;> simp [Wait.expand, find, after]

theorem find_wait_ne {l m : Nat} (h : m ≠ l) (w : Wait σ) (k : List (Frame σ)) : find l (w.expand m) k = none := by
  cases w <;> simp [Wait.expand, find, h, Raw.unless, Raw.unlessTimeout, Raw.skip]

theorem find_none {l : Nat} (p : Prog σ) (h : l ∉ labels p) (k : List (Frame σ)) : find l p.expand k = none := by
  induction p generalizing k with
  | seq a b iha ihb | ite c a b iha ihb =>
    simp only [labels, List.mem_append, not_or] at h
    simp [Prog.expand, find, iha h.1, ihb h.2]
  | loop c inc b ih => exact ih h _
  | wait m w => exact find_wait_ne (fun e => h (by simp [labels, e])) w k
  | _ => rfl

theorem find_some {l : Nat} (p : Prog σ) (h : l ∈ labels p) (k : List (Frame σ)) : ∃ x, find l p.expand k = some x := by
  induction p generalizing k with
  | seq a b iha ihb | ite c a b iha ihb =>
    simp only [labels, List.mem_append] at h
    simp only [Prog.expand, find]
    by_cases ha : l ∈ labels a
    · first
      | (obtain ⟨x, hx⟩ := iha ha (.run b.expand :: k); exact ⟨x, by rw [hx]; rfl⟩)
      | (obtain ⟨x, hx⟩ := iha ha k; exact ⟨x, by rw [hx]; rfl⟩)
    · obtain ⟨x, hx⟩ := ihb (h.resolve_left ha) k
      exact ⟨x, by rw [find_none a ha, hx]; rfl⟩
  | loop c inc b ih => exact ih h _
  | wait m w =>
    simp only [labels, List.mem_singleton] at h
    subst h
    exact ⟨_, find_wait _ w k⟩
  | _ => simp [labels] at h

/-! ### What is left to do, for the thread and for the function -/

def cor : Todo σ → Frame σ
  | .run p => .run p.expand
  | .again c inc b => .again c inc b.expand

/-- What is left to do for the function: the same, and the end of the task. -/
def imp (last : Nat) (k : List (Todo σ)) : List (Frame σ) := k.map cor ++ [.run (.setEntry last)]

/-- The `switch` would find the labels of everything that is left to do where they are. -/
def Placed (W : Raw σ) (last : Nat) : List (Todo σ) → Prop
  | [] => True
  | .run p :: k =>
    ((∀ l ∈ labels p, l < 256 ∧ find l W [] = find l p.expand (imp last k)) ∧ (labels p).Nodup) ∧ Placed W last k
  | .again c inc b :: k =>
    ((∀ l ∈ labels b, l < 256 ∧ find l W [] = find l b.expand (imp last (.again c inc b :: k))) ∧ (labels b).Nodup) ∧ Placed W last k

theorem leave_imp (last : Nat) (k : List (Todo σ)) (h : ∃ c inc b, Todo.again c inc b ∈ k) :
    leave (imp last k) = imp last (Todo.leave k) := by
  induction k with
  | nil => obtain ⟨_, _, _, h⟩ := h; cases h
  | cons x k ih =>
    cases x with
    | run p =>
      obtain ⟨c, inc, b, h⟩ := h
      simp only [List.mem_cons, reduceCtorEq, false_or] at h
      exact ih ⟨c, inc, b, h⟩
    | again c inc b => rfl

theorem skipTo_imp (last : Nat) (k : List (Todo σ)) (h : ∃ c inc b, Todo.again c inc b ∈ k) :
    skipTo (imp last k) = imp last (Todo.skipTo k) := by
  induction k with
  | nil => obtain ⟨_, _, _, h⟩ := h; cases h
  | cons x k ih =>
    cases x with
    | run p =>
      obtain ⟨c, inc, b, h⟩ := h
      simp only [List.mem_cons, reduceCtorEq, false_or] at h
      exact ih ⟨c, inc, b, h⟩
    | again c inc b => rfl

theorem placed_leave {W : Raw σ} {last : Nat} (k : List (Todo σ)) (h : Placed W last k) : Placed W last (Todo.leave k) := by
  induction k with
  | nil => exact h
  | cons x k ih => cases x with
    | run p => exact ih h.2
    | again c inc b => exact h.2

theorem placed_skipTo {W : Raw σ} {last : Nat} (k : List (Todo σ)) (h : Placed W last k) : Placed W last (Todo.skipTo k) := by
  induction k with
  | nil => exact h
  | cons x k ih => cases x with
    | run p => exact ih h.2
    | again c inc b => exact h

/-- `break` and `continue` of everything that is left to do are inside loops. -/
def Shut : List (Todo σ) → Prop
  | [] => True
  | .run p :: k => Closed (k.any fun x => match x with | .again .. => true | _ => false) p ∧ Shut k
  | .again _ _ b :: k => Closed true b ∧ Shut k

theorem any_again {k : List (Todo σ)} (h : (k.any fun x => match x with | .again .. => true | _ => false) = true) :
    ∃ c inc b, Todo.again c inc b ∈ k := by
  rw [List.any_eq_true] at h
  obtain ⟨x, hx, h⟩ := h
  cases x with
  | run p => cases h
  | again c inc b => exact ⟨c, inc, b, hx⟩

theorem shut_leave (k : List (Todo σ)) (h : Shut k) : Shut (Todo.leave k) := by
  induction k with
  | nil => exact h
  | cons x k ih => cases x with
    | run p => exact ih h.2
    | again c inc b => exact h.2

theorem shut_skipTo (k : List (Todo σ)) (h : Shut k) : Shut (Todo.skipTo k) := by
  induction k with
  | nil => exact h
  | cons x k ih => cases x with
    | run p => exact ih h.2
    | again c inc b => exact h

/-! ### The thread and the function side by side -/

def timed : Wait σ → Bool
  | .condTimeout .. | .condTimeoutDelay .. => true
  | _ => false

/-- At work. -/
structure Work (W : Raw σ) (last now : Nat) (h : Thread σ) (x : List (Frame σ) × St σ) : Prop where
  waits : h.waits = none
  todo : x.1 = imp last h.stack
  user : x.2.user = h.user
  delay : x.2.task.delay = h.delay
  flag : x.2.task.timeoutRunning = false
  tick : x.2.task.lastRun = now
  placed : Placed W last h.stack
  shut : Shut h.stack

/-- Waiting. -/
structure Idle (W : Raw σ) (last : Nat) (w : Wait σ) (since : Nat) (h : Thread σ) (s : St σ) : Prop where
  waits : h.waits = some (w, since)
  found : find s.entry W [] = some (after w (imp last h.stack))
  user : s.user = h.user
  delay : s.task.delay = h.delay
  flag : s.task.timeoutRunning = timed w
  since : timed w = true → s.task.timeout = since
  placed : Placed W last h.stack
  shut : Shut h.stack

/-- At the end. -/
structure Over (W : Raw σ) (h : Thread σ) (s : St σ) : Prop where
  waits : h.waits = none
  stack : h.stack = []
  lost : find s.entry W [] = none
  user : s.user = h.user
  delay : s.task.delay = h.delay
  flag : s.task.timeoutRunning = false

/-- Between two calls. -/
def Between (W : Raw σ) (last : Nat) (h : Thread σ) (s : St σ) : Prop :=
  (∃ w since, Idle W last w since h s) ∨ Over W h s

theorem isTimeout_eq {t : Task} {since now : Nat} (h1 : t.lastRun = now) (h2 : t.timeout = since) (T : Nat) :
    t.isTimeout T = decide (elapsed since now > T % 4294967296) := by
  subst h1 h2; rfl

theorem ite_steps {c : Task → Test σ} {a b : Raw σ} {k : List (Frame σ)} {s : St σ} {r : Bool × σ} (h : c s.task s.user = r) (n : Nat) :
    steps (n + 1) (.run (.ite c a b) :: k, s) = steps n (.run (if r.1 then a else b) :: k, { s with user := r.2 }) := by
  subst h; rfl

theorem timeout_steps {c : Test σ} {T : σ → Nat} {k : List (Frame σ)} {s : St σ} {b : Bool} (h : s.task.isTimeout (T s.user) = b) {r : Bool × σ}
    (hr : (if b then (false, s.user) else ((!(c s.user).1), (c s.user).2)) = r) (n : Nat) :
    steps (n + 2) (.run (.seq (.unlessTimeout c T) .resetTimeout) :: k, s) =
      steps n (.run (if r.1 then .ret else .skip) :: .run .resetTimeout :: k, { s with user := r.2 }) := by
  show steps (n + 1) (.run (.unlessTimeout c T) :: .run .resetTimeout :: k, s) = _
  refine ite_steps ?_ n
  rw [← hr, ← h]

/-- After the label: the thread looks whether it may go on. -/
theorem looks {W : Raw σ} {last now since : Nat} {w : Wait σ} {k : List (Todo σ)} {d : Nat} {s : St σ} {g : Bool × σ}
    (hg : Go w since now s.user = g)
    (h1 : s.task.lastRun = now) (h2 : find s.entry W [] = some (after w (imp last k))) (h3 : s.task.delay = d)
    (h4 : s.task.timeoutRunning = timed w) (h5 : timed w = true → s.task.timeout = since) (h6 : Placed W last k) (h7 : Shut k) :
    ∃ n x, steps n (after w (imp last k), s) = x ∧
      (Work W last now ⟨k, if g.1 then none else some (w, since), d, g.2⟩ x ∨
        ∃ s', x = ([], s') ∧ Idle W last w since ⟨k, if g.1 then none else some (w, since), d, g.2⟩ s') := by
  cases w with
  | yield | delay _ =>
    simp only [Go] at hg; subst hg
    exact ⟨0, _, rfl, .inl ⟨rfl, rfl, rfl, h3, h4, h1, h6, h7⟩⟩
  | cond c | condDelay c _ =>
    simp only [Go] at hg
    refine ⟨2, _, rfl, ?_⟩
    simp only [after, Raw.unless, steps, step, hg]
    by_cases hc : g.1 = true
    · simp only [hc, Bool.not_true, Bool.false_eq_true, if_false, Raw.skip]
      exact .inl ⟨rfl, rfl, rfl, h3, h4, h1, h6, h7⟩
    · simp only [hc, Bool.not_false, if_true]
      exact .inr ⟨_, rfl, rfl, h2, rfl, h3, h4, h5, h6, h7⟩
  | condTimeout c T | condTimeoutDelay c T _ =>
    have he := isTimeout_eq h1 (h5 rfl) (T s.user)
    simp only [Go] at hg
    generalize elapsed since now = e at he hg
    by_cases ht : e > T s.user % 4294967296
    · rw [if_pos ht] at hg; subst hg
      rw [decide_eq_true ht] at he
      refine ⟨4, _, timeout_steps he rfl 2, .inl ?_⟩
      exact ⟨rfl, rfl, rfl, h3, rfl, h1, h6, h7⟩
    · rw [if_neg ht] at hg
      rw [decide_eq_false ht] at he
      by_cases hc : g.1 = true
      · refine ⟨4, _, timeout_steps (r := (false, g.2)) he (by simp [hg, hc]) 2, .inl ?_⟩
        simp only [hc, if_true]
        exact ⟨rfl, rfl, rfl, h3, rfl, h1, h6, h7⟩
      · refine ⟨3, _, timeout_steps (r := (true, g.2)) he (by simp [hg, hc]) 1, .inr ?_⟩
        simp only [hc, Bool.false_eq_true, if_false]
        exact ⟨_, rfl, rfl, h2, rfl, h3, h4, h5, h6, h7⟩

theorem thread_looks {w : Wait σ} (hp : pauses w = false) {now l d : Nat} {k : List (Todo σ)} {u : σ} {g : Bool × σ} (hg : Go w now now u = g) :
    Thread.step now ⟨.run (.wait l w) :: k, none, d, u⟩ = ⟨k, if g.1 then none else some (w, now), rest w u d, g.2⟩ := by
  subst hg
  simp only [Thread.step, hp, Bool.false_eq_true, if_false]

/-- Up to the label. -/
def arrive (l : Nat) (w : Wait σ) (s : St σ) : St σ :=
  { s with
    task := { s.task with
      delay := rest w s.user s.task.delay, timeoutRunning := timed w, timeout := if timed w then s.task.lastRun else s.task.timeout }
    entry := l % 256 }

theorem arrives (l : Nat) (w : Wait σ) (hp : pauses w = false) (k : List (Frame σ)) (s : St σ) (hf : s.task.timeoutRunning = false) :
    ∃ n, steps (n + 1) (.run (w.expand l) :: k, s) = (after w k, arrive l w s) := by
  obtain ⟨⟨dl, to, fl, lr⟩, e, u⟩ := s
  simp only at hf
  subst hf
  cases w with
  | yield | delay _ => cases hp
  | cond c | condDelay c dd => exact ⟨5, rfl⟩
  | condTimeout c T | condTimeoutDelay c T dd => exact ⟨7, rfl⟩

/-- A step of the thread is some steps of the function. -/
theorem stepping {W : Raw σ} {last now : Nat} {h : Thread σ} {x : List (Frame σ) × St σ} (i : Work W last now h x)
    (hne : h.stack ≠ []) :
    ∃ n y, steps (n + 1) x = y ∧ (Work W last now (h.step now) y ∨
      ∃ w s', y = ([], s') ∧ Idle W last w now (h.step now) s') := by
  obtain ⟨f, s⟩ := x
  obtain ⟨stack, waits, d, u⟩ := h
  obtain ⟨i1, i2, i3, i4, i5, i6, i7, i8⟩ := i
  simp only at i1 i2 i3 i4 i5 i6 i7 i8 hne
  subst i1 i2 i3
  match stack, hne with
  | .again c inc b :: k, _ =>
    exact ⟨0, _, rfl, .inl ⟨rfl, rfl, rfl, i4, i5, i6, ⟨⟨fun l hl => ⟨(i7.1.1 l hl).1, (i7.1.1 l hl).2⟩, i7.1.2⟩, i7.2⟩, ⟨i8.1, i8.2⟩⟩⟩
  | .run p :: k, _ =>
    cases p with
    | act g => exact ⟨0, _, rfl, .inl ⟨rfl, rfl, rfl, i4, i5, i6, i7.2, i8.2⟩⟩
    | setDelay g => exact ⟨0, _, rfl, .inl ⟨rfl, rfl, rfl, rfl, i5, i6, i7.2, i8.2⟩⟩
    | seq a b =>
      obtain ⟨⟨j1, j2⟩, j3⟩ := i7
      simp only [labels, List.nodup_append] at j2
      refine ⟨0, _, rfl, .inl ⟨rfl, rfl, rfl, i4, i5, i6, ⟨⟨fun l hl => ?_, j2.1⟩, ⟨fun l hl => ?_, j2.2.1⟩, j3⟩, ?_, i8.1.2, i8.2⟩⟩
      · have := j1 l (by simp [labels, hl])
        refine ⟨this.1, this.2.trans ?_⟩
        obtain ⟨y, hy⟩ := find_some a hl (imp last (.run b :: k))
        rw [hy]
        show (find l a.expand (imp last (.run b :: k))).or _ = _
        rw [hy]; rfl
      · have := j1 l (by simp [labels, hl])
        refine ⟨this.1, this.2.trans ?_⟩
        show (find l a.expand _).or (find l b.expand (imp last k)) = _
        rw [find_none a (fun ha => j2.2.2 l ha l hl rfl)]; rfl
      · have := i8.1.1
        simpa using this
    | ite c a b =>
      obtain ⟨⟨j1, j2⟩, j3⟩ := i7
      simp only [labels, List.nodup_append] at j2
      refine ⟨0, _, rfl, .inl ⟨rfl, ?_, rfl, i4, i5, i6, ⟨⟨fun l hl => ?_, ?_⟩, j3⟩, ?_, i8.2⟩⟩
      · simp only [steps, step, imp, List.map_cons, cor, List.cons_append, Prog.expand, Thread.step]
        by_cases hc : (c s.user).1 = true <;> simp [hc]
      · by_cases hc : (c s.user).1 = true
        · simp only [hc, if_true] at hl ⊢
          have := j1 l (by simp [labels, hl])
          refine ⟨this.1, this.2.trans ?_⟩
          obtain ⟨y, hy⟩ := find_some a hl (imp last k)
          rw [hy]
          show (find l a.expand (imp last k)).or _ = _
          rw [hy]; rfl
        · simp only [hc, Bool.false_eq_true, if_false] at hl ⊢
          have := j1 l (by simp [labels, hl])
          refine ⟨this.1, this.2.trans ?_⟩
          show (find l a.expand _).or (find l b.expand (imp last k)) = _
          rw [find_none a (fun ha => j2.2.2 l ha l hl rfl)]; rfl
      · by_cases hc : (c s.user).1 = true
        · simp only [hc, if_true]; exact j2.1
        · simp only [hc, Bool.false_eq_true, if_false]; exact j2.2.1
      · by_cases hc : (c s.user).1 = true
        · simp only [hc, if_true]; exact i8.1.1
        · simp only [hc, Bool.false_eq_true, if_false]; exact i8.1.2
    | loop c inc b =>
      refine ⟨0, _, rfl, .inl ⟨rfl, ?_, rfl, i4, i5, i6, ?_, ?_⟩⟩
      · simp only [steps, step, imp, List.map_cons, cor, List.cons_append, Prog.expand, Thread.step]
        by_cases hc : (c s.user).1 = true <;> simp [hc, cor]
      · simp only [Thread.step]
        split
        · exact ⟨i7.1, i7.1, i7.2⟩
        · exact i7.2
      · simp only [Thread.step]
        split
        · exact ⟨by show Closed (true || _) b; exact i8.1, i8.1, i8.2⟩
        · exact i8.2
    | brk =>
      refine ⟨0, _, rfl, .inl ⟨rfl, leave_imp last k (any_again i8.1), rfl, i4, i5, i6, placed_leave k i7.2, shut_leave k i8.2⟩⟩
    | cont =>
      refine ⟨0, _, rfl, .inl ⟨rfl, skipTo_imp last k (any_again i8.1), rfl, i4, i5, i6, placed_skipTo k i7.2, shut_skipTo k i8.2⟩⟩
    | wait l w =>
      obtain ⟨⟨j1, j2⟩, j3⟩ := i7
      obtain ⟨hl, hf⟩ := j1 l (by simp [labels])
      simp only [Prog.expand] at hf
      rw [find_wait] at hf
      have e : l % 256 = l := Nat.mod_eq_of_lt hl
      by_cases hp : pauses w = true
      · cases w with
        | yield =>
          exact ⟨3, _, rfl, .inr ⟨_, _, rfl, rfl, by show find (l % 256) W [] = _; rw [e]; exact hf, rfl, i4, i5, by simp [timed], j3, i8.2⟩⟩
        | delay dd =>
          exact ⟨5, _, rfl, .inr ⟨_, _, rfl, rfl, by show find (l % 256) W [] = _; rw [e]; exact hf, rfl, rfl, i5, by simp [timed], j3, i8.2⟩⟩
        | _ => cases hp
      · have hp : pauses w = false := by simpa using hp
        obtain ⟨m, hm⟩ := arrives l w hp (imp last k) s i5
        obtain ⟨n, y, hy, hr⟩ := looks (W := W) (last := last) (now := now) (since := now) (w := w) (k := k) (s := arrive l w s)
          (d := rest w s.user d) (g := Go w now now s.user) rfl i6 (by simpa [e, arrive] using hf) (by rw [← i4]; rfl) rfl
          (fun ht => by simp only [arrive, ht, if_true]; exact i6) j3 i8.2
        refine ⟨m + n, y, ?_, ?_⟩
        · rw [show m + n + 1 = (m + 1) + n by omega, steps_add]
          show steps n (steps (m + 1) (.run (w.expand l) :: imp last k, s)) = y
          rw [hm]; exact hy
        · rw [thread_looks hp rfl]
          exact hr.imp id fun ⟨s', h1, h2⟩ => ⟨w, s', h1, h2⟩

/-! ### Calls and turns -/

theorem thread_rests {now : Nat} {h : Thread σ} (hr : h.Rests) : h.step now = h := by
  obtain ⟨stack, waits, d, u⟩ := h
  cases waits with
  | some w => rfl
  | none =>
    have : stack = [] := hr.resolve_left (fun h => h rfl)
    subst this; rfl

theorem thread_steps_rest {now : Nat} {h : Thread σ} (hr : h.Rests) (n : Nat) : Thread.steps now n h = h := by
  induction n with
  | zero => rfl
  | succ n ih => show Thread.steps now n (h.step now) = h; rw [thread_rests hr]; exact ih

theorem Idle.rests {W : Raw σ} {last since : Nat} {w : Wait σ} {h : Thread σ} {s : St σ} (i : Idle W last w since h s) : h.Rests :=
  .inl (by rw [i.waits]; simp)

theorem Between.rests {W : Raw σ} {last : Nat} {h : Thread σ} {s : St σ} (i : Between W last h s) : h.Rests := by
  obtain ⟨w, since, i⟩ | i := i
  · exact i.rests
  · exact .inr i.stack

/-- The thread is at the end; the function gets there with the next step. -/
theorem ending {W : Raw σ} {last now : Nat} (hb : last < 256) (hW : find last W [] = none) {h : Thread σ} {x : List (Frame σ) × St σ}
    (i : Work W last now h x) (he : h.stack = []) : ∃ s', steps 1 x = ([], s') ∧ Over W h s' := by
  obtain ⟨f, s⟩ := x
  obtain ⟨i1, i2, i3, i4, i5, i6, i7, i8⟩ := i
  simp only at i2
  subst i2
  rw [he]
  exact ⟨_, rfl, i1, he, by simpa [Nat.mod_eq_of_lt hb] using hW, i3, i4, i5⟩

theorem forward {W : Raw σ} {last now : Nat} (hb : last < 256) (hW : find last W [] = none) (n : Nat) :
    ∀ {h : Thread σ} {x : List (Frame σ) × St σ}, Work W last now h x → (Thread.steps now n h).Rests →
      ∃ m s', steps m x = ([], s') ∧ Between W last (Thread.steps now n h) s' := by
  induction n with
  | zero =>
    intro h x i hr
    obtain ⟨s', h1, h2⟩ := ending hb hW i (hr.resolve_left (fun e => e i.waits))
    exact ⟨1, s', h1, .inr h2⟩
  | succ n ih =>
    intro h x i hr
    by_cases he : h.stack = []
    · have hr' : h.Rests := .inr he
      rw [thread_steps_rest hr']
      obtain ⟨s', h1, h2⟩ := ending hb hW i he
      exact ⟨1, s', h1, .inr h2⟩
    · obtain ⟨k, y, hy, j | ⟨w, s', e, j⟩⟩ := stepping i he
      · obtain ⟨m, s', h1, h2⟩ := ih j hr
        exact ⟨k + 1 + m, s', by rw [steps_add, hy]; exact h1, h2⟩
      · refine ⟨k + 1, s', by rw [hy, e], ?_⟩
        show Between W last (Thread.steps now n (h.step now)) s'
        rw [thread_steps_rest j.rests]
        exact .inl ⟨w, now, j⟩

theorem backward {W : Raw σ} {last now : Nat} (m : Nat) :
    ∀ {h : Thread σ} {x : List (Frame σ) × St σ} {s' : St σ}, Work W last now h x → steps m x = ([], s') →
      ∃ n, (Thread.steps now n h).Rests := by
  induction m using Nat.strongRecOn with
  | ind m ih =>
    intro h x s' i hs
    by_cases he : h.stack = []
    · exact ⟨0, .inr he⟩
    · obtain ⟨k, y, hy, j | ⟨w, s'', e, j⟩⟩ := stepping i he
      · by_cases hk : k + 1 ≤ m
        · have : steps (m - (k + 1)) y = ([], s') := by
            rw [← hy, ← steps_add, Nat.add_sub_cancel' hk]; exact hs
          obtain ⟨n, hn⟩ := ih (m - (k + 1)) (by omega) j this
          exact ⟨n + 1, hn⟩
        · exfalso
          have : y = ([], s') := by
            rw [← hy, show k + 1 = m + (k + 1 - m) by omega, steps_add, hs, steps_done]
          have h2 := j.todo
          rw [this] at h2
          simp [imp] at h2
      · exact ⟨1, j.rests⟩

theorem steps_det {m n : Nat} {x : List (Frame σ) × St σ} {s t : St σ} (h1 : steps m x = ([], s)) (h2 : steps n x = ([], t)) : s = t := by
  have : ∀ a b : Nat, ∀ s t, a ≤ b → steps a x = ([], s) → steps b x = ([], t) → s = t := by
    intro a b s t hab ha hb
    rw [show b = a + (b - a) by omega, steps_add, ha, steps_done] at hb
    simpa using hb
  by_cases h : m ≤ n
  · exact this m n s t h h1 h2
  · exact (this n m t s (by omega) h2 h1).symm

theorem call_det {W : Raw σ} {t : Nat} {s a b : St σ} (h1 : Call W t s a) (h2 : Call W t s b) : a = b := by
  obtain ⟨m, h1⟩ := h1
  obtain ⟨n, h2⟩ := h2
  exact steps_det h1 h2

theorem calls_det {W : Raw σ} {xs : List (Nat × (σ → σ))} {s a b : St σ} (h1 : Calls W xs s a) (h2 : Calls W xs s b) : a = b := by
  induction h1 with
  | nil => cases h2; rfl
  | cons h _ ih =>
    cases h2 with
    | cons h' h2 => rw [call_det h h'] at ih; exact ih h2

/-- The function is about to work when the thread is. -/
theorem working {W : Raw σ} {last now : Nat} (hb : last < 256) (hW : find last W [] = none) {h : Thread σ} {x : List (Frame σ) × St σ}
    (i : Work W last now h x) :
    (∀ h', (∃ n, Thread.steps now n h = h' ∧ h'.Rests) → ∃ m s', steps m x = ([], s') ∧ Between W last h' s') ∧
    (∀ s', (∃ m, steps m x = ([], s')) → ∃ n h', Thread.steps now n h = h' ∧ h'.Rests ∧ Between W last h' s') := by
  constructor
  · rintro h' ⟨n, rfl, hr⟩
    exact forward hb hW n i hr
  · rintro s' ⟨m, hm⟩
    obtain ⟨n, hn⟩ := backward m i hm
    obtain ⟨m', s'', h1, h2⟩ := forward hb hW n i hn
    have e := steps_det hm h1
    subst e
    exact ⟨n, _, rfl, hn, h2⟩

theorem wake_eq {now since : Nat} {w : Wait σ} {h : Thread σ} (hw : h.waits = some (w, since)) {g : Bool × σ} (hg : Go w since now h.user = g) :
    h.wake now = ⟨h.stack, if g.1 then none else some (w, since), h.delay, g.2⟩ := by
  subst hg
  simp only [Thread.wake, hw]

/-- A call of `run()` is a turn of the thread. -/
theorem call_turn {W : Raw σ} {last : Nat} (hb : last < 256) (hW : find last W [] = none) (now : Nat) {h : Thread σ} {s : St σ}
    (i : Between W last h s) :
    (∀ h', h.Turn now h' → ∃ s', Call W now s s' ∧ Between W last h' s') ∧
    (∀ s', Call W now s s' → ∃ h', h.Turn now h' ∧ Between W last h' s') := by
  obtain ⟨w, since, i⟩ | i := i
  · obtain ⟨n, x, hx, j⟩ := looks (W := W) (last := last) (now := now) (since := since) (w := w) (k := h.stack)
      (s := { s with task := s.task.setLastRun now }) (d := h.delay) (g := Go w since now s.user) rfl rfl i.found i.delay i.flag i.since
      i.placed i.shut
    rw [← wake_eq i.waits (by rw [i.user])] at j
    have hc : ∀ s', Call W now s s' ↔ ∃ m, steps m x = ([], s') := by
      intro s'
      have e : (find s.entry W []).getD [] = after w (imp last h.stack) := by rw [i.found]; rfl
      show (∃ m, steps m ((find s.entry W []).getD [], { s with task := s.task.setLastRun now }) = ([], s')) ↔ _
      rw [e]
      constructor
      · rintro ⟨m, hm⟩
        refine ⟨m, ?_⟩
        rw [← hx, ← steps_add, Nat.add_comm, steps_add, hm, steps_done]
      · rintro ⟨m, hm⟩
        exact ⟨n + m, by rw [steps_add, hx]; exact hm⟩
    obtain j | ⟨s', e, j⟩ := j
    · obtain ⟨f1, f2⟩ := working hb hW j
      constructor
      · rintro h' ⟨m, hm, hr⟩
        obtain ⟨m', s', h1, h2⟩ := f1 h' ⟨m, hm, hr⟩
        exact ⟨s', (hc s').2 ⟨m', h1⟩, h2⟩
      · intro s' hs'
        obtain ⟨m, h', h1, h2, h3⟩ := f2 s' ((hc s').1 hs')
        exact ⟨h', ⟨m, h1, h2⟩, h3⟩
    · have hc' : ∀ s'', Call W now s s'' ↔ s'' = s' := by
        intro s''
        rw [hc, e]
        constructor
        · rintro ⟨m, hm⟩; rw [steps_done] at hm; simpa using hm.symm
        · rintro rfl; exact ⟨0, rfl⟩
      constructor
      · rintro h' ⟨m, hm, hr⟩
        rw [thread_steps_rest j.rests] at hm
        subst hm
        exact ⟨s', (hc' s').2 rfl, .inl ⟨w, since, j⟩⟩
      · intro s'' hs''
        rw [(hc' s'').1 hs'']
        exact ⟨_, ⟨0, rfl, j.rests⟩, .inl ⟨w, since, j⟩⟩
  · have e : h.wake now = h := by simp only [Thread.wake, i.waits]
    have hr : h.Rests := .inr i.stack
    have hc : ∀ s', Call W now s s' ↔ s' = { s with task := s.task.setLastRun now } := by
      intro s'
      have e : (find s.entry W []).getD [] = [] := by rw [i.lost]; rfl
      show (∃ m, steps m ((find s.entry W []).getD [], { s with task := s.task.setLastRun now }) = ([], s')) ↔ _
      rw [e]
      constructor
      · rintro ⟨m, hm⟩; rw [steps_done] at hm; simpa using hm.symm
      · rintro rfl; exact ⟨0, rfl⟩
    have ov : Over W h { s with task := s.task.setLastRun now } := ⟨i.waits, i.stack, i.lost, i.user, i.delay, i.flag⟩
    constructor
    · rintro h' ⟨m, hm, -⟩
      rw [e, thread_steps_rest hr] at hm
      subst hm
      exact ⟨_, (hc _).2 rfl, .inr ov⟩
    · intro s' hs'
      rw [(hc s').1 hs']
      exact ⟨h, ⟨0, e, hr⟩, .inr ov⟩

/-- The world does something between two calls. -/
theorem Between.world {W : Raw σ} {last : Nat} {h : Thread σ} {s : St σ} (i : Between W last h s) (g : σ → σ) :
    Between W last { h with user := g h.user } { s with user := g s.user } := by
  obtain ⟨w, since, i⟩ | i := i
  · exact .inl ⟨w, since, i.waits, i.found, by show g _ = g _; rw [i.user], i.delay, i.flag, i.since, i.placed, i.shut⟩
  · exact .inr ⟨i.waits, i.stack, i.lost, by show g _ = g _; rw [i.user], i.delay, i.flag⟩

theorem calls_turns {W : Raw σ} {last : Nat} (hb : last < 256) (hW : find last W [] = none) (xs : List (Nat × (σ → σ))) :
    ∀ {h : Thread σ} {s : St σ}, Between W last h s →
    (∀ h', Thread.Turns xs h h' → ∃ s', Calls W xs s s' ∧ Between W last h' s') ∧
    (∀ s', Calls W xs s s' → ∃ h', Thread.Turns xs h h' ∧ Between W last h' s') := by
  induction xs with
  | nil =>
    intro h s i
    exact ⟨fun h' t => by cases t; exact ⟨s, .nil, i⟩, fun s' t => by cases t; exact ⟨h, .nil, i⟩⟩
  | cons x xs ih =>
    intro h s i
    obtain ⟨t, g⟩ := x
    obtain ⟨c1, c2⟩ := call_turn hb hW t (i.world g)
    constructor
    · intro h' ht
      cases ht with
      | cons t1 t2 =>
        obtain ⟨s1, d1, j⟩ := c1 _ t1
        obtain ⟨s2, d2, j2⟩ := (ih j).1 _ t2
        exact ⟨s2, .cons d1 d2, j2⟩
    · intro s' ht
      cases ht with
      | cons t1 t2 =>
        obtain ⟨s1, d1, j⟩ := c2 _ t1
        obtain ⟨s2, d2, j2⟩ := (ih j).2 _ t2
        exact ⟨s2, .cons d1 d2, j2⟩

/-- The first call. -/
theorem first_call {first last : Nat} {p : Prog σ} (hg : Good first last p) {t : Task} (ht : t.timeoutRunning = false) (now : Nat) (u : σ) :
    find last (whole first last p.expand) [] = none ∧
    ∃ x, Work (whole first last p.expand) last now (Thread.fresh p t.delay u) x ∧
      ∀ s', Call (whole first last p.expand) now (init first t u) s' ↔ ∃ m, steps m x = ([], s') := by
  obtain ⟨hn, hb, hc⟩ := hg
  simp only [List.nodup_cons, List.mem_cons, not_or] at hn
  obtain ⟨⟨n1, n2⟩, n3, n4⟩ := hn
  have hf : first % 256 = first := Nat.mod_eq_of_lt (hb first (by simp))
  have fl : find last (whole first last p.expand) [] = none := by
    simp [whole, find, n1, find_none p n3]
  refine ⟨fl, (imp last [.run p], { init first t u with task := t.setLastRun now }), ⟨rfl, rfl, rfl, rfl, ht, rfl, ⟨⟨?_, n4⟩, trivial⟩, ⟨hc, trivial⟩⟩, ?_⟩
  · intro l hl
    refine ⟨hb l (by simp [hl]), ?_⟩
    have : first ≠ l := fun e => n2 (e ▸ hl)
    simp only [whole, find, if_neg this, Option.none_or, Option.or_none]
    rfl
  · intro s'
    have e : (find (init first t u).entry (whole first last p.expand) []).getD [] = [.run (.seq p.expand (.setEntry last))] := by
      show (find (first % 256) _ _).getD [] = _
      rw [hf]; simp [whole, find]
    show (∃ m, steps m ((find (init first t u).entry (whole first last p.expand) []).getD [], _) = ([], s')) ↔ _
    rw [e]
    constructor
    · rintro ⟨m, hm⟩
      refine ⟨m, ?_⟩
      have : steps (1 + m) ([Frame.run (.seq p.expand (.setEntry last))], { init first t u with task := t.setLastRun now }) = ([], s') := by
        rw [Nat.add_comm, steps_add]
        show steps 1 (steps m _) = _
        rw [show steps m ([Frame.run (.seq p.expand (.setEntry last))], { init first t u with task := t.setLastRun now }) = ([], s') from hm, steps_done]
      rw [steps_add] at this
      exact this
    · rintro ⟨m, hm⟩
      exact ⟨1 + m, by rw [steps_add]; exact hm⟩

end Verif.Duff
