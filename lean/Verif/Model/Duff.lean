import Verif.Model.Task

/-!
# Model of the reentrant task macros of `cicada/task.h`, with control structures around them

The macros put a `switch` around the body of `run()`, whose `case` labels are inside the loops and branches of the body
("Duff's device"). Here the text after macro expansion (`Raw`) is executed as C does it: the `switch` jumps into the middle of
the nested statements, and execution goes on from there.

`σ` is everything the task and the rest of the world have apart from the members of `Task`: members, globals, static variables.
Variables local to `run()` do not survive a `return` and must not be used across a macro; they are not modelled. Neither are
calls of functions that contain macros, nor a `switch` of the user's own around a macro.
-/

namespace Verif.Duff

variable {σ : Type}

/-- An expression with a truth value; it may have side effects. -/
abbrev Test (σ : Type) := σ → Bool × σ

/-- The macros of task.h with which a task waits. Arguments are expressions, evaluated where the macros use them. -/
inductive Wait (σ : Type) where
  /-- task.h:62-66, `E_REENTER_YIELD()` -/
  | yield
  /-- task.h:76-81, `E_REENTER_DELAY(d)` -/
  | delay (d : σ → Nat)
  /-- task.h:91-97, `E_REENTER_COND(c)` -/
  | cond (c : Test σ)
  /-- task.h:109-115, `E_REENTER_COND_DELAY(c, d)` -/
  | condDelay (c : Test σ) (d : σ → Nat)
  /-- task.h:126-135, `E_REENTER_COND_TIMEOUT(c, T)` -/
  | condTimeout (c : Test σ) (T : σ → Nat)
  /-- task.h:147-157, `E_REENTER_COND_TIMEOUT_DELAY(c, T, d)` -/
  | condTimeoutDelay (c : Test σ) (T d : σ → Nat)

/-- The text of a `run()` function between `E_BEGIN_TASK` and `E_END_TASK`, as the user writes it. `label` is the value of
`__COUNTER__` where the macro is used. `loop c inc body` is `for (; c; inc) body`; `while` is a loop without `inc`. -/
inductive Prog (σ : Type) where
  | act (f : σ → σ)
  | setDelay (d : σ → Nat)
  | seq (a b : Prog σ)
  | ite (c : Test σ) (a b : Prog σ)
  | loop (c : Test σ) (inc : σ → σ) (body : Prog σ)
  | brk
  | cont
  | wait (label : Nat) (w : Wait σ)

/-- The text after macro expansion. Tests may also look at the members of `Task`. -/
inductive Raw (σ : Type) where
  | act (f : σ → σ)
  | setDelay (d : σ → Nat)
  | startTimeout
  | resetTimeout
  /-- `entrypoint = l;` -/
  | setEntry (l : Nat)
  /-- `case l:` -/
  | label (l : Nat)
  /-- `return;` -/
  | ret
  | seq (a b : Raw σ)
  | ite (c : Task → Test σ) (a b : Raw σ)
  | loop (c : Test σ) (inc : σ → σ) (body : Raw σ)
  | brk
  | cont

/-- The empty statement. -/
def Raw.skip : Raw σ := .act id

/-- task.h:96-97 and task.h:114-115: `if (!(COND)) return;` -/
def Raw.unless (c : Test σ) : Raw σ := .ite (fun _ s => let r := c s; (!r.1, r.2)) .ret .skip

/-- task.h:132-134 and task.h:154-156: `if (!isTimeout(TIMEOUT) && !(COND)) { return; }`. The condition is not evaluated after
the timeout. -/
def Raw.unlessTimeout (c : Test σ) (T : σ → Nat) : Raw σ :=
  .ite (fun t s => if t.isTimeout (T s) then (false, s) else let r := c s; (!r.1, r.2)) .ret .skip

/-- Expansion of the macros, statement by statement (line numbers at `Wait`). -/
def Wait.expand (l : Nat) : Wait σ → Raw σ
  | .yield => .seq (.setEntry l) (.seq .ret (.label l))
  | .delay d => .seq (.setDelay d) (.seq (.setEntry l) (.seq .ret (.label l)))
  | .cond c => .seq (.setDelay fun _ => 0) (.seq (.setEntry l) (.seq (.label l) (.unless c)))
  | .condDelay c d => .seq (.setDelay d) (.seq (.setEntry l) (.seq (.label l) (.unless c)))
  | .condTimeout c T =>
    .seq .startTimeout (.seq (.setDelay fun _ => 0) (.seq (.setEntry l) (.seq (.label l) (.seq (.unlessTimeout c T) .resetTimeout))))
  | .condTimeoutDelay c T d =>
    .seq .startTimeout (.seq (.setDelay d) (.seq (.setEntry l) (.seq (.label l) (.seq (.unlessTimeout c T) .resetTimeout))))

/-- Expansion of a body. -/
def Prog.expand : Prog σ → Raw σ
  | .act f => .act f
  | .setDelay d => .setDelay d
  | .seq a b => .seq a.expand b.expand
  | .ite c a b => .ite (fun _ => c) a.expand b.expand
  | .loop c inc body => .loop c inc body.expand
  | .brk => .brk
  | .cont => .cont
  | .wait l w => w.expand l

/-- task.h:40-45 and task.h:52-56: what is inside the braces of the `switch`, between `E_BEGIN_TASK` with label `first` and
`E_END_TASK` with label `last`. The `break` at the end is the end of the text. -/
def whole (first last : Nat) (body : Raw σ) : Raw σ := .seq (.label first) (.seq body (.setEntry last))

/-- What is left to do: statements, and loops whose body is being executed. -/
inductive Frame (σ : Type) where
  | run (r : Raw σ)
  | again (c : Test σ) (inc : σ → σ) (body : Raw σ)

/-- State: the task object, the static variable `entrypoint` of its `run()` function (task.h:43), everything else. -/
structure St (σ : Type) where
  task : Task
  entry : Nat
  user : σ

/-- `break`: leaves the innermost loop, or else the `switch` of the macros. -/
def leave : List (Frame σ) → List (Frame σ)
  | [] => []
  | .run _ :: k => leave k
  | .again .. :: k => k

/-- `continue`: goes to the end of the body of the innermost loop. -/
def skipTo : List (Frame σ) → List (Frame σ)
  | [] => []
  | .run _ :: k => skipTo k
  | .again c inc b :: k => .again c inc b :: k

/-- One step of execution. `run()` has returned when nothing is left to do. -/
def step : List (Frame σ) × St σ → List (Frame σ) × St σ
  | ([], s) => ([], s)
  | (.again c inc b :: k, s) => (.run (.loop c inc b) :: k, { s with user := inc s.user })
  | (.run r :: k, s) =>
    match r with
    | .act f => (k, { s with user := f s.user })
    | .setDelay d => (k, { s with task := s.task.setDelay (d s.user) })
    | .startTimeout => (k, { s with task := s.task.startTimeout })
    | .resetTimeout => (k, { s with task := s.task.resetTimeout })
    | .setEntry l => (k, { s with entry := l % 256 })
    | .label _ => (k, s)
    | .ret => ([], s)
    | .seq a b => (.run a :: .run b :: k, s)
    | .ite c a b => let r := c s.task s.user; (.run (if r.1 then a else b) :: k, { s with user := r.2 })
    | .loop c inc b => let r := c s.user; (if r.1 then .run b :: .again c inc b :: k else k, { s with user := r.2 })
    | .brk => (leave k, s)
    | .cont => (skipTo k, s)

/-- `n` steps. -/
def steps : Nat → List (Frame σ) × St σ → List (Frame σ) × St σ
  | 0, x => x
  | n + 1, x => steps n (step x)

/-- `switch (l)`: what is left to do after the jump to the label `l`. -/
def find (l : Nat) : Raw σ → List (Frame σ) → Option (List (Frame σ))
  | .label m, k => if m = l then some k else none
  | .seq a b, k => (find l a (.run b :: k)).or (find l b k)
  | .ite _ a b, k => (find l a k).or (find l b k)
  | .loop c inc b, k => find l b (.again c inc b :: k)
  | _, _ => none

/-- A call of `run()` at tick `t` (scheduler.cpp:38-39: `setLastRun(tick)`, then `run()`) ends, with state `s'`. Without a
matching label the `switch` does nothing. -/
def Call (text : Raw σ) (t : Nat) (s s' : St σ) : Prop :=
  let s := { s with task := s.task.setLastRun t }
  ∃ n, steps n ((find s.entry text []).getD [], s) = ([], s')

/-- Several calls, each at a tick and after the rest of the world has done something. -/
inductive Calls (text : Raw σ) : List (Nat × (σ → σ)) → St σ → St σ → Prop
  | nil {s} : Calls text [] s s
  | cons {t g xs s s1 s2} : Call text t { s with user := g s.user } s1 → Calls text xs s1 s2 → Calls text ((t, g) :: xs) s s2

/-- A new object, before any object of its class ran. -/
def init (first : Nat) (t : Task) (u : σ) : St σ := ⟨t, first % 256, u⟩

end Verif.Duff
