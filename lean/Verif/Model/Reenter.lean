import Verif.Model.Task

/-!
# Model of the reentrant task macros of `cicada/task.h`

A `run()` body is a straight line of statements. A user action is opaque (it is only logged, and may
change nothing the macros depend on); loops around the macros are in `Verif/Model/Duff.lean`. Conditions are
arbitrary: each call of `run()` comes with an arbitrary valuation of the conditions.
-/

namespace Verif

/-- Statements of a `run()` body between `E_BEGIN_TASK` and `E_END_TASK`. -/
inductive Stmt where
  /-- a user action -/
  | act (a : Nat)
  /-- a call of `setDelay` -/
  | setDelay (d : Nat)
  /-- task.h:62-66, `E_REENTER_YIELD()` -/
  | yield
  /-- task.h:76-81, `E_REENTER_DELAY(d)` -/
  | delay (d : Nat)
  /-- task.h:91-97, `E_REENTER_COND(c)` -/
  | cond
  /-- task.h:109-115, `E_REENTER_COND_DELAY(c, d)` -/
  | condDelay (d : Nat)
  /-- task.h:126-135, `E_REENTER_COND_TIMEOUT(c, T)` -/
  | condTimeout (T : Nat)
  /-- task.h:147-157, `E_REENTER_COND_TIMEOUT_DELAY(c, T, d)` -/
  | condTimeoutDelay (T d : Nat)
deriving Repr, DecidableEq

namespace Stmt

/-- The statement contains a `case` label. -/
def isMacro : Stmt → Bool
  | act _ => false
  | setDelay _ => false
  | _ => true

end Stmt

/-- State of one task object together with the static `entrypoint` of its class (task.h:43).
`log` (statements completed, with the number of the `run()` call) and `out` (user actions performed) are
ghost outputs. -/
structure RTask where
  task : Task
  entry : Nat
  run : Nat
  log : List (Nat × Nat)
  out : List Nat
deriving Repr, DecidableEq

namespace RTask

/-- Ghost: statement `p` is complete. -/
def note (s : RTask) (p : Nat) : RTask := { s with log := s.log ++ [(p, s.run)] }

/-- `entrypoint = LABEL` with `static uint8_t entrypoint` (task.h:43): the label is reduced modulo 256. -/
def setEntry (s : RTask) (label : Nat) : RTask := { s with entry := label % 256 }

/-- Straight-line execution from statement `p` on (`rest` are the statements from `p`), task.h:40-157.
`lab 0` is the label of `E_BEGIN_TASK`, `lab (p+1)` the `__COUNTER__` value of statement `p`, and that of
`E_END_TASK` for `p` = number of statements. -/
def exec (lab : Nat → Nat) (env : Nat → Bool) : Nat → List Stmt → RTask → RTask
  | p, [], s => s.setEntry (lab (p + 1))
  | p, .act a :: r, s => exec lab env (p + 1) r ({ s with out := s.out ++ [a] }.note p)
  | p, .setDelay d :: r, s => exec lab env (p + 1) r ({ s with task := s.task.setDelay d }.note p)
  | p, .yield :: _, s => s.setEntry (lab (p + 1))
  | p, .delay d :: _, s => { s with task := s.task.setDelay d }.setEntry (lab (p + 1))
  | p, .cond :: r, s =>
    let s := { s with task := s.task.setDelay 0 }.setEntry (lab (p + 1))
    if !env p then s else exec lab env (p + 1) r (s.note p)
  | p, .condDelay d :: r, s =>
    let s := { s with task := s.task.setDelay d }.setEntry (lab (p + 1))
    if !env p then s else exec lab env (p + 1) r (s.note p)
  | p, .condTimeout T :: r, s =>
    let s := { s with task := s.task.startTimeout.setDelay 0 }.setEntry (lab (p + 1))
    if !s.task.isTimeout T && !env p then s
    else exec lab env (p + 1) r ({ s with task := s.task.resetTimeout }.note p)
  | p, .condTimeoutDelay T d :: r, s =>
    let s := { s with task := s.task.startTimeout.setDelay d }.setEntry (lab (p + 1))
    if !s.task.isTimeout T && !env p then s
    else exec lab env (p + 1) r ({ s with task := s.task.resetTimeout }.note p)

/-- Execution from the `case` label inside statement `p`, `r` being the statements after it. -/
def enter (lab : Nat → Nat) (env : Nat → Bool) (p : Nat) (st : Stmt) (r : List Stmt) (s : RTask) :
    RTask :=
  match st with
  | .act _ => s
  | .setDelay _ => s
  | .yield => exec lab env (p + 1) r (s.note p)
  | .delay _ => exec lab env (p + 1) r (s.note p)
  | .cond => if !env p then s else exec lab env (p + 1) r (s.note p)
  | .condDelay _ => if !env p then s else exec lab env (p + 1) r (s.note p)
  | .condTimeout T =>
    if !s.task.isTimeout T && !env p then s
    else exec lab env (p + 1) r ({ s with task := s.task.resetTimeout }.note p)
  | .condTimeoutDelay T _ =>
    if !s.task.isTimeout T && !env p then s
    else exec lab env (p + 1) r ({ s with task := s.task.resetTimeout }.note p)

/-- The `switch (entrypoint)`: the statement with case label `e`. -/
def search (lab : Nat → Nat) (e : Nat) : Nat → List Stmt → Option (Nat × Stmt × List Stmt)
  | _, [] => none
  | p, st :: r => if st.isMacro && lab (p + 1) == e then some (p, st, r) else search lab e (p + 1) r

/-- One call of `run()` by the scheduler (scheduler.cpp:38-39: `setLastRun(tick)`, then `run()`), with
the switch of task.h:44-45. -/
def call (lab : Nat → Nat) (body : List Stmt) (s : RTask) (x : Nat × (Nat → Bool)) : RTask :=
  let s := { s with task := s.task.setLastRun x.1 }
  let s :=
    if s.entry == lab 0 then exec lab x.2 0 body s
    else match search lab s.entry 0 body with
      | some (p, st, r) => enter lab x.2 p st r s
      | none => s
  { s with run := s.run + 1 }

/-- Any number of `run()` calls. -/
def calls (lab : Nat → Nat) (body : List Stmt) (s : RTask) : List (Nat × (Nat → Bool)) → RTask
  | [] => s
  | x :: xs => calls lab body (call lab body s x) xs

/-- A newly constructed task, before any object of its class ran. -/
def init (lab : Nat → Nat) (t : Task) : RTask :=
  { task := t, entry := lab 0 % 256, run := 0, log := [], out := [] }

end RTask

/-- Two objects of the same class: `entrypoint` is a function-local static, so they share it. -/
structure RPair where
  a : RTask
  b : RTask

namespace RPair

/-- A call of `run()` on the first (`true`) or the second object; `entry` is shared. -/
def call (lab : Nat → Nat) (body : List Stmt) (s : RPair) (first : Bool) (x : Nat × (Nat → Bool)) :
    RPair :=
  if first then
    let a := RTask.call lab body s.a x
    { a := a, b := { s.b with entry := a.entry } }
  else
    let b := RTask.call lab body s.b x
    { a := { s.a with entry := b.entry }, b := b }

end RPair
end Verif
