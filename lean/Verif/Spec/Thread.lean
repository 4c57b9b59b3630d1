import Verif.Model.Duff

/-!
# What the reentrant task macros are for: a task is a thread

The text of `run()` as the user writes it is executed by a thread with a stack of its own, which waits where a macro is. No
labels, no `switch`, no returning and entering again, no static variable.
-/

namespace Verif.Spec.Threads

open Duff (Test Wait Prog)

variable {σ : Type}

/-- What the thread has left to do. -/
inductive Todo (σ : Type) where
  | run (p : Prog σ)
  | again (c : Test σ) (inc : σ → σ) (body : Prog σ)

/-- The thread works (`none`), or waits since a tick. -/
structure Thread (σ : Type) where
  stack : List (Todo σ)
  waits : Option (Wait σ × Nat)
  delay : Nat
  user : σ

/-- Leave the innermost loop. -/
def Todo.leave : List (Todo σ) → List (Todo σ)
  | [] => []
  | .run _ :: k => leave k
  | .again .. :: k => k

/-- Go to the end of the body of the innermost loop. -/
def Todo.skipTo : List (Todo σ) → List (Todo σ)
  | [] => []
  | .run _ :: k => skipTo k
  | .again c inc b :: k => .again c inc b :: k

/-- Time from tick `a` to tick `b`, modulo 2^32. -/
def elapsed (a b : Nat) : Nat := (b + 4294967296 - a) % 4294967296

/-- May a thread that waits since tick `since` go on at tick `now`? The condition is looked at only if the time is not up. -/
def Go (w : Wait σ) (since now : Nat) (u : σ) : Bool × σ :=
  match w with
  | .yield | .delay _ => (true, u)
  | .cond c | .condDelay c _ => c u
  | .condTimeout c T | .condTimeoutDelay c T _ =>
    if elapsed since now > T u % 4294967296 then (true, u) else c u

/-- Does the thread let the other tasks run before it looks whether it may go on? -/
def pauses : Wait σ → Bool
  | .yield | .delay _ => true
  | _ => false

/-- The delay until it looks again. -/
def rest (w : Wait σ) (u : σ) (old : Nat) : Nat :=
  match w with
  | .yield => old
  | .delay d | .condDelay _ d | .condTimeoutDelay _ _ d => d u % 65536
  | .cond _ | .condTimeout .. => 0

/-- One step of a thread that works, at tick `now`. -/
def Thread.step (now : Nat) (h : Thread σ) : Thread σ :=
  match h.waits, h.stack with
  | some _, _ | _, [] => h
  | none, .again c inc b :: k => { h with stack := .run (.loop c inc b) :: k, user := inc h.user }
  | none, .run p :: k =>
    match p with
    | .act f => { h with stack := k, user := f h.user }
    | .setDelay d => { h with stack := k, delay := d h.user % 65536 }
    | .seq a b => { h with stack := .run a :: .run b :: k }
    | .ite c a b => { h with stack := .run (if (c h.user).1 then a else b) :: k, user := (c h.user).2 }
    | .loop c inc b =>
      { h with stack := if (c h.user).1 then .run b :: .again c inc b :: k else k, user := (c h.user).2 }
    | .brk => { h with stack := Todo.leave k }
    | .cont => { h with stack := Todo.skipTo k }
    | .wait _ w =>
      let h := { h with stack := k, delay := rest w h.user h.delay }
      if pauses w then { h with waits := some (w, now) }
      else { h with waits := if (Go w now now h.user).1 then none else some (w, now), user := (Go w now now h.user).2 }

/-- `n` steps. -/
def Thread.steps (now : Nat) : Nat → Thread σ → Thread σ
  | 0, h => h
  | n + 1, h => Thread.steps now n (h.step now)

/-- The thread waits or has come to its end. -/
def Thread.Rests (h : Thread σ) : Prop := h.waits ≠ none ∨ h.stack = []

/-- The scheduler lets the thread work at tick `now`: if it waits it looks whether it may go on. -/
def Thread.wake (now : Nat) (h : Thread σ) : Thread σ :=
  match h.waits with
  | none => h
  | some (w, since) =>
    { h with waits := if (Go w since now h.user).1 then none else some (w, since), user := (Go w since now h.user).2 }

/-- The thread works at tick `now` until it rests. -/
def Thread.Turn (now : Nat) (h h' : Thread σ) : Prop := ∃ n, Thread.steps now n (h.wake now) = h' ∧ h'.Rests

/-- Several turns, before each the rest of the world has done something. -/
inductive Thread.Turns : List (Nat × (σ → σ)) → Thread σ → Thread σ → Prop
  | nil {h} : Turns [] h h
  | cons {t g xs h h1 h2} : Thread.Turn t { h with user := g h.user } h1 → Turns xs h1 h2 → Turns ((t, g) :: xs) h h2

/-- A thread that has not begun to work. -/
def Thread.fresh (p : Prog σ) (delay : Nat) (u : σ) : Thread σ := ⟨[.run p], none, delay, u⟩

/-- The labels of the macros. -/
def labels : Prog σ → List Nat
  | .seq a b | .ite _ a b => labels a ++ labels b
  | .loop _ _ b => labels b
  | .wait l _ => [l]
  | _ => []

/-- `break` and `continue` only inside loops. -/
def Closed (inside : Bool) : Prog σ → Prop
  | .seq a b | .ite _ a b => Closed inside a ∧ Closed inside b
  | .loop _ _ b => Closed true b
  | .brk | .cont => inside = true
  | _ => True

/-- The compiler numbers all macros differently (`__COUNTER__`), and the numbers fit into a byte. -/
structure Good (first last : Nat) (p : Prog σ) : Prop where
  nodup : (first :: last :: labels p).Nodup
  byte : ∀ l ∈ first :: last :: labels p, l < 256
  closed : Closed false p

end Verif.Spec.Threads
