/-!
# Specification: bounded FIFO queue

Independent of the circular buffer: a list and a capacity.
-/

namespace Verif.Spec

/-- Calls of the circular buffer interface. -/
inductive QOp (α : Type) where
  | pushN (data : List α)
  | push (x : α)
  | pullN (n : Nat)
  | pull
  | peek
  | flush
  | bytesAvailable
  | spaceAvailable
  | isEmpty
  | isFull
  | size

/-- Results of these calls. -/
inductive QOut (α : Type) where
  | unit
  | num (n : Nat)
  | flag (b : Bool)
  | elem (x : α)
  | elems (xs : List α)
deriving DecidableEq

/-- A bounded queue: what a user expects. `none` if the documented precondition of a single-element
call ("does not check") is violated. -/
def fifoStep {α : Type} (cap : Nat) (q : List α) : QOp α → Option (List α × QOut α)
  | .pushN d => some (q ++ d.take (cap - q.length), .num (min d.length (cap - q.length)))
  | .push x => if q.length < cap then some (q ++ [x], .unit) else none
  | .pullN n => some (q.drop n, .elems (q.take n))
  | .pull => match q with
    | [] => none
    | x :: q => some (q, .elem x)
  | .peek => match q with
    | [] => none
    | x :: q => some (x :: q, .elem x)
  | .flush => some ([], .unit)
  | .bytesAvailable => some (q, .num q.length)
  | .spaceAvailable => some (q, .num (cap - q.length))
  | .isEmpty => some (q, .flag (decide (q.length = 0)))
  | .isFull => some (q, .flag (decide (q.length = cap)))
  | .size => some (q, .num cap)

/-- A whole history: final content and all results, `none` if a precondition was violated. -/
def fifoRun {α : Type} (cap : Nat) (q : List α) : List (QOp α) → Option (List α × List (QOut α))
  | [] => some (q, [])
  | op :: ops => do
    let (q', o) ← fifoStep cap q op
    let (q'', os) ← fifoRun cap q' ops
    pure (q'', o :: os)

end Verif.Spec
