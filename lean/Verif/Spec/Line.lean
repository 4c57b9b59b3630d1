import Verif.Spec.Fifo
import Verif.Base

/-!
# Specification: queue of bytes with lines
-/

namespace Verif.Spec

open Verif

/-- The first line of a text: everything up to and including the first newline, or all of it. -/
def takeLine : List Byte → List Byte
  | [] => []
  | c :: cs => if c = nl then [c] else c :: takeLine cs

/-- What follows the first line. -/
def dropLine : List Byte → List Byte
  | [] => []
  | c :: cs => if c = nl then cs else dropLine cs

theorem takeLine_append_dropLine (l : List Byte) : takeLine l ++ dropLine l = l := by
  induction l with
  | nil => rfl
  | cons c cs ih => simp only [takeLine, dropLine]; split <;> simp [ih]

/-- Calls of the line buffer interface. -/
inductive LOp where
  | q (op : QOp Byte)
  | readLine (size : Nat)
  | numBufferedLines

/-- Bounded queue with lines. The number of lines is a 16 bit quantity. -/
def lineStep (cap : Nat) (q : List Byte) : LOp → Option (List Byte × QOut Byte)
  | .q op => fifoStep cap q op
  | .readLine n => some (dropLine q, .elems ((takeLine q).take n))
  | .numBufferedLines => some (q, .num (q.count nl % 65536))

/-- A whole history. -/
def lineRun (cap : Nat) (q : List Byte) : List LOp → Option (List Byte × List (QOut Byte))
  | [] => some (q, [])
  | op :: ops => do
    let (q', o) ← lineStep cap q op
    let (q'', os) ← lineRun cap q' ops
    pure (q'', o :: os)

end Verif.Spec
