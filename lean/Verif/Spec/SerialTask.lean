import Verif.Model.SerialTask

/-!
# What the task of the serial example is meant to do
-/

namespace Verif.Spec.SerialTask

open Verif.SerialTask

/-- A command, and an answer. -/
def exchanges (ps : List (List Byte)) : List Ev := ps.flatMap fun bs => [.wrote 4, .got bs]

/-- How far the task has got. -/
inductive Stage where
  /-- before its first turn, or it has called `exit(1)` -/
  | out
  /-- after a number of answers, it pauses before the next command -/
  | pause
  /-- it waits for an answer -/
  | wait
  /-- the end -/
  | over
deriving DecidableEq

/-- The calls of the task at some stage, `ps` being the answers so far. -/
def Talk (checks cfg opn : Bool) : Stage → List (List Byte) → List Ev → Prop
  | .out, ps, l => ps = [] ∧ (l = [] ∨ (checks = true ∧ cfg = false ∧ l = [.config cfg, .exit]) ∨
      (checks = true ∧ cfg = true ∧ opn = false ∧ l = [.config cfg, .opened opn, .exit]))
  | .pause, ps, l => ps.length ≤ 100 ∧ l = [.config cfg, .opened opn] ++ exchanges ps
  | .wait, ps, l => ps.length < 100 ∧ l = [.config cfg, .opened opn] ++ exchanges ps ++ [.wrote 4]
  | .over, ps, l => ps.length = 100 ∧ l = [.config cfg, .opened opn] ++ exchanges ps ++ [.closed]

/-- The number of commands sent. -/
def commands (st : Stage) (ps : List (List Byte)) : Nat := ps.length + if st = .wait then 1 else 0

/-- The other tasks and the interrupts transfer bytes from and to the port, nothing else. -/
def Others (u v : World) : Prop := ∃ hs, v = { u with ser := u.ser.transfers hs }

/-- The same, but no byte arrives. -/
def Silent (u v : World) : Prop := ∃ hs : List Hw, (∀ h ∈ hs, h.rx = none) ∧ v = { u with ser := u.ser.transfers hs }

end Verif.Spec.SerialTask
