import Verif.Spec.Client
import Verif.Model.Counted

/-!
# What the tasks with a counted loop do
-/

namespace Verif.Spec.Counted

open Verif.Counted
open Verif.Client (Api Call)

variable {D : Type}

/-- Up to the request. -/
def opening (k : Kind) : List Call :=
  (if k.detect then [.startDetection, .getDetectedModem] else []) ++ [.configure, .setHostPort, .connect, .write true]

/-- How far the task has got. -/
inductive Stage where
  | opening
  | reading
  | ending
deriving DecidableEq

/-- The calls of the task at some stage, `ps` being the pieces of the answer so far. -/
def Talk (k : Kind) (ps : List (List Byte)) (w : World D) : Stage → Prop
  | .opening => ps = [] ∧ w.pauses = 0 ∧ w.base.log <+: opening k
  | .reading => ps.length + w.pauses ≤ 400 ∧ w.base.log = opening k ++ ps.map Call.read
  | .ending => ps.length + w.pauses = 400 ∧ ∃ c n e, e <+: [.done] ∧ w.base.log = opening k ++ ps.map Call.read ++ .disconnect c n :: e

/-- The driver returns as many bytes as asked for, as far as available. -/
def Reads (api : Api D) : Prop := ∀ d n, (api.read d n).2.length = min n (api.bytesAvailable d)

/-- The other tasks and the interrupts change the devices only. -/
def Others (u v : World D) : Prop := v.i = u.i ∧ v.pauses = u.pauses ∧ Spec.Client.Others u.base v.base

end Verif.Spec.Counted
