import Verif.Model.Client

/-!
# What the task of the example is meant to do
-/

namespace Verif.Spec.Client

open Verif.Client

variable {D : Type}

/-- Up to the request. -/
def opening : List Call := [.startDetection, .getDetectedModem, .configure, .setHostPort, .connect, .write true]

/-- The calls come in this order: the opening with the request sent while connected, the answer in pieces, `disconnect()` when the
server has ended the connection. -/
def Orderly (log : List Call) : Prop :=
  ∃ (pieces : List (List Byte)) (n : Nat), log <+: opening ++ pieces.map Call.read ++ [.disconnect false n, .done]

/-- The answer as far as it was read, each piece up to its first zero. -/
def answer : List Call → List Byte
  | [] => []
  | .read bs :: l => bs.takeWhile (· != 0) ++ answer l
  | _ :: l => answer l

/-- The other tasks and the interrupts change the devices only. -/
def Others (u v : World D) : Prop := v.log = u.log ∧ v.shown = u.shown ∧ v.oob = u.oob

def isRun : Op → Bool
  | .run _ => true
  | _ => false

/-- Meanwhile any interrupts and calls happen, but the `run()` function of the driver is called once at most. The flag is the answer of
the detector. -/
def OnceRun {N : Type} (step : N → Op → N) (u v : World (Bool × N)) : Prop :=
  Others u v ∧ ∃ ops, ops.countP isRun ≤ 1 ∧ v.dev.2 = exec step u.dev.2 ops

/-- Meanwhile no data arrived. -/
def Silent (api : Api D) (u v : World D) : Prop := Others u v ∧ (api.bytesAvailable u.dev = 0 → api.bytesAvailable v.dev = 0)

/-- The task before its first turn. -/
def start (d : D) : World D := ⟨d, [], [], false⟩

end Verif.Spec.Client
