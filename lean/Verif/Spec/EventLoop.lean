import Verif.Model.EventLoop
import Verif.Spec.Program

/-!
# What the program examples/linux/eventloop.cpp is meant to do
-/

namespace Verif.Spec.EventLoop

open Verif.EventLoop Verif.Client Spec.Client ModemDetect

/-- What happens in one `runTask()` and meanwhile: interrupts, the port being closed by the operating system, the detector (with the
driver) being run once at most. -/
def Pass (ops : List DOp) : Prop :=
  (∀ op ∈ ops, (∃ hs, op = .irq hs) ∨ op = .closePort ∨ ∃ ok, op = .run ok) ∧
    ops.countP (fun op => match op with | .run _ => true | _ => false) ≤ 1

/-- The calls come in order: the opening, one request while connected, pieces of the answer. What is read is printed. `buf` is not
overrun, no `read()` is in vain. NULL is not dereferenced. The loop ends when the request was sent and the driver is idle, and not later. -/
structure Kept (s : Loop) : Prop where
  order : ∃ pieces : List (List Byte), s.w.log <+: opening ++ pieces.map Call.read
  shown : s.w.shown = answer s.w.log
  inside : s.w.oob = false
  reads : ∀ bs, .read bs ∈ s.w.log → bs ≠ [] ∧ bs.length ≤ 40
  null : s.null = false
  ended : ∀ i n, s.ended = some (i, n) → i = true ∧ .write true ∈ s.w.log
  goes : s.ended = none → .write true ∈ s.w.log → s.w.dev.modem.elim true Verif.Program.idle = false

/-- The calls of `runTask()` in turn: a byte in each direction, then the detector, which may be waiting for its delay to pass. -/
def Turns (feed : Nat → Hw) (opens : Nat → Bool) (passes : List (List DOp)) : Prop :=
  ∀ i ops, passes[i]? = some ops →
    (i % 2 = 0 → ∃ n, ops = [.irq [feed n]]) ∧ (i % 2 = 1 → ops = [] ∨ ∃ n, ops = [.run (opens n)])

end Verif.Spec.EventLoop
