import Verif.Model.Printf

/-!
# Vocabulary for C97
-/

namespace Verif.Spec.Printf

open Verif.Printf

/-- What happens at the port for messages: a character is printed, the interrupt handler is run, the receive
buffer is flushed. -/
inductive Ev
  | put (c : Byte)
  | irq (h : Hw)
  | flush

/-- One event. -/
def step (s : Ser) : Ev → Ser
  | .put c => putchar s c
  | .irq h => s.transfer h
  | .flush => s.flushReceiveBuffers

/-- A history. -/
def steps (s : Ser) (evs : List Ev) : Ser := evs.foldl step s

/-- What was printed. -/
def printed : List Ev → List Byte
  | [] => []
  | .put c :: evs => c :: printed evs
  | _ :: evs => printed evs

/-- `d` more bytes than are buffered, and the next one, fit whenever a character is printed. -/
def Roomy (d : Nat) (s : Ser) : List Ev → Prop
  | [] => True
  | ev :: evs => (match ev with | .put _ => s.tx.ring.bytesAvailable + d < s.writeBufferSize | _ => True) ∧ Roomy d (step s ev) evs

instance instDecRoomy (d : Nat) (s : Ser) : (evs : List Ev) → Decidable (Roomy d s evs)
  | [] => inferInstanceAs (Decidable True)
  | ev :: evs =>
    have := instDecRoomy d (step s ev) evs
    match ev with
    | .put _ => inferInstanceAs (Decidable (_ < _ ∧ _))
    | .irq _ | .flush => inferInstanceAs (Decidable (True ∧ _))

/-- The interrupt handler is run `n` times and the hardware takes a byte each time. -/
def drain (n : Nat) : List Ev := List.replicate n (.irq ⟨none, true⟩)

end Verif.Spec.Printf
