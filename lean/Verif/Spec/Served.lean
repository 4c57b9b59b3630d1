import Verif.Spec.Receiving
import Verif.Model.Ops

/-!
# How often a driver is run
-/

namespace Verif.Spec

/-- Bytes that arrive in one burst of hardware events. -/
def arriving (hs : List Hw) : List Byte := hs.filterMap (·.rx)

/-- Number of bytes that arrived since the last call of `run()`. -/
def sinceRun (ops : List Op) : Nat :=
  ops.foldl (fun n op =>
    match op with
    | .run _ => 0
    | .irq hs => n + (arriving hs).length
    | _ => n) 0

/-- At any time at most `k` bytes have arrived since the last call of `run()`. -/
def Polled (k : Nat) (ops : List Op) : Prop := ∀ pre, pre <+: ops → sinceRun pre ≤ k

/-- The serial port stays open and is not taken away from the driver. -/
def Steady (ops : List Op) : Prop := ∀ op ∈ ops, op ≠ .closePort ∧ op ≠ .serialLock ∧ op ≠ .run false

/-- No data request is answered with the header of an empty block. -/
def Filled (w : List Byte) (hdr : List Byte → Option Nat) (t : List Ev) : Prop :=
  Always (fun pre e => ∀ l, e = .line l → ((rx w hdr).after pre).req ≠ none → hdr l ≠ some 0) t

/-- Whenever `run()` is called, the transmit buffer has `n` free places. -/
def Spacious {D : Type} (step : D → Op → D) (free : D → Nat) (n : Nat) (d : D) (ops : List Op) : Prop :=
  ∀ pre post ok, ops = pre ++ Op.run ok :: post → n ≤ free (pre.foldl step d)

/-- All bytes that arrive find a place in the receive buffer. -/
def Lossless {D : Type} (step : D → Op → D) (accepted : D → List Byte) (d : D) (ops : List Op) : Prop :=
  ∀ pre hs post, ops = pre ++ Op.irq hs :: post →
    accepted (step (pre.foldl step d) (.irq hs)) = accepted (pre.foldl step d) ++ arriving hs

end Verif.Spec
