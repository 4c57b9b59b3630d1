import Verif.Model.Sequence

/-!
# What examples/stm32f1/mqttsequence.cpp publishes, and when
-/

namespace Verif.Spec.Sequence

open Verif.Sequence

/-- The bytes after the sequence number: each is computed from the one before it, the first one from the low byte of the number. -/
def noise (seq : Nat) : Nat → Nat
  | 0 => (seq % 256 * 109 + 57) % 256
  | i + 1 => (noise seq i * 109 + 57) % 256

/-- The data of a packet: the number, low byte first, and 76 more bytes. -/
structure Carries (seq : Nat) (data : List Nat) : Prop where
  length : data.length = 80
  number : data[0]! + 256 * data[1]! + 65536 * data[2]! + 16777216 * data[3]! = seq
  bytes : ∀ x ∈ data, x < 256
  rest : data.drop 4 = (List.range 76).map (noise seq)

/-- The tick counter does not wrap around in the four seconds after the packet. -/
def Calm (x : Packet) : Prop := x.done % 4294967296 + 4000 < 4294967296

/-- The pause between a packet and the next one, which is published at `next`. -/
def Gap (x : Packet) (next : Nat) : Prop := (Calm x → next ≥ x.done + 4000) ∧ (¬ Calm x → next = x.done)

/-- Between all packets. -/
def Spaced (l : List Packet) : Prop := ∀ pre x y post, l = pre ++ x :: y :: post → Gap x y.start

end Verif.Spec.Sequence
