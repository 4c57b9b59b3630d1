import Verif.Model.NtpClient
import Verif.Spec.Ntp

/-!
# What the NTP examples do
-/

namespace Verif.Spec.NtpClient

open Verif.Ntp
open Spec.Ntp (request overlay)

variable {D : Type}

/-- Up to the request. -/
def asked (detect : Bool) : List Call :=
  (if detect then [.startDetection, .getDetectedModem true] else []) ++ [.configure, .setHostPort, .connect, .write true request]

/-- What the task has done: up to the request nothing is printed; then one answer is read, as much of it as is there, up to 48 bytes. -/
def Tells (detect : Bool) (w : World D) : Prop :=
  w.log <+: asked detect ∧ w.printed = none ∨
  ∃ n bs e, n ≠ 0 ∧ bs.length = min 48 n ∧ e <+: [.done true] ∧ w.log = asked detect ++ .read n bs :: .disconnect :: e ∧
    w.printed = some (epoch (overlay bs))

/-- The driver returns as many bytes as asked for, as far as available. -/
def Reads (api : Client.Api D) : Prop := ∀ d n, (api.read d n).2.length = min n (api.bytesAvailable d)

/-- A word in the memory of the STM32: the least significant byte `a` first. -/
def word (a b c d : BitVec 8) : BitVec 32 := d ++ c ++ b ++ a

end Verif.Spec.NtpClient
