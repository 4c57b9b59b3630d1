import Verif.Model.Ntp

/-!
# What the task of examples/linux/autodetectntp.cpp is meant to do
-/

namespace Verif.Spec.Ntp

open Verif.Ntp

variable {D : Type}

/-- The rest of the world does what it likes to detector and driver. -/
def Others (u v : World D) : Prop := v.log = u.log ∧ v.packet = u.packet ∧ v.printed = u.printed ∧ v.exit = u.exit

/-- Points of time in milliseconds, the first not before `c`, none more than `G` after the one before. -/
def Paced (G : Nat) : Nat → List Nat → Prop
  | _, [] => True
  | c, t :: ts => c ≤ t ∧ t ≤ c + G ∧ Paced G t ts

/-- Turns at points of time: the clock has 32 bits. -/
def ticks (xs : List (Nat × (World D → World D))) : List (Nat × (World D → World D)) := xs.map fun x => (x.1 % 4294967296, x.2)

/-- The time of the last turn. -/
def final : Nat → List Nat → Nat
  | c, [] => c
  | _, t :: ts => final t ts

/-- The turns of the task, from a new object on: the first at time `t0`, no two more than `G` milliseconds apart. -/
structure Runs (api : Client.Api D) (G t0 : Nat) (d : D) (xs : List (Nat × (World D → World D))) (st : Duff.St (World D)) : Prop where
  paced : Paced G t0 (xs.map (·.1))
  bound : G + 60000 < 4294967296
  others : ∀ x ∈ xs, ∀ w, Others w (x.2 w)
  calls : ∃ junk t, t.timeoutRunning = false ∧ Duff.Calls (text api) (ticks ((t0, id) :: xs)) (Duff.init 0 t (start d junk)) st

/-- The request: mode 3 (client), version 3, all else zero. -/
def request : List Byte := 0x1b :: List.replicate 47 0

/-- Calls up to the request. -/
def asked : List Call := [.startDetection, .getDetectedModem true, .configure, .setHostPort, .connect, .write true request]

/-- What is in the packet after `bs` has been received. -/
def overlay (bs : List Byte) : List Byte := bs ++ request.drop bs.length

/-- An answer was there and was read, its time was printed. -/
def Answered (w : World D) (more : List Call) (ok : Nat → Prop) : Prop :=
  ∃ n bs, n ≠ 0 ∧ w.log = asked ++ .read n bs :: more ∧ w.printed = some (epoch (overlay bs)) ∧ ok (epoch (overlay bs))

/-- What the log, the printed time and the verdict have to do with each other. -/
def Verdict (w : World D) : Prop :=
  match w.exit with
  | none => w.log <+: asked ∧ w.printed = none ∨ Answered w [.disconnect] (· > 1636647985)
  | some .success => Answered w [.disconnect, .done true] (· > 1636647985)
  | some .noModem => w.log = asked.take 1 ∧ w.printed = none
  | some .notConnected => w.log = asked.take 5 ∧ w.printed = none
  | some .noData => w.log = asked ∧ w.printed = none
  | some .noTime => Answered w [] (· ≤ 1636647985)
  | some .notIdle => Answered w [.disconnect] (· > 1636647985)

/-- How long the task waits before it gives up, at least. -/
def patience : Exit → Nat
  | .noModem | .notIdle => 30000
  | .notConnected | .noData => 60000
  | _ => 0

end Verif.Spec.Ntp
