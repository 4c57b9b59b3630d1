import Verif.Model.MqttHello

/-!
# Vocabulary for C98
-/

namespace Verif.Spec.MqttHello

open Verif.MqttHello

/-- Messages that arrived during some calls (the latest first). -/
def total (e : Env) : List Call → Nat
  | [] => 0
  | c :: h => e.arrive (c :: h) + total e h

/-- How many messages were published. -/
def published : List Call → Nat
  | [] => 0
  | .publish _ :: h => published h + 1
  | _ :: h => published h

/-- A broker which accepts everything, and a topic nobody else uses: no message arrives that was not published, and every
one arrives if the client is given the time. -/
structure Quiet (e : Env) : Prop where
  accepts : ∀ q h, e.ok (.publish q :: h) = true
  own : ∀ h, total e h ≤ published h
  comes : ∀ h, total e h < published h → ∃ k, total e h < total e (List.replicate k .yield ++ h)

/-- The calls of a complete run, with `a`, `b` and `c` calls of `yield()` (in the order of time). -/
def run (a b c : Nat) : List Call :=
  [.connect, .subscribe, .publish 0] ++ List.replicate a .yield ++ [.publish 1] ++ List.replicate b .yield ++ [.publish 2] ++
    List.replicate c .yield ++ [.unsubscribe, .disconnect]

/-- What had been called when the message with the given `qos` was published (the latest first), for a run. -/
def before : Call → List Call → List Call
  | _, [] => []
  | c, d :: h => if c = d then h else before c h

end Verif.Spec.MqttHello
