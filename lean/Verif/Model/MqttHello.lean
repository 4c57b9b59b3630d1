/-!
# The programs examples/linux/blockingmqtt.cpp and examples/stm32f1/blockingmqtt_stm32.cpp

Three messages are published, and the program waits for each of them to come back. The MQTT client is not part of the
repository: what its calls return and how many messages arrive during them is a parameter, which may depend on everything that was
called before. The part before the MQTT client is connected, and the part after it is disconnected, are those of
examples/linux/blocking.cpp (C90). `arrivedcount` is a number without bound.
-/

namespace Verif.MqttHello

/-- Calls of the MQTT client. -/
inductive Call
  | connect | subscribe | publish (qos : Nat) | yield | unsubscribe | disconnect
deriving DecidableEq, Repr

/-- For a call, given with those before it (the latest first): whether it returns 0, and how often it calls
`messageArrived()`. -/
structure Env where
  ok : List Call → Bool
  arrive : List Call → Nat

/-- The calls so far (the latest first), and `arrivedcount` (linux/blockingmqtt.cpp:29). -/
structure State where
  calls : List Call
  count : Nat
deriving DecidableEq, Repr

/-- A call; linux/blockingmqtt.cpp:31-38, `messageArrived()` counts. -/
def call (e : Env) (c : Call) (s : State) : State := ⟨c :: s.calls, s.count + e.arrive (c :: s.calls)⟩

/-- linux/blockingmqtt.cpp:98-99, 110-111 and 121-122: `while (arrivedcount == k) client.yield(100)`; `none`: not finished
after `fuel` turns. -/
def wait (e : Env) (k : Nat) : (fuel : Nat) → State → Option State
  | 0, _ => none
  | fuel + 1, s => if s.count = k then wait e k fuel (call e .yield s) else some s

/-- linux/blockingmqtt.cpp:87-99, 102-111: a message is published; if that succeeded the program waits. For the third one
(113-122) it waits in any case. -/
def message (e : Env) (fuel : Nat) (qos : Nat) (always : Bool) (s : State) : Option State :=
  let s := call e (.publish qos) s
  if e.ok s.calls || always then wait e qos fuel s else some s

/-- linux/blockingmqtt.cpp:73-130, stm32f1/blockingmqtt_stm32.cpp:91-148. -/
def main (e : Env) (fuel : Nat) : Option State :=
  let s := call e .subscribe (call e .connect ⟨[], 0⟩)
  match message e fuel 0 false s with
  | none => none
  | some s =>
    match message e fuel 1 false s with
    | none => none
    | some s =>
      match message e fuel 2 true s with
      | none => none
      | some s => some (call e .disconnect (call e .unsubscribe s))

end Verif.MqttHello
