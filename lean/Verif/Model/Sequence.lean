/-!
# The program examples/stm32f1/mqttsequence.cpp

A packet is published, then there is a pause of four seconds, for ever. The MQTT client is not part of the repository: how long its calls
last is a parameter, and what it makes of a packet is left out. Time passes in its calls only.
-/

namespace Verif.Sequence

/-- mqttsequence.cpp:31-34 -/
def generateRand (seed : Nat) : Nat := (seed * 1103515245 + 12345) % 4294967296 % 2147483648

/-- mqttsequence.cpp:84-88, the loop: `n` bytes of `buf`. -/
def fill : (n seed : Nat) → List Nat
  | 0, _ => []
  | n + 1, seed => generateRand seed % 256 :: fill n (generateRand seed)

/-- mqttsequence.cpp:81-88, `buf`. The processor has the low byte first. -/
def payload (seq : Nat) : List Nat :=
  [seq % 256, seq / 256 % 256, seq / 65536 % 256, seq / 16777216 % 256] ++ fill 76 seq

/-- A packet: when `publish()` was called, when it returned, and the payload. -/
structure Packet where
  start : Nat
  done : Nat
  data : List Nat
deriving DecidableEq, Repr

/-- `time`: milliseconds since the processor was started; `eTickFunction()` returns its low 32 bits. `yields`: the number of calls of
`yield()` so far. -/
structure State where
  time : Nat
  seq : Nat
  yields : Nat
  sent : List Packet

/-- How long the `n`-th calls last. -/
structure Env where
  publish : Nat → Nat
  yield : Nat → Nat

/-- mqttsequence.cpp:98-100, `while (eTickFunction() < endTime)`; `none`: not finished after `fuel` turns. -/
def wait (e : Env) (endTime : Nat) : (fuel : Nat) → State → Option State
  | 0, _ => none
  | fuel + 1, s =>
    if s.time % 4294967296 < endTime then wait e endTime fuel { s with time := s.time + e.yield s.yields, yields := s.yields + 1 }
    else some s

/-- mqttsequence.cpp:81-95: the packet is published. -/
def publish (e : Env) (s : State) : State :=
  { s with
    time := s.time + e.publish s.sent.length
    sent := s.sent ++ [⟨s.time, s.time + e.publish s.sent.length, payload s.seq⟩] }

/-- mqttsequence.cpp:80-103, the body of the endless loop. -/
def round (e : Env) (fuel : Nat) (s : State) : Option State :=
  let s := publish e s
  match wait e ((s.time % 4294967296 + 4000) % 4294967296) fuel s with
  | none => none
  | some s => some { s with seq := (s.seq + 1) % 4294967296 }

/-- `n` turns of the loop. -/
def rounds (e : Env) (fuel : Nat) : (n : Nat) → State → Option State
  | 0, s => some s
  | n + 1, s =>
    match rounds e fuel n s with
    | none => none
    | some s => round e fuel s

/-- mqttsequence.cpp:79: before the loop, at any time. -/
def start (time : Nat) : State := ⟨time, 0, 0, []⟩

end Verif.Sequence
