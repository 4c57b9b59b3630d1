import Verif.Spec.Chat

/-!
# Setbacks on the way to a connection

The environment of `Verif.Spec.Chat`, with a modem that refuses commands. After a refusal the driver resets the modem
or its own state and begins again.
-/

namespace Verif.Spec

/-- How a driver gets a connection: the steps, beginning with the step after a reset; the answers that count as a
refusal at a step; what the driver says upon the refusal; and the step at which it goes on. -/
structure Plan where
  steps : List Exchange
  refusal : Nat → Await
  says : Nat → List (List Byte)
  back : Nat → Nat

/-- After the line, `run()` is called at least three times. -/
def Beat.Slow (b : Beat) : Prop := 2 ≤ b.answer.runs

/-- The modem gives the answers awaited from step `i` up to step `j`; the driver says `T`. -/
inductive Plan.Steps (p : Plan) : Nat → List Beat → List (List Byte) → Nat → Prop
  | nil (i : Nat) : p.Steps i [] [] i
  | cons {i j : Nat} {b : Beat} {bs : List Beat} {T : List (List Byte)} (h : i < p.steps.length) :
      Answers p.steps[i].await b → (i = 0 → b.Slow) → p.Steps (i + 1) bs T j → p.Steps i (b :: bs) (p.steps[i].said ++ T) j

/-- Some answers, then a refusal. -/
structure Setback where
  answers : List Beat
  refusal : Beat

def Setback.ops (n : Nat) (s : Setback) : List Op := Spec.ops n s.answers ++ s.refusal.ops n

/-- Setbacks one after the other, beginning at step `i`; afterwards the driver is at step `j`. -/
inductive Plan.Setbacks (p : Plan) : Nat → List Setback → List (List Byte) → Nat → Prop
  | nil (i : Nat) : p.Setbacks i [] [] i
  | cons {i j k : Nat} {s : Setback} {ss : List Setback} {T U : List (List Byte)} :
      p.Steps i s.answers T j → Answers (p.refusal j) s.refusal → s.refusal.Slow → p.Setbacks (p.back j) ss U k →
      p.Setbacks i (s :: ss) (T ++ p.says j ++ U) k

/-- All operations. -/
def setbacks (n : Nat) (ss : List Setback) : List Op := ss.flatMap (Setback.ops n)

/-- The refusal comes instead of the awaited line. -/
def refuse (e : Exchange) (bad : List Byte → Prop) : Await := ⟨bad, e.await.idle⟩

/-- A line with one of the prefixes. -/
def among (ws : List (List Byte)) (l : List Byte) : Prop := ∃ w ∈ ws, w <+: l

/-! ### The drivers -/

/-- SIM7x00: the modem is restarted. -/
def again7x00 (apn : List Byte) (q : Peer) : List Exchange :=
  ⟨await b!"RDY" [b!"ERROR"], [b!"ATE0\r\n"]⟩ :: open7x00 apn q

def plan7x00 (apn : List Byte) (q : Peer) : Plan where
  steps := again7x00 apn q
  refusal i := match (again7x00 apn q)[i]? with
    | none => ⟨fun _ => False, fun _ => True⟩
    | some e => refuse e fun l => b!"ERROR" <+: l ∨ i = 7 ∧ b!"+CDNSGIP: 0" <+: l ∨
        i = 9 ∧ b!"+CIPOPEN: 0," <+: l ∧ ¬ b!"+CIPOPEN: 0,0" <+: l
  says _ := [b!"AT+CRESET\r\n"]
  back _ := 0

/-- SIM800: before AT+CIICR nothing is to be undone. -/
def again800 (apn : List Byte) (q : Peer) : List Exchange :=
  ⟨await b!"SHUT OK" (b!"+CIPRXGET: 1,0" :: b!"0, CLOSED" :: errors800), [b!"ATE0\r\n"]⟩ :: open800 apn q

def plan800 (apn : List Byte) (q : Peer) : Plan where
  steps := again800 apn q
  refusal i := match (again800 apn q)[i]? with
    | none => ⟨among errors800, stay800⟩
    | some e => refuse e fun l => among errors800 l ∨ i = 7 ∧ b!"+CDNSGIP: 0" <+: l ∨ i = 9 ∧ b!"0, CONNECT FAIL" <+: l
  says i := if i < 4 then [b!"ATE0\r\n"] else [b!"AT+CIPSHUT\r\n"]
  back i := if i < 4 then 1 else 0

/-- Espressif: the modem is restarted. -/
def againEsp (w : Wifi) (q : Peer) : List Exchange :=
  ⟨awaitPlain q.typ b!"ready" errorsEsp, [b!"ATE0\r\n"]⟩ :: openEsp w q

def planEsp (w : Wifi) (q : Peer) : Plan where
  steps := againEsp w q
  refusal i := match (againEsp w q)[i]? with
    | none => ⟨fun l => among errorsEsp l ∧ plain q.typ l, stayEsp q⟩
    | some e => refuse e fun l => among errorsEsp l ∧ plain q.typ l
  says _ := [b!"AT+RST\r\n"]
  back _ := 0

/-- CC1352P7: the connection is closed. -/
def againCC (q : Peer) : List Exchange :=
  ⟨await b!"OK" [b!"ERROR", b!"SEND FAIL", b!"+IPD"], [b!"ATE0\r\n"]⟩ :: openCC q

def planCC (q : Peer) : Plan where
  steps := againCC q
  refusal i := match (againCC q)[i]? with
    | none => ⟨among [b!"ERROR", b!"SEND FAIL"], stayCC⟩
    | some e => refuse e fun l => b!"ERROR" <+: l ∨ i = 0 ∧ b!"SEND FAIL" <+: l
  says _ := [b!"AT+CIPCLOSE\r\n"]
  back _ := 0

end Verif.Spec
