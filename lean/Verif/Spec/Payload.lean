import Verif.Spec.Trace

/-!
# Transmissions as seen on the serial line

An observer that follows the send command, its arguments and the prompt of the modem.
-/

namespace Verif.Spec

/-- State of a transmission. -/
inductive Tx
  /-- No send command pending. -/
  | idle
  /-- The send command was given. The list: the strings that followed it, as far as the serial device
  accepted them. -/
  | asked (args : List (List Byte))
  /-- The modem has answered with the prompt. -/
  | ready (args : List (List Byte))
deriving Repr, DecidableEq

/-- The command that starts a transmission. -/
def sendCmd : List Byte := b!"AT+CIPSEND="

/-- `prompts`: beginnings of lines that count as the prompt; `status`: commands allowed between the
prompt and the payload. -/
def tx (prompts status : List (List Byte)) : Observer Tx where
  init := .idle
  step := fun s e =>
    match e with
    | .cmd w g =>
      if w = sendCmd then (if g = sendCmd then .asked [] else .idle)
      else
        match s with
        | .ready a => if w ∈ status then .ready a else .idle
        | _ => .idle
    | .arg _ g =>
      match s with
      | .asked a => .asked (a ++ [g])
      | s => s
    | .line l =>
      match s with
      | .asked a => if prompts.any (·.isPrefixOf l) then .ready a else .asked a
      | s => s
    | .pay _ => .idle
    | .apiReset => .idle
    | _ => s

/-- Every block of payload follows a send command and a prompt; `shape n args`: the arguments announce
`n` bytes. -/
def PayOk (prompts status : List (List Byte)) (shape : Nat → List (List Byte) → Prop) (t : List Ev) :
    Prop :=
  Always (fun pre e => ∀ bs, e = .pay bs →
    ∃ args, (tx prompts status).after pre = .ready args ∧ shape bs.length args) t

/-- All bytes accepted by `write()` since the last `resetStates()`. -/
def written : Observer (List Byte) where
  init := []
  step := fun s e =>
    match e with
    | .apiWrite bs => s ++ bs
    | .apiReset => []
    | _ => s

/-- All payload bytes handed to the serial device since the last `resetStates()`. -/
def paid : Observer (List Byte) where
  init := []
  step := fun s e =>
    match e with
    | .pay bs => s ++ bs
    | .apiReset => []
    | _ => s

end Verif.Spec
