import Verif.Model.Ops

/-! # Bytes on the serial line -/

namespace Verif.Spec

/-- Bytes an event hands to the serial device: what it accepted of a command, payload, what the application wrote
itself. -/
def given : Ev → List Byte
  | .cmd _ g | .arg _ g | .pay g | .userTx g => g
  | _ => []

/-- All bytes handed to the serial device, in this order. -/
def givenAll (t : List Ev) : List Byte := t.flatMap given

/-- Something else than payload. -/
def noPay : Ev → Bool
  | .pay _ => false
  | _ => true

/-- In a step from `d` to `e`, payload is handed to the serial device only if everything handed over in this step fits
into the transmit buffer. -/
def PayFits {S R X : Type} (d e : Dev S R X) : Prop :=
  let new := e.trace.drop d.trace.length
  new.all noPay = true ∨ (givenAll new).length ≤ d.ser.tx.ring.spaceAvailable

/-- In a step from `d` to `e`, payload is handed to the serial device only if its transmit buffer was empty: the modem
had got everything when it asked for the payload. -/
def PayWhenDrained {S R X : Type} (d e : Dev S R X) : Prop :=
  (e.trace.drop d.trace.length).all noPay = true ∨ d.ser.tx.ring.bytesAvailable = 0

/-- `P` holds of every step of a history. -/
def Stepwise {D : Type} (step : D → Op → D) (P : D → D → Prop) (d : D) (ops : List Op) : Prop :=
  ∀ pre op post, ops = pre ++ op :: post → P (exec step d pre) (step (exec step d pre) op)

/-- What left the serial port is a beginning of what was handed to the serial device; the rest is in the transmit
buffer. -/
def Carries {S R X : Type} (d : Dev S R X) : Prop :=
  d.ser.wire <+: givenAll d.trace ∧
    (givenAll d.trace).length = d.ser.wire.length + d.ser.tx.ring.bytesAvailable

end Verif.Spec
