import Verif.Spec.Payload

/-! # Bytes accepted and bytes sent in a piece of a history -/

namespace Verif.Spec

/-- The bytes accepted by `write()`. -/
def acceptedIn (t : List Ev) : List Byte :=
  t.flatMap fun e => match e with
    | .apiWrite bs => bs
    | _ => []

/-- The payload bytes handed to the serial device. -/
def payloadIn (t : List Ev) : List Byte :=
  t.flatMap fun e => match e with
    | .pay bs => bs
    | _ => []

end Verif.Spec
