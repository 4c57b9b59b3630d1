import Verif.Spec.Budget

/-!
# Whether the modem has confirmed the payload
-/

namespace Verif.Spec

/-- A block of payload was handed to the serial device, and since then no line began with one of the `texts`, the
modem was not restarted by one of the commands `restart`, and `resetStates()` was not called. -/
def unconfirmed (texts restart : List (List Byte)) : Observer Bool where
  init := false
  step q e := match e with
    | .pay _ => true
    | .line l => q && !(texts.any (begins · l))
    | .cmd w _ => q && !(restart.contains w)
    | .apiReset => false
    | _ => q

/-- SIM7x00: the confirmation, an error, the end of the connection. -/
def unconfirmed7x00 : Observer Bool := unconfirmed [b!"OK", b!"ERROR", b!"+IPCLOSE: 0,"] [b!"AT+CRESET"]

/-- SIM800: the confirmation, an error, the end of the connection. -/
def unconfirmed800 : Observer Bool :=
  unconfirmed [b!"0, SEND OK", b!"+PDP: DEACT", b!"+CME ERROR", b!"ERROR", b!"0, CLOSED"] []

/-- Espressif: the confirmation, an error, the end of the connection. `FAIL` and `SEND FAIL` are different beginnings. -/
def unconfirmedEsp : Observer Bool :=
  unconfirmed [b!"SEND OK", b!"ERROR", b!"FAIL", b!"SEND FAIL", b!"WIFI DISCONNECT"] [b!"AT+RST"]

/-- CC1352P7: the confirmation, an error. -/
def unconfirmedCC : Observer Bool := unconfirmed [b!"OK", b!"ERROR", b!"SEND FAIL"] []

end Verif.Spec
