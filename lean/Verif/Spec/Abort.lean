import Verif.Spec.Recovery

/-!
# A connection that is given up while it is opened

The application calls `disconnect()` after `k` answers of the opening (`Verif.Spec.Chat`); what the modem answers from then on,
and what the driver says.
-/

namespace Verif.Spec

/-- `disconnect()`, and `run()` is called `i` times. -/
def giveUp (i : Nat) : List Op := .disconnect :: List.replicate i (.run true)

/-- The dialogue up to the connection `opening` is cut off at one of two points: the last answer before this point is followed by
the closing `short` (before exchange `m`) or `long` (before the last exchange). -/
def remaining (opening : List Exchange) (m k : Nat) (short long : List Exchange) : List Exchange :=
  if k ≤ m then (opening.take m).drop k ++ short else (opening.take (opening.length - 1)).drop k ++ long

/-- SIM7x00: the network is not opened any more. If this has already been demanded, the connection is opened and closed. -/
def after7x00 (apn : List Byte) (q : Peer) (k : Nat) : List Exchange :=
  remaining (open7x00 apn q) 3 k [⟨await b!"OK" [b!"ERROR"], []⟩]
    (⟨await b!"+CIPOPEN: 0,0" [b!"ERROR", b!"+CIPOPEN: 0,"], [b!"AT+NETCLOSE\r\n"]⟩ :: close7x00)

/-- The last exchange of the closing. -/
def shut800 : Exchange := ⟨await b!"SHUT OK" (b!"+CIPRXGET: 1,0" :: b!"0, CLOSED" :: errors800), []⟩

/-- SIM800: the address is not demanded any more. If this has been done, the driver waits for the connection, which is closed
by CIPSHUT. -/
def after800 (apn : List Byte) (q : Peer) (k : Nat) : List Exchange :=
  remaining (open800 apn q) 4 k [⟨await b!"OK" errors800, [b!"AT+CIPSHUT\r\n"]⟩, shut800]
    [⟨await b!"0, CONNECT OK" (b!"+CIPRXGET: 1,0" :: b!"0, CLOSED" :: b!"0, CONNECT FAIL" :: errors800), [b!"AT+CIPSHUT\r\n"]⟩, shut800]

/-- Espressif: the connection is opened and closed. -/
def afterEsp (w : Wifi) (q : Peer) (k : Nat) : List Exchange :=
  ((openEsp w q).take 6).drop k ++ ⟨awaitPlain q.typ b!"OK" errorsEsp, [b!"AT+CIPCLOSE\r\n"]⟩ :: closeEsp q

/-- CC1352P7: the connection is opened and closed. -/
def afterCC (q : Peer) (k : Nat) : List Exchange :=
  ((openCC q).take 1).drop k ++ ⟨await b!"OK" [b!"ERROR"], [b!"AT+CIPCLOSE\r\n"]⟩ :: closeCC

/-- A connection that is given up: the numbers of calls of `run()` after `connect()` and `disconnect()`, the answers before and
after `disconnect()`, and lines without a meaning afterwards. -/
structure GivenUp where
  dial : Nat
  up : List Beat
  giveUp : Nat
  down : List Beat
  rest : List Spoken

def GivenUp.ops (n : Nat) (g : GivenUp) : List Op :=
  Spec.dial g.dial ++ Spec.ops n g.up ++ (Spec.giveUp g.giveUp ++ Spec.ops n g.down ++ hearAll n g.rest)

/-- The modem does its part. After each answer from `disconnect()` on `run()` is called at least three times. -/
structure GivenUp.Ok (before after : List Exchange) (rest : List Byte → Prop) (g : GivenUp) : Prop where
  up : Dialogue before g.up
  down : Dialogue after g.down
  slow : ∀ b ∈ g.down, b.Slow
  rest : ∀ x ∈ g.rest, x.Is rest

end Verif.Spec
