import Verif.Model.Ops
import Verif.Spec.Language
import Verif.Spec.Whole

/-!
# Dialogues with a modem

The environment of a dialogue: interrupts happen between calls of the driver. The lines of the modem arrive in pieces of
any size; before each piece the modem has taken all bytes of the transmit buffer, and after each piece `run()` is called
at least once.
-/

namespace Verif.Spec

/-- What the driver says: the complete texts of the commands and the blocks of payload, in this order. -/
def utter : List Ev → List (List Byte)
  | [] => []
  | .cmd w _ :: l => (w ++ more l) :: utter l
  | .pay b :: l => b :: utter l
  | _ :: l => utter l

/-- All bytes `write()` has accepted. -/
def accepted : List Ev → List Byte
  | [] => []
  | .apiWrite b :: l => b ++ accepted l
  | _ :: l => accepted l

/-- All bytes `read()` has returned. -/
def handed : List Ev → List Byte
  | [] => []
  | .apiRead b :: l => b ++ handed l
  | _ :: l => handed l

/-- A line of text, at most as long as the line buffer of the drivers. -/
structure IsLine (l : List Byte) : Prop where
  len : l.length ≤ 60
  text : ∃ t, l = t ++ [nl] ∧ nl ∉ t ∧ gt ∉ t ∧ (0 : Byte) ∉ t

/-- The transmit buffer runs empty (it has at most `n` bytes), the modem sends `l`, and `run()` is called `k + 1`
times. -/
def hear (n : Nat) (l : List Byte) (k : Nat) : List Op :=
  .irq (List.replicate n ⟨none, true⟩) :: .irq (l.map fun c => ⟨some c, false⟩) :: List.replicate (k + 1) (.run true)

/-- A line as it arrives: some pieces, each followed by a number of calls of `run()` (one more than given here), then
the last piece. -/
structure Spoken where
  head : List (List Byte × Nat)
  last : List Byte
  runs : Nat

/-- The line. -/
def Spoken.text (x : Spoken) : List Byte := x.head.flatMap (·.1) ++ x.last

/-- What happens while a line arrives. -/
def Spoken.ops (n : Nat) (x : Spoken) : List Op := (x.head.flatMap fun y => hear n y.1 y.2) ++ hear n x.last x.runs

/-- It is a line with a property. The last piece is not empty: it completes the line. -/
def Spoken.Is (ok : List Byte → Prop) (x : Spoken) : Prop := x.last ≠ [] ∧ IsLine x.text ∧ ok x.text

/-- Some lines. -/
def hearAll (n : Nat) (xs : List Spoken) : List Op := xs.flatMap (Spoken.ops n)

/-- An answer of the modem: some other lines, then the line the driver waits for. -/
structure Beat where
  noise : List Spoken
  answer : Spoken

/-- What happens in one answer. -/
def Beat.ops (n : Nat) (b : Beat) : List Op := hearAll n b.noise ++ b.answer.ops n

/-- What the driver waits for: `good` holds for the awaited line; `idle` holds for lines that may come before it. -/
structure Await where
  good : List Byte → Prop
  idle : List Byte → Prop

/-- The line has none of the prefixes. -/
def Clear (bad : List (List Byte)) (l : List Byte) : Prop := ∀ w ∈ bad, ¬ w <+: l

/-- A line starting with `w` is awaited. Before it, lines with a prefix in `bad` are not allowed: they have another
meaning for the driver. -/
def await (w : List Byte) (bad : List (List Byte)) : Await := ⟨fun l => w <+: l, Clear (w :: bad)⟩

/-- The beat gives what is awaited. -/
structure Answers (a : Await) (b : Beat) : Prop where
  answer : b.answer.Is a.good
  noise : ∀ x ∈ b.noise, x.Is a.idle

/-- An answer of the modem and the commands the driver says upon it. -/
structure Exchange where
  await : Await
  said : List (List Byte)

/-- The beats give what is awaited, in this order. -/
inductive Dialogue : List Exchange → List Beat → Prop
  | nil : Dialogue [] []
  | cons {a : Exchange} {b : Beat} {as : List Exchange} {bs : List Beat} :
      Answers a.await b → Dialogue as bs → Dialogue (a :: as) (b :: bs)

/-- All operations of a dialogue. -/
def ops (n : Nat) (bs : List Beat) : List Op := bs.flatMap (Beat.ops n)

/-- Everything the driver says in a dialogue. -/
def says (as : List Exchange) : List (List Byte) := as.flatMap (·.said)

/-- The decimal digits of a number. -/
def decimals (n : Nat) : List Byte :=
  if n < 10 then [UInt8.ofNat (48 + n)] else decimals (n / 10) ++ [UInt8.ofNat (48 + n % 10)]

/-- `connect()`, and `run()` is called at least twice. -/
def dial (k : Nat) : List Op := .connect :: List.replicate (k + 2) (.run true)

/-- `disconnect()`, and `run()` is called at least twice. -/
def hangUp (k : Nat) : List Op := .disconnect :: List.replicate (k + 2) (.run true)

/-- A visit to a server: what the modem says while the connection is opened, while it is open, while it is closed, and
afterwards. -/
structure Visit where
  dial : Nat
  up : List Beat
  stay : List Spoken
  hangUp : Nat
  down : List Beat
  rest : List Spoken

/-- The operations of a visit. -/
def Visit.ops (n : Nat) (v : Visit) : List Op :=
  Spec.dial v.dial ++ Spec.ops n v.up ++ hearAll n v.stay ++ (Spec.hangUp v.hangUp ++ Spec.ops n v.down ++ hearAll n v.rest)

/-- The modem does its part. `stay`, `rest`: lines without a meaning for the driver while connected and afterwards. -/
structure Visit.Ok (opening closing : List Exchange) (stay rest : List Byte → Prop) (v : Visit) : Prop where
  up : Dialogue opening v.up
  stay : ∀ x ∈ v.stay, x.Is stay
  down : Dialogue closing v.down
  rest : ∀ x ∈ v.rest, x.Is rest

/-- The server. `addr` is the address the name server has for `host`. -/
structure Peer where
  host : List Byte
  addr : List Byte
  port : UInt16
  typ : ConnType

/-- Host and port can be used by the driver. -/
structure Peer.Ok (q : Peer) : Prop where
  host : (0 : Byte) ∉ q.host
  addr : (0 : Byte) ∉ q.addr
  len : q.addr.length ≤ 15
  port : q.port ≠ 0

/-- The answer of the name server. -/
def dnsLine (addr l : List Byte) : Prop :=
  ∃ name tail, l = b!"+CDNSGIP: 1,\"" ++ name ++ b!"\",\"" ++ addr ++ b!"\"" ++ tail ∧ (34 : Byte) ∉ name ∧ (34 : Byte) ∉ addr ∧
    (34 : Byte) ∉ tail

/-- A visit with its settings. `A`: what is needed to access the network. -/
structure Trip (A : Type) where
  access : A
  peer : Peer
  visit : Visit

/-- Trips one after the other. -/
def trips {A : Type} (setup : A → Peer → List Op) (n : Nat) (ts : List (Trip A)) : List Op :=
  ts.flatMap fun t => setup t.access t.peer ++ t.visit.ops n

/-! ### SIM7x00 -/

/-- The settings for a connection. -/
def setup7x00 (apn : List Byte) (q : Peer) : List Op := [.setApn (some apn), .setHostPort (some q.host) q.port q.typ]

def cipopen (q : Peer) : List Byte :=
  if q.typ = .udp then b!"AT+CIPOPEN=0,\"UDP\",,," ++ decimals q.port.toNat ++ b!"\r\n"
  else b!"AT+CIPOPEN=0,\"TCP\",\"" ++ q.addr ++ b!"\"," ++ decimals q.port.toNat ++ b!"\r\n"

/-- Opening of a connection, after the driver has said ATE0. -/
def open7x00 (apn : List Byte) (q : Peer) : List Exchange :=
  [⟨await b!"OK" [b!"ERROR"], [b!"AT+CGSOCKCONT=1,\"IP\",\"" ++ apn ++ b!"\"\r\n"]⟩,
   ⟨await b!"OK" [b!"ERROR"], [b!"AT+CSOCKSETPN=1\r\n"]⟩,
   ⟨await b!"OK" [b!"ERROR"], [b!"AT+CIPMODE=0\r\n"]⟩,
   ⟨await b!"OK" [b!"ERROR"], [b!"AT+NETOPEN\r\n"]⟩,
   ⟨await b!"+NETOPEN: 0" [b!"ERROR", b!"+NETOPEN: 1"], [b!"AT+CIPRXGET=1\r\n"]⟩,
   ⟨await b!"OK" [b!"ERROR"], [b!"AT+CDNSGIP=\"" ++ q.host ++ b!"\"\r\n"]⟩,
   ⟨⟨dnsLine q.addr, Clear [b!"OK", b!"ERROR", b!"+CDNSGIP: 1", b!"+CDNSGIP: 0"]⟩, []⟩,
   ⟨await b!"OK" [b!"ERROR"], [cipopen q]⟩,
   ⟨await b!"+CIPOPEN: 0,0" [b!"ERROR", b!"+CIPOPEN: 0,"], []⟩]

/-- Closing, after the driver has said AT+NETCLOSE. -/
def close7x00 : List Exchange :=
  [⟨await b!"+NETCLOSE: 0" [b!"ERROR", b!"+CIPRXGET: 1,0", b!"+IPCLOSE: 0,"], []⟩]

/-- Lines without a meaning in a connection. -/
def stay7x00 : List Byte → Prop := Clear [b!"+CIPRXGET: 1,0", b!"+IPCLOSE: 0,"]

/-- All commands of a visit. -/
def visit7x00 (apn : List Byte) (q : Peer) : List (List Byte) :=
  b!"ATE0\r\n" :: says (open7x00 apn q) ++ (b!"AT+NETCLOSE\r\n" :: says close7x00)

/-- The texts fit into the transmit buffer of `tx` bytes (before the query for the host name the driver asks for 20 bytes more than the name has). -/
structure Fits7x00 (tx : Nat) (apn : List Byte) (q : Peer) : Prop where
  peer : q.Ok
  texts : ∀ x ∈ visit7x00 apn q, x.length ≤ tx
  host : q.host.length + 20 ≤ tx

/-! ### SIM800 -/

def cipstart800 (q : Peer) : List Byte :=
  (if q.typ = .udp then b!"AT+CIPSTART=0,\"UDP\",\"" else b!"AT+CIPSTART=0,\"TCP\",\"") ++ q.addr ++ b!"\"," ++
    decimals q.port.toNat ++ b!"\r\n"

/-- Error messages. -/
def errors800 : List (List Byte) := [b!"+PDP: DEACT", b!"+CME ERROR", b!"ERROR"]

/-- A line with an IP address: three dots. -/
def dots (l : List Byte) : Prop := (l.filter (· = 46)).length = 3

def open800 (apn : List Byte) (q : Peer) : List Exchange :=
  [⟨await b!"OK" errors800, [b!"AT+CIPRXGET=1\r\n"]⟩,
   ⟨await b!"OK" errors800, [b!"AT+CIPMUX=1\r\n"]⟩,
   ⟨await b!"OK" errors800, [b!"AT+CSTT=\"" ++ apn ++ b!"\"\r\n"]⟩,
   ⟨await b!"OK" errors800, [b!"AT+CIICR\r\n"]⟩,
   ⟨await b!"OK" errors800, [b!"AT+CIFSR\r\n"]⟩,
   ⟨⟨fun l => dots l ∧ Clear errors800 l, fun l => ¬ dots l ∧ Clear errors800 l⟩, [b!"AT+CDNSGIP=\"" ++ q.host ++ b!"\"\r\n"]⟩,
   ⟨⟨dnsLine q.addr, Clear (b!"OK" :: b!"+CDNSGIP: 1" :: b!"+CDNSGIP: 0" :: errors800)⟩, []⟩,
   ⟨await b!"OK" errors800, [cipstart800 q]⟩,
   ⟨await b!"0, CONNECT OK" (b!"0, CONNECT FAIL" :: errors800), []⟩]

def close800 : List Exchange :=
  [⟨await b!"0, CLOSE OK" (b!"+CIPRXGET: 1,0" :: b!"0, CLOSED" :: errors800), [b!"AT+CIPSHUT\r\n"]⟩,
   ⟨await b!"SHUT OK" (b!"+CIPRXGET: 1,0" :: b!"0, CLOSED" :: errors800), []⟩]

def stay800 : List Byte → Prop := Clear (b!"+CIPRXGET: 1,0" :: b!"0, CLOSED" :: errors800)

def visit800 (apn : List Byte) (q : Peer) : List (List Byte) :=
  b!"ATE0\r\n" :: says (open800 apn q) ++ (b!"AT+CIPCLOSE=0\r\n" :: says close800)

/-- As `Fits7x00`. The access point name is a C string. -/
structure Fits800 (tx : Nat) (apn : List Byte) (q : Peer) : Prop where
  peer : q.Ok
  name : (0 : Byte) ∉ apn
  texts : ∀ x ∈ visit800 apn q, x.length ≤ tx
  host : q.host.length + 20 ≤ tx

/-! ### Espressif -/

/-- The wireless network. -/
structure Wifi where
  ssid : List Byte
  passwd : List Byte

structure Wifi.Ok (w : Wifi) : Prop where
  ne : w.ssid ≠ []
  ssid : (0 : Byte) ∉ w.ssid
  passwd : (0 : Byte) ∉ w.passwd

def setupEsp (w : Wifi) (q : Peer) : List Op :=
  [.setSSID (some w.ssid), .setPassword (some w.passwd), .setHostPort (some q.host) q.port q.typ]

def protocol : ConnType → List Byte
  | .tcp => b!"TCP"
  | .udp => b!"UDP"
  | .ssl => b!"SSL"

def recvmode : ConnType → List Byte
  | .tcp => b!"AT+CIPRECVMODE=1\r\n"
  | _ => b!"AT+CIPRECVMODE=0\r\n"

def errorsEsp : List (List Byte) := [b!"ERROR", b!"FAIL"]

/-- Without TCP a colon ends a line for the driver: lines have none. -/
def plain (t : ConnType) (l : List Byte) : Prop := t = .tcp ∨ (58 : Byte) ∉ l

/-- As `await`, for lines the driver reads to their end. -/
def awaitPlain (t : ConnType) (w : List Byte) (bad : List (List Byte)) : Await :=
  ⟨fun l => w <+: l ∧ plain t l, fun l => Clear (w :: bad) l ∧ plain t l⟩

def openEsp (w : Wifi) (q : Peer) : List Exchange :=
  [⟨awaitPlain q.typ b!"OK" errorsEsp, [b!"AT+CWMODE=1\r\n"]⟩,
   ⟨awaitPlain q.typ b!"OK" errorsEsp, [b!"AT+CWJAP=\"" ++ w.ssid ++ b!"\",\"" ++ w.passwd ++ b!"\"\r\n"]⟩,
   ⟨awaitPlain q.typ b!"OK" errorsEsp, [b!"AT+CIPMUX=0\r\n"]⟩,
   ⟨awaitPlain q.typ b!"OK" errorsEsp, [recvmode q.typ]⟩,
   ⟨awaitPlain q.typ b!"OK" errorsEsp, [b!"AT+CIPMODE=0\r\n"]⟩,
   ⟨awaitPlain q.typ b!"OK" errorsEsp,
     [b!"AT+CIPSTART=\"" ++ protocol q.typ ++ b!"\",\"" ++ q.host ++ b!"\"," ++ decimals q.port.toNat ++ b!"\r\n"]⟩,
   ⟨awaitPlain q.typ b!"OK" errorsEsp, []⟩]

/-- The line CLOSED may come. -/
def closeEsp (q : Peer) : List Exchange :=
  [⟨awaitPlain q.typ b!"OK" (b!"+IPD" :: b!"WIFI DISCONNECT" :: errorsEsp), [b!"AT+CWQAP\r\n"]⟩,
   ⟨awaitPlain q.typ b!"WIFI DISCONNECT" (b!"+IPD" :: errorsEsp), []⟩]

def stayEsp (q : Peer) (l : List Byte) : Prop :=
  Clear (b!"+IPD" :: b!"CLOSED" :: b!"WIFI DISCONNECT" :: b!"SEND FAIL" :: errorsEsp) l ∧ plain q.typ l

def restEsp (q : Peer) (l : List Byte) : Prop := Clear errorsEsp l ∧ plain q.typ l

def visitEsp (w : Wifi) (q : Peer) : List (List Byte) :=
  b!"ATE0\r\n" :: says (openEsp w q) ++ (b!"AT+CIPCLOSE\r\n" :: says (closeEsp q))

/-- As `Fits7x00`. -/
structure FitsEsp (tx : Nat) (w : Wifi) (q : Peer) : Prop where
  peer : q.Ok
  wifi : w.Ok
  texts : ∀ x ∈ visitEsp w q, x.length ≤ tx

/-! ### CC1352P7 -/

def setupCC (q : Peer) : List Op := [.setHostPort (some q.host) q.port q.typ]

def openCC (q : Peer) : List Exchange :=
  [⟨await b!"OK" [b!"ERROR"], [(if q.typ = .udp then b!"AT+CIPSTART=\"UDP\",\"" else b!"AT+CIPSTART=\"TCP\",\"") ++ q.host ++
     b!"\"," ++ decimals q.port.toNat ++ b!"\r\n"]⟩,
   ⟨await b!"OK" [b!"ERROR"], []⟩]

/-- The line CLOSED may come. -/
def closeCC : List Exchange := [⟨await b!"OK" [b!"ERROR", b!"SEND FAIL", b!"+IPD"], []⟩]

def stayCC : List Byte → Prop := Clear [b!"ERROR", b!"SEND FAIL", b!"+IPD", b!"CLOSED"]

def visitCC (q : Peer) : List (List Byte) := b!"ATE0\r\n" :: says (openCC q) ++ (b!"AT+CIPCLOSE\r\n" :: says closeCC)

/-- As `Fits7x00`. -/
structure FitsCC (tx : Nat) (q : Peer) : Prop where
  peer : q.Ok
  texts : ∀ x ∈ visitCC q, x.length ≤ tx

end Verif.Spec
