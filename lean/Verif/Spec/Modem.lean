import Verif.Spec.Chat

/-!
# A modem with an open connection

The modem buffers what the server sends until the driver fetches it, and passes on what the driver sends. It answers the
commands of the driver in their order, and says other things in between: lines without a meaning for the connection, and
announcements of data. Everything it says arrives in pieces.
-/

namespace Verif.Spec

/-- How driver and modem talk about a connection. Of the numbers of bytes below, the modem reads `ask` and `send` at the
positions `askAt` and `sendAt`. -/
structure Tongue where
  /-- Driver: how much data is there? -/
  query : List Byte
  /-- Driver: give me at most that many bytes. -/
  ask : Nat → List Byte
  askAt : Nat
  /-- Driver: I want to send that many bytes. -/
  send : Nat → List Byte
  sendAt : Nat
  /-- Modem: the bytes were accepted. -/
  confirm : List Byte
  /-- Modem: there are that many bytes. -/
  count : Nat → List Byte
  /-- Modem: here are that many bytes; that many remain. -/
  header : Nat → Nat → List Byte
  /-- Modem: data has come, there are that many bytes now. -/
  announce : Nat → List Byte
  /-- The modem announces all data. Otherwise it may be silent about data that comes while older data waits. -/
  always : Bool

/-- What the modem has to do next. -/
inductive Phase
  /-- Nothing. -/
  | idle
  /-- Ask for a number of bytes. -/
  | prompt (n : Nat)
  /-- Take a number of bytes. -/
  | payload (n : Nat)
  | confirm
  /-- Tell the amount of data. -/
  | count
  /-- Say OK. -/
  | done
  /-- Give at most a number of bytes: first say how many. -/
  | header (n : Nat)
  /-- Give bytes. -/
  | data (b : List Byte)

/-- Nothing else is said between the bytes of a block. -/
def Phase.busy : Phase → Bool
  | .data _ => true
  | _ => false

structure Modem where
  phase : Phase
  /-- Bytes from the server the driver has not fetched. -/
  inbox : List Byte
  /-- All bytes for the server. -/
  outbox : List Byte
  /-- All bytes the server has sent. -/
  came : List Byte
  /-- There is data that was not announced. -/
  news : Bool

/-- The connection was opened. -/
def Modem.fresh : Modem := ⟨.idle, [], [], [], false⟩

/-- The number with the given position in a text. -/
def readNumber (k : Nat) (u : List Byte) : Nat :=
  ((u.drop k).takeWhile fun c => decide (48 ≤ c.toNat ∧ c.toNat ≤ 57)).foldl (fun n c => 10 * n + (c.toNat - 48)) 0

namespace Modem

/-- The modem hears a command, or a block of payload. What it does not understand or expect is ignored. -/
def listen (t : Tongue) (m : Modem) (u : List Byte) : Modem :=
  match m.phase with
  | .idle =>
    if u = t.query then { m with phase := .count }
    else if u = t.ask (readNumber t.askAt u) then { m with phase := .header (readNumber t.askAt u) }
    else if u = t.send (readNumber t.sendAt u) then { m with phase := .prompt (readNumber t.sendAt u) }
    else m
  | .payload n => if u.length = n then { m with outbox := m.outbox ++ u, phase := .confirm } else m
  | _ => m

/-- What the modem says next, and its state afterwards. -/
def speak (t : Tongue) (m : Modem) : Option (List Byte × Modem) :=
  match m.phase with
  | .prompt n => some ([gt], { m with phase := .payload n })
  | .confirm => some (t.confirm, { m with phase := .idle })
  | .count => some (t.count m.inbox.length, { m with phase := .done })
  | .done => some (b!"OK\r\n", { m with phase := .idle })
  | .header n =>
    let k := min n m.inbox.length
    some (t.header k (m.inbox.length - k), { m with inbox := m.inbox.drop k, phase := .data (m.inbox.take k) })
  | _ => none

/-- Up to `k` bytes of a block. -/
def give (m : Modem) (k : Nat) : Option (List Byte × Modem) :=
  match m.phase with
  | .data b => some (b.take k, { m with phase := if b.drop k = [] then .done else .data (b.drop k) })
  | _ => none

/-- The server has sent bytes. The modem may be silent about it if it has data already. -/
def arrive (t : Tongue) (m : Modem) (bs : List Byte) (loud : Bool) : Modem :=
  { m with
    inbox := m.inbox ++ bs
    came := m.came ++ bs
    news := m.news || (decide (bs ≠ []) && (t.always || loud || decide (m.inbox = []))) }

end Modem

/-- What can happen. -/
inductive Act
  /-- `run()` -/
  | run
  /-- `write()` -/
  | write (bs : List Byte)
  /-- `read()` of at most that many bytes -/
  | read (k : Nat)
  /-- The modem begins to say a line that has nothing to do with the connection. -/
  | noise (l : List Byte)
  /-- The modem begins to announce data. -/
  | tell
  /-- The server sends bytes. -/
  | net (bs : List Byte) (loud : Bool)
  /-- The modem begins to say what it has to say. -/
  | speak
  /-- Up to `k + 1` bytes of what the modem says arrive. -/
  | pass (k : Nat)
  /-- Up to `k + 1` bytes of a block arrive. -/
  | give (k : Nat)
deriving DecidableEq

/-- What the modem says in an act, and its state after that. Nothing else is said between the bytes of a block. -/
def Modem.say (t : Tongue) (m : Modem) : Act → Option (List Byte × Modem)
  | .noise l => if m.phase.busy then none else some (l, m)
  | .tell =>
    if m.phase.busy = false ∧ m.news = true then some (t.announce m.inbox.length, { m with news := false }) else none
  | .speak => m.speak t
  | _ => none

/-- Driver and modem. -/
structure World (D : Type) where
  drv : D
  modem : Modem
  /-- What the modem is saying, and the part of it that has not arrived. -/
  under : Option (Act × List Byte)

/-- Fixed parts of a scenario: language, sizes of the transmit buffer and of the buffer of the modem, and the prefixes of
lines with a meaning. -/
structure Scene where
  tongue : Tongue
  tx : Nat
  cap : Nat
  meaning : List (List Byte)

/-- The modem says one thing after the other, and takes bytes from the server in between. What it says, and the blocks of data,
arrive in pieces, each after the driver's commands have left the transmit buffer, and `run()` is called after each piece. In between, driver and
application do what they like. The state of the modem changes when all was said. -/
def World.act {S R X : Type} (c : Scene) (step : Dev S R X → Op → Dev S R X) (w : World (Dev S R X)) : Act → World (Dev S R X)
  | .run => go w.modem w.under [.run true]
  | .write bs => go w.modem w.under [.write bs]
  | .read k => go w.modem w.under [.read k]
  | .noise l => begins (.noise l)
  | .tell => begins .tell
  | .speak => begins .speak
  | .net bs loud =>
    if w.under = none ∧ w.modem.inbox.length + bs.length ≤ c.cap then { w with modem := w.modem.arrive c.tongue bs loud } else w
  | .pass k =>
    match w.under with
    | some (a, l) =>
      if l.drop (k + 1) = [] then go (((w.modem.say c.tongue a).map (·.2)).getD w.modem) none (hear c.tx l 0)
      else go w.modem (some (a, l.drop (k + 1))) (hear c.tx (l.take (k + 1)) 0)
    | none => w
  | .give k =>
    match w.under, w.modem.give (k + 1) with
    | none, some (l, m) => go m none (hear c.tx l 0)
    | _, _ => w
where
  /-- The driver does its part; the modem, in state `m`, hears what the driver says. -/
  go (m : Modem) (u : Option (Act × List Byte)) (ops : List Op) : World (Dev S R X) :=
    let d := exec step w.drv ops
    ⟨d, ((utter d.trace).drop (utter w.drv.trace).length).foldl (Modem.listen c.tongue) m, u⟩
  /-- The modem begins to say something, unless it is saying something else. -/
  begins (a : Act) : World (Dev S R X) :=
    match w.under, w.modem.say c.tongue a with
    | none, some (l, _) => { w with under := some (a, l) }
    | _, _ => w

/-- Some acts, one after the other. -/
def World.acts {S R X : Type} (c : Scene) (step : Dev S R X → Op → Dev S R X) (w : World (Dev S R X)) (as : List Act) :
    World (Dev S R X) := as.foldl (World.act c step) w

/-- Lines that have nothing to do with the connection are such lines indeed. -/
def Fair (meaning : List (List Byte)) : Act → Prop
  | .noise l => IsLine l ∧ Clear meaning l
  | _ => True

/-- Neither application nor server send more. -/
def Act.still : Act → Bool
  | .write _ => false
  | .net _ _ => false
  | _ => true

section
variable {S R X : Type} (c : Scene) (step : Dev S R X → Op → Dev S R X)

/-- Among the acts is one of a kind, at a time when the modem is not saying something else. -/
def Chance (w : World (Dev S R X)) (as : List Act) (kind : Act → Prop) : Prop :=
  ∃ u a v, as = u ++ a :: v ∧ kind a ∧ (w.acts c step u).under = none

/-- Everybody gets a chance: `run()` is called, the application reads at least one byte, and the modem says something of
each kind, in any order. What the modem says arrives completely. -/
structure Round (w : World (Dev S R X)) (as : List Act) : Prop where
  still : ∀ a ∈ as, a.still = true
  run : .run ∈ as
  read : ∃ k, 0 < k ∧ .read k ∈ as
  tell : Chance c step w as (· = .tell)
  speak : Chance c step w as (· = .speak)
  give : Chance c step w as fun a => ∃ k, a = .give k
  ends : (w.acts c step as).under = none

/-- Rounds, one after the other. -/
inductive Rounds : World (Dev S R X) → List (List Act) → Prop
  | nil {w} : Rounds w []
  | cons {w as rs} : Round c step w as → Rounds (w.acts c step as) rs → Rounds w (as :: rs)

end

/-- Nothing is lost, doubled or reordered on its way, and the connection is up. What was accepted is with the modem or in the
write buffer; what has come was handed to the application, or is in the read buffer, or belongs to the block that is being
received, or is with the modem. -/
structure World.Sound {S R X : Type} (w : World (Dev S R X)) : Prop where
  out : w.modem.outbox <+: accepted w.drv.trace
  outRest : (accepted w.drv.trace).length = w.modem.outbox.length + w.drv.wbuf.bytesAvailable
  came : handed w.drv.trace <+: w.modem.came
  cameRest : w.modem.came.length = (handed w.drv.trace).length + w.drv.rbuf.bytesAvailable + w.drv.bytesToRead + w.modem.inbox.length
  connected : w.drv.isConnected = true
  whole : Whole w.drv.trace

/-- Everything was delivered, and the connection is up. -/
structure World.Settled {S R X : Type} (w : World (Dev S R X)) : Prop where
  out : w.modem.outbox = accepted w.drv.trace
  came : handed w.drv.trace = w.modem.came
  connected : w.drv.isConnected = true

/-- A number of rounds after which everything is delivered. -/
def World.effort {S R X : Type} (w : World (Dev S R X)) : Nat :=
  101 * w.modem.inbox.length + 100 * w.drv.wbuf.bytesAvailable + w.drv.rbuf.bytesAvailable + 2 * w.drv.bytesToRead + 111

/-! ### SIM7x00 -/

/-- `r`: the server. -/
def tongue7x00 (r : Peer) : Tongue where
  query := b!"AT+CIPRXGET=4,0\r\n"
  ask n := b!"AT+CIPRXGET=2,0," ++ decimals n ++ b!"\r\n"
  askAt := 16
  send n := b!"AT+CIPSEND=0," ++ decimals n ++
    (if r.typ = .udp then b!",\"" ++ r.addr ++ b!"\"," ++ decimals r.port.toNat else []) ++ b!"\r\n"
  sendAt := 13
  confirm := b!"OK\r\n"
  count n := b!"+CIPRXGET: 4,0," ++ decimals n ++ b!"\r\n"
  header k n := b!"+CIPRXGET: 2,0," ++ decimals k ++ b!"," ++ decimals n ++ b!"\r\n"
  announce _ := b!"+CIPRXGET: 1,0\r\n"
  always := false

/-- Prefixes of lines with a meaning. -/
def meaning7x00 : List (List Byte) := [b!"OK", b!"ERROR", b!"+CIPRXGET: ", b!"+IPCLOSE: 0,"]

/-! ### SIM800 -/

def tongue800 : Tongue where
  query := b!"AT+CIPRXGET=4,0\r\n"
  ask n := b!"AT+CIPRXGET=2,0," ++ decimals n ++ b!"\r\n"
  askAt := 16
  send n := b!"AT+CIPSEND=0," ++ decimals n ++ b!"\r\n"
  sendAt := 13
  confirm := b!"0, SEND OK\r\n"
  count n := b!"+CIPRXGET: 4,0," ++ decimals n ++ b!"\r\n"
  header k n := b!"+CIPRXGET: 2,0," ++ decimals k ++ b!"," ++ decimals n ++ b!"\r\n"
  announce _ := b!"+CIPRXGET: 1,0\r\n"
  always := false

/-- Prefixes of lines with a meaning. -/
def meaning800 : List (List Byte) := [b!"OK", b!"0, SEND OK", b!"+CIPRXGET: ", b!"0, CLOSED"] ++ errors800

/-! ### CC1352P7

As cc1352p7.cpp expects: `AT+CIPRECVDATA=` asks for data, the answer is `+CIPRECVDATA,`, the number of bytes and the end of the line,
then the bytes and `OK`. `+IPD,` with the amount in the modem announces data. `OK` confirms a packet. -/

def tongueCC : Tongue where
  query := []
  ask n := b!"AT+CIPRECVDATA=" ++ decimals n ++ b!"\r\n"
  askAt := 15
  send n := b!"AT+CIPSEND=" ++ decimals n ++ b!"\r\n"
  sendAt := 11
  confirm := b!"OK\r\n"
  count _ := []
  header k _ := b!"+CIPRECVDATA," ++ decimals k ++ b!"\r\n"
  announce n := b!"+IPD," ++ decimals n ++ b!"\r\n"
  always := true

/-- Prefixes of lines with a meaning. -/
def meaningCC : List (List Byte) := [b!"OK", b!"+CIPRECVDATA", b!"+IPD", b!"CLOSED", b!"ERROR", b!"SEND FAIL"]

/-! ### Espressif, TCP

As espressif.cpp expects: the answer to `AT+CIPRECVDATA=` is `+CIPRECVDATA,`, the number of bytes and a colon, or, in the other version of
the firmware, `+CIPRECVDATA:`, the number and a comma. The bytes follow directly, then `OK`. -/

def tongueEsp (old : Bool) : Tongue where
  query := []
  ask n := b!"AT+CIPRECVDATA=" ++ decimals n ++ b!"\r\n"
  askAt := 15
  send n := b!"AT+CIPSEND=" ++ decimals n ++ b!"\r\n"
  sendAt := 11
  confirm := b!"SEND OK\r\n"
  count _ := []
  header k _ := if old then b!"+CIPRECVDATA:" ++ decimals k ++ b!"," else b!"+CIPRECVDATA," ++ decimals k ++ b!":"
  announce n := b!"+IPD," ++ decimals n ++ b!"\r\n"
  always := true

/-- Prefixes of lines with a meaning. -/
def meaningEsp : List (List Byte) :=
  [b!"OK", b!"SEND OK", b!"SEND FAIL", b!"+CIPRECVDATA", b!"+IPD", b!"CLOSED", b!"WIFI DISCONNECT"] ++ errorsEsp

end Verif.Spec
