import Verif.Model.SimComm

/-!
# Model of `cicada/commdevices/sim800.cpp`

Structure as in `Verif.Model.Sim7x00`.
-/

namespace Verif.Sim800

/-- sim800.h:117-140, `SendState`, in the order of the enumeration. -/
inductive Snd
  | notConnected | serialError | connecting | sendCiprxget | sendCipmux | sendCipsprt | sendCstt
  | sendCiicr | sendCifsr | sendDnsQuery | sendCipstart | finalizeConnect | connected | sendData
  | sendCiprxget4 | sendCiprxget2 | waitReceive | receiving | ipUnconnected | sendCipclose
  | sendCipshut | finalizeDisconnect
deriving Repr, DecidableEq

/-- Numeric value of a send state. -/
def Snd.idx : Snd → Nat
  | .notConnected => 0 | .serialError => 1 | .connecting => 2 | .sendCiprxget => 3
  | .sendCipmux => 4 | .sendCipsprt => 5 | .sendCstt => 6 | .sendCiicr => 7 | .sendCifsr => 8
  | .sendDnsQuery => 9 | .sendCipstart => 10 | .finalizeConnect => 11 | .connected => 12
  | .sendData => 13 | .sendCiprxget4 => 14 | .sendCiprxget2 => 15 | .waitReceive => 16
  | .receiving => 17 | .ipUnconnected => 18 | .sendCipclose => 19 | .sendCipshut => 20
  | .finalizeDisconnect => 21

/-- sim800.h:115, `ReplyState`. -/
inductive Rep
  | okReply | csq | requestID | cifsr | cdnsgip | cipstart | ciprxget4 | ciprxget2
deriving Repr, DecidableEq

abbrev D := SimDev Snd Rep

/-- sim800.h:142, `iccidCommand`. -/
def iccidCommand : List Byte := b!"AT+CCID"

/-- sim800.cpp:32-46, constructor (with those of the base classes). -/
def init (ser : Ser) (rmem wmem : List Byte) (t : ConnType) (line ip id : List Byte) : D :=
  SimDev.init ser rmem wmem t line ip id 1460 .notConnected .okReply

/-- sim800.cpp:51-56: the serial device is not open. -/
def tryOpen (d : D) (openOk : Bool) : D :=
  if openOk then { d with isOpen := true } else { d with snd := .serialError }

/-- sim800.cpp:63-80: a modem reset is pending. There is no `return`. -/
def handleReset (d : D) : D :=
  let d := d.flushSer
  let d := { d with
    bytesToRead := 0, bytesToReceive := 0, bytesToWrite := 0,
    snd := if d.snd.idx < Snd.sendCiicr.idx ∨ d.snd.idx > Snd.sendCipshut.idx then Snd.notConnected
      else Snd.sendCipshut
    rep := Rep.okReply, wait := none, resetPending := false }
  if d.cs ≠ .notConnected then (SimDev.connect { d with delay := 2000 }).1 else d

/-- sim800.cpp:90-98: error messages from the modem. -/
def isError (d : D) : Bool :=
  d.has b!"+PDP: DEACT" || d.has b!"+CME ERROR" || d.has b!"ERROR"

/-- sim800.cpp:100-105: standard reply. -/
def parseWait (d : D) : D := if d.waitMatches then { d with wait := none } else d

/-- sim800.cpp:107-164: replies which need special treatment. The case `csq` falls through to
`requestID`. -/
def parseReply (p : Platform) (d : D) : D :=
  match d.rep with
  | .cifsr =>
    if ((cstr d.line.cells).filter (· = 46)).length = 3 then { d with rep := .okReply } else d
  | .cdnsgip =>
    let r := d.parseDnsReply
    if r.2 then { r.1 with rep := .okReply } else r.1
  | .cipstart =>
    if d.disconnectPending then { d.handleDisconnect .sendCipshut with rep := .okReply }
    else if d.wait = none then { d with rep := .okReply }
    else if d.has b!"0, CONNECT FAIL" then { d with resetPending := true, cs := .generalError }
    else d
  | .ciprxget4 =>
    let r := SimDev.parseCiprxget4 p d
    if r.2 then { r.1 with rep := .okReply } else r.1
  | .ciprxget2 =>
    let r := SimDev.parseCiprxget2 p d
    if r.2 then { r.1 with rep := .okReply, snd := .receiving } else r.1
  | .csq =>
    let r := SimDev.parseCsq p d
    let d := if r.2 then { r.1 with rep := .okReply } else r.1
    let r := SimDev.parseIDReply d
    if r.2 then { r.1 with rep := .okReply } else r.1
  | .requestID =>
    let r := d.parseIDReply
    if r.2 then { r.1 with rep := .okReply } else r.1
  | .okReply => d

/-- sim800.cpp:166-169: in connected state, check for new data or IP connection close. -/
def checkState (d : D) : D :=
  if Snd.connected.idx ≤ d.snd.idx then d.checkConnectionState b!"0, CLOSED" else d

/-- sim800.cpp:86-170: a line is complete; the flag is set by `return`. -/
def parseLine (p : Platform) (d : D) : D × Bool :=
  if isError d then ({ d with resetPending := true, cs := .generalError, wait := none }, true)
  else (checkState (parseReply p (parseWait d)), false)

/-- sim800.cpp:172-175. -/
def flushIfDisconnecting (d : D) : D :=
  if d.disconnectPending = true ∧ d.snd = .receiving then d.flushReadBuffer else d

/-- sim800.cpp:229-238 -/
def actCstt (d : D) : D :=
  let d := if d.ext.apn = none then { d with ub := true } else d
  let d := ((d.cmdN b!"AT+CSTT=\"").arg (d.ext.apn.getD [])).arg quoteEnd
  { d with wait := some okStr, snd := .sendCiicr }

/-- sim800.cpp:267-286 -/
def actCipstart (d : D) : D :=
  let d := d.cmd b!"AT+CIPSTART"
  let d := if d.typ = .udp then d.arg b!"=0,\"UDP\",\"" else d.arg b!"=0,\"TCP\",\""
  let d := (((d.arg (cstr d.ext.ip.cells)).arg b!"\",").arg (dec5 d.port)).arg lineEnd
  { d with rep := .cipstart, wait := some b!"0, CONNECT OK", snd := .finalizeConnect }

/-- sim800.cpp:296-316 -/
def actConnected (d : D) : D :=
  if d.wbuf.bytesAvailable ≠ 0 then
    let r := d.prepareSending true
    if r.2 then { r.1.arg lineEnd with cs := .transmitting, snd := .sendData } else r.1
  else if d.dataPending then
    { d with dataPending := false, cs := .receiving, snd := .sendCiprxget4 }
  else if d.ipConnected then ({ d with cs := .connected } : D).handleDisconnect .sendCipclose
  else { d with cs := .connected, disconnectPending := false, snd := .sendCipshut }

/-- sim800.cpp:334-349 -/
def actCiprxget2 (d : D) : D :=
  if d.disconnectPending then d.handleDisconnect .sendCipclose
  else if d.bytesToReceive > 0 then
    let r := d.sendCiprxget2
    if r.2 then { r.1 with snd := .waitReceive, rep := .ciprxget2 } else r.1
  else if d.ipConnected then { d with snd := .connected }
  else { d with snd := .ipUnconnected }

/-- sim800.cpp:354-366 -/
def actReceiving (d : D) : D :=
  if d.bytesToRead > 0 then
    let r := d.receive
    if r.2 then { r.1 with rep := .okReply, wait := some okStr } else r.1
  else if d.bytesToReceive > 0 then { d with snd := .sendCiprxget2 }
  else { d with delay := 10, snd := .sendCiprxget4 }

/-- sim800.cpp:200-402: the connection state machine. -/
def act (d : D) : D :=
  match d.snd with
  | .notConnected => ({ d with delay := 10, cs := .notConnected } : D).handleConnect .connecting
  | .connecting =>
    { d.sendCommand b!"ATE0" with
      delay := 10, cs := .intermediate, lineRead := true, wait := some okStr, snd := .sendCiprxget }
  | .sendCiprxget => { d.sendCommand b!"AT+CIPRXGET=1" with wait := some okStr, snd := .sendCipmux }
  | .sendCipmux => { d.sendCommand b!"AT+CIPMUX=1" with wait := some okStr, snd := .sendCstt }
  | .sendCstt => actCstt d
  | .sendCiicr => { d.sendCommand b!"AT+CIICR" with wait := some okStr, snd := .sendCifsr }
  | .sendCifsr =>
    if d.disconnectPending then d.handleDisconnect .sendCipshut
    else { (d.cmdN b!"AT+CIFSR").arg lineEnd with rep := .cifsr, snd := .sendDnsQuery }
  | .sendDnsQuery =>
    let r := d.sendDnsQuery
    if r.2 then { r.1 with rep := .cdnsgip, wait := some okStr, snd := .sendCipstart } else r.1
  | .sendCipstart => actCipstart d
  | .finalizeConnect =>
    { d with delay := 0, cs := .connected, rep := .okReply, snd := .connected, ipConnected := true }
  | .connected => actConnected d
  | .sendData => { d.sendData with wait := some b!"0, SEND OK", snd := .connected }
  | .sendCiprxget4 =>
    { d.sendCommand b!"AT+CIPRXGET=4,0" with
      delay := 0, wait := some okStr, snd := .sendCiprxget2, rep := .ciprxget4 }
  | .sendCiprxget2 => actCiprxget2 d
  | .waitReceive => d
  | .receiving => actReceiving d
  | .ipUnconnected =>
    let d := { d with cs := .intermediate }
    if d.disconnectPending then d.handleDisconnect .finalizeDisconnect
    else d.handleConnect .sendCipstart
  | .sendCipclose =>
    if d.ipConnected then
      { d.sendCommand b!"AT+CIPCLOSE=0" with
        cs := .intermediate, wait := some b!"0, CLOSE OK", snd := .sendCipshut }
    else { d with cs := .intermediate, snd := .sendCipshut }
  | .sendCipshut =>
    { d.sendCommand b!"AT+CIPSHUT" with
      cs := .intermediate, wait := some b!"SHUT OK", snd := .finalizeDisconnect }
  | .finalizeDisconnect =>
    { d with ipConnected := false, cs := .notConnected, snd := .notConnected }
  | .serialError => d
  | .sendCipsprt => d

/-- sim800.cpp:185-402: requests, then the state machine. -/
def sendNext (d : D) : D :=
  if d.rssi = int16Max ∧ d.lineRead = true then
    { d.sendCommand b!"AT+CSQ" with rep := .csq, wait := some okStr }
  else
    let r := d.sendIDRequest iccidCommand
    if r.2 then { r.1 with rep := .requestID, wait := some okStr } else act r.1

/-- sim800.cpp:177-402: nothing is sent while waiting for a reply or with little space. -/
def proceed (d : D) : D :=
  if d.wait ≠ none ∨ d.rep ≠ .okReply then d
  else if d.serSpace < 20 then d.askSpace
  else sendNext d.askSpace

/-- sim800.cpp:82-402: the port is open, not locked, a reset was handled. -/
def work (p : Platform) (d : D) : D :=
  let r := d.fillLineBuffer
  if r.2 then
    let q := parseLine p r.1
    if q.2 then q.1 else proceed q.1
  else proceed (flushIfDisconnecting r.1)

/-- sim800.cpp:48-403, `run()`. `openOk`: result of `_serial.open()` if it is called. -/
def run (p : Platform) (d : D) (openOk : Bool) : D :=
  if d.isOpen = false then tryOpen d openOk
  else if d.serialLocked then d
  else work p (if d.resetPending then handleReset d else d)

end Verif.Sim800
