import Verif.Model.SimComm

/-!
# Model of `cicada/commdevices/sim7x00.cpp`

`run()` is split at its sections; every section is a function of the state. A section that may
execute `return` yields a flag. Assignments to members and serial writes between which there is no
dependency are grouped: writes first.
-/

namespace Verif.Sim7x00

/-- sim7x00.h, `SendState`, in the order of the enumeration. -/
inductive Snd
  | notConnected | serialError | dnsError | connecting | sendCgsockcont | sendCsocksetpn
  | sendCipmode | sendNetopen | sendCiprxget | sendDnsQuery | sendCipopen | finalizeConnect
  | connected | sendData | sendCiprxget4 | sendCiprxget2 | waitReceive | receiving
  | ipUnconnected | sendNetclose | finalizeDisconnect
deriving Repr, DecidableEq

/-- Numeric value of a send state. -/
def Snd.idx : Snd → Nat
  | .notConnected => 0 | .serialError => 1 | .dnsError => 2 | .connecting => 3
  | .sendCgsockcont => 4 | .sendCsocksetpn => 5 | .sendCipmode => 6 | .sendNetopen => 7
  | .sendCiprxget => 8 | .sendDnsQuery => 9 | .sendCipopen => 10 | .finalizeConnect => 11
  | .connected => 12 | .sendData => 13 | .sendCiprxget4 => 14 | .sendCiprxget2 => 15
  | .waitReceive => 16 | .receiving => 17 | .ipUnconnected => 18 | .sendNetclose => 19
  | .finalizeDisconnect => 20

/-- sim7x00.h, `ReplyState`. -/
inductive Rep
  | okReply | csq | requestID | expectConnect | netopen | cdnsgip | cipopen | ciprxget4 | ciprxget2
deriving Repr, DecidableEq

abbrev D := SimDev Snd Rep

/-- sim7x00.h:148, `iccidCommand`. -/
def iccidCommand : List Byte := b!"AT+CICCID"

/-- sim7x00.cpp:33-47, constructor (with those of the base classes). -/
def init (ser : Ser) (rmem wmem : List Byte) (t : ConnType) (line ip id : List Byte) : D :=
  SimDev.init ser rmem wmem t line ip id 1500 .notConnected .okReply

/-- sim7x00.cpp:52-57: the serial device is not open. -/
def tryOpen (d : D) (openOk : Bool) : D :=
  if openOk then { d with isOpen := true } else { d with snd := .serialError }

/-- sim7x00.cpp:64-83: a modem reset is pending. -/
def handleReset (d : D) : D :=
  let d := d.flushSer
  let d := { d with
    connectPending := false, resetPending := false, dataPending := false,
    disconnectPending := false, ipConnected := false, lineRead := true, serialLocked := false,
    bytesToRead := 0, bytesToReceive := 0, bytesToWrite := 0,
    snd := if Snd.connecting.idx ≤ d.snd.idx ∧ d.snd.idx ≤ Snd.receiving.idx then Snd.connecting
      else Snd.notConnected }
  let d := (d.cmdN b!"AT+CRESET").arg lineEnd
  { d with rep := .okReply, wait := some b!"RDY", delay := 4000 }

/-- sim7x00.cpp:107-164: replies which need special treatment; the flag is set by `return`. -/
def parseReply (p : Platform) (d : D) : D × Bool :=
  match d.rep with
  | .netopen =>
    if d.wait = none then ({ d with rep := .okReply }, false)
    else if d.has b!"+NETOPEN: 1" then
      ({ d with delay := 2000, snd := .sendNetopen, wait := none, rep := .okReply }, true)
    else (d, false)
  | .cdnsgip =>
    let r := d.parseDnsReply
    (if r.2 then { r.1 with rep := .okReply } else r.1, false)
  | .cipopen =>
    if d.wait = none then ({ d with rep := .okReply }, false)
    else if d.has b!"+CIPOPEN: 0," then
      ({ d with resetPending := true, cs := .generalError }, false)
    else (d, false)
  | .ciprxget4 =>
    let r := SimDev.parseCiprxget4 p d
    (if r.2 then { r.1 with rep := .okReply } else r.1, false)
  | .ciprxget2 =>
    let r := SimDev.parseCiprxget2 p d
    (if r.2 then { r.1 with rep := .okReply, snd := .receiving } else r.1, false)
  | .csq =>
    let r := SimDev.parseCsq p d
    (if r.2 then { r.1 with rep := .okReply } else r.1, false)
  | .requestID =>
    let r := d.parseIDReply
    (if r.2 then { r.1 with rep := .okReply } else r.1, false)
  | .okReply => (d, false)
  | .expectConnect => (d, false)

/-- sim7x00.cpp:166-169: in connected state, check for new data or IP connection close. -/
def checkState (d : D) : D :=
  if Snd.connected.idx ≤ d.snd.idx then d.checkConnectionState b!"+IPCLOSE: 0," else d

/-- sim7x00.cpp:94-104: standard reply; the flag is set by `return`. -/
def parseWait (d : D) : D × Bool :=
  if d.wait ≠ none then
    if d.waitMatches then ({ d with wait := none }, false)
    else if d.has b!"ERROR" then
      ({ d with resetPending := true, cs := .generalError, wait := none }, true)
    else (d, false)
  else (d, false)

/-- sim7x00.cpp:89-170: a line is complete; the flag is set by `return`. -/
def parseLine (p : Platform) (d : D) : D × Bool :=
  let r := parseWait d
  if r.2 then r
  else
    let r := parseReply p r.1
    if r.2 then r else (checkState r.1, false)

/-- sim7x00.cpp:172-175. -/
def flushIfDisconnecting (d : D) : D :=
  if d.disconnectPending = true ∧ d.snd = .receiving then d.flushReadBuffer else d

/-- sim7x00.cpp:217-226 -/
def actCgsockcont (d : D) : D :=
  let d := if d.ext.apn = none then { d with ub := true } else d
  let d := ((d.cmdN b!"AT+CGSOCKCONT=1,\"IP\",\"").argN (d.ext.apn.getD [])).arg quoteEnd
  { d with wait := some okStr, snd := .sendCsocksetpn }

/-- sim7x00.cpp:265-284. The contents of `_ip` up to the first zero are sent. -/
def actCipopen (d : D) : D :=
  let d := d.cmd b!"AT+CIPOPEN"
  let d :=
    if d.typ = .udp then d.arg b!"=0,\"UDP\",,,"
    else ((d.arg b!"=0,\"TCP\",\"").arg (cstr d.ext.ip.cells)).arg b!"\","
  let d := (d.arg (dec5 d.port)).arg lineEnd
  { d with rep := .cipopen, wait := some b!"+CIPOPEN: 0,0", snd := .finalizeConnect }

/-- sim7x00.cpp:294-321 -/
def actConnected (d : D) : D :=
  if d.wbuf.bytesAvailable ≠ 0 then
    let r := d.prepareSending true
    if r.2 then
      let d := r.1
      let d :=
        if d.typ = .udp then
          (((d.arg b!",\"").arg (cstr d.ext.ip.cells)).arg b!"\",").arg (dec5 d.port)
        else d
      let d := d.arg lineEnd
      { d with cs := .transmitting, snd := .sendData }
    else r.1
  else if d.dataPending then
    { d with dataPending := false, cs := .receiving, snd := .sendCiprxget4 }
  else
    ({ d with cs := .connected } : D).handleDisconnect .sendNetclose

/-- sim7x00.cpp:338-353 -/
def actCiprxget2 (d : D) : D :=
  if d.disconnectPending then d.handleDisconnect .sendNetclose
  else if d.bytesToReceive > 0 then
    let r := d.sendCiprxget2
    if r.2 then { r.1 with snd := .waitReceive, rep := .ciprxget2 } else r.1
  else if d.ipConnected then { d with snd := .connected }
  else { d with snd := .ipUnconnected }

/-- sim7x00.cpp:358-369 -/
def actReceiving (d : D) : D :=
  if d.bytesToRead > 0 then
    let r := d.receive
    if r.2 then { r.1 with rep := .okReply, wait := some okStr } else r.1
  else if d.bytesToReceive > 0 then { d with snd := .sendCiprxget2 }
  else { d with snd := .sendCiprxget4 }

/-- sim7x00.cpp:200-394: the connection state machine. -/
def act (d : D) : D :=
  match d.snd with
  | .notConnected => ({ d with delay := 10, cs := .notConnected } : D).handleConnect .connecting
  | .connecting =>
    { d.sendCommand b!"ATE0" with
      delay := 10, cs := .intermediate, lineRead := true, wait := some okStr, snd := .sendCgsockcont }
  | .sendCgsockcont => actCgsockcont d
  | .sendCsocksetpn =>
    { d.sendCommand b!"AT+CSOCKSETPN=1" with wait := some okStr, snd := .sendCipmode }
  | .sendCipmode => { d.sendCommand b!"AT+CIPMODE=0" with wait := some okStr, snd := .sendNetopen }
  | .sendNetopen =>
    if d.disconnectPending then d.handleDisconnect .finalizeDisconnect
    else
      { d.sendCommand b!"AT+NETOPEN" with
        delay := 10, wait := some b!"+NETOPEN: 0", snd := .sendCiprxget, rep := .netopen }
  | .sendCiprxget => { d.sendCommand b!"AT+CIPRXGET=1" with
                       wait := some okStr, snd := .sendDnsQuery }
  | .sendDnsQuery =>
    let r := d.sendDnsQuery
    if r.2 then { r.1 with rep := .cdnsgip, wait := some okStr, snd := .sendCipopen } else r.1
  | .sendCipopen => actCipopen d
  | .finalizeConnect =>
    { d with delay := 0, cs := .connected, rep := .okReply, snd := .connected, ipConnected := true }
  | .connected => actConnected d
  | .sendData => { d.sendData with wait := some okStr, snd := .connected }
  | .sendCiprxget4 =>
    { d.sendCommand b!"AT+CIPRXGET=4,0" with
      wait := some okStr, snd := .sendCiprxget2, rep := .ciprxget4 }
  | .sendCiprxget2 => actCiprxget2 d
  | .waitReceive => d
  | .receiving => actReceiving d
  | .ipUnconnected =>
    let d := { d with cs := .intermediate }
    if d.disconnectPending then d.handleDisconnect .sendNetclose else d.handleConnect .sendCipopen
  | .sendNetclose =>
    { d.sendCommand b!"AT+NETCLOSE" with
      cs := .intermediate, wait := some b!"+NETCLOSE: 0", snd := .finalizeDisconnect }
  | .finalizeDisconnect =>
    { d with ipConnected := false, cs := .notConnected, snd := .notConnected }
  | .serialError => d
  | .dnsError => d

/-- sim7x00.cpp:185-394: requests, then the state machine. -/
def sendNext (d : D) : D :=
  if d.rssi = int16Max ∧ d.lineRead = true then
    { d.sendCommand b!"AT+CSQ" with rep := .csq, wait := some okStr }
  else
    let r := d.sendIDRequest iccidCommand
    if r.2 then { r.1 with rep := .requestID, wait := some okStr } else act r.1

/-- sim7x00.cpp:177-394: nothing is sent while waiting for a reply or with little space. -/
def proceed (d : D) : D :=
  if d.wait ≠ none ∨ d.rep ≠ .okReply then d
  else if d.serSpace < 20 then d.askSpace
  else sendNext d.askSpace

/-- sim7x00.cpp:85-394: the port is open, not locked and no reset is pending. -/
def work (p : Platform) (d : D) : D :=
  let r := d.fillLineBuffer
  if r.2 then
    let q := parseLine p r.1
    if q.2 then q.1 else proceed q.1
  else proceed (flushIfDisconnecting r.1)

/-- sim7x00.cpp:49-395, `run()`. `openOk`: result of `_serial.open()` if it is called. -/
def run (p : Platform) (d : D) (openOk : Bool) : D :=
  if d.isOpen = false then tryOpen d openOk
  else if d.serialLocked then d
  else if d.resetPending then handleReset d
  else work p d

end Verif.Sim7x00
