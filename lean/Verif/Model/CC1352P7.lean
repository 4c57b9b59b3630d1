import Verif.Model.Espressif

/-!
# Model of `cicada/commdevices/cc1352p7.cpp`

Structure as in `Verif.Model.Sim7x00`. (`Espressif` is imported for `macMarked`, which models an
identical expression.)
-/

namespace Verif

/-- cc1352p7.h:137, member of `CC1352P7CommDevice`. -/
structure CcExt where
  mac : Mem
deriving Repr, DecidableEq

namespace CC1352P7

/-- cc1352p7.h, `SendState`, in the order of the enumeration. -/
inductive Snd
  | notConnected | serialError | connecting | sendCipstart | finalizeConnect | connected
  | sendDataState | sendCiprecvdata | waitReceive | receiving | sendCipclose | finalizeDisconnect
deriving Repr, DecidableEq

/-- Numeric value of a send state. -/
def Snd.idx : Snd → Nat
  | .notConnected => 0 | .serialError => 1 | .connecting => 2 | .sendCipstart => 3
  | .finalizeConnect => 4 | .connected => 5 | .sendDataState => 6 | .sendCiprecvdata => 7
  | .waitReceive => 8 | .receiving => 9 | .sendCipclose => 10 | .finalizeDisconnect => 11

/-- cc1352p7.h, `ReplyState`. -/
inductive Rep
  | okReply | parseStateCiprecvdata | csq | reqMac
deriving Repr, DecidableEq

abbrev D := Dev Snd Rep CcExt

/-- cc1352p7.h:31, `MAC64STRING_MAX_LENGTH`. -/
def macMax : Nat := 24

/-- cc1352p7.cpp:34, `CC1352P7_MAX_RX`. -/
def maxRx : Nat := 1220

/-- cc1352p7.cpp:50-65, `resetStates()`. -/
def resetStates (d : D) : D :=
  { d with
    ser := d.ser.flushReceiveBuffers
    rbuf := d.rbuf.flush
    wbuf := d.wbuf.flush
    lbFill := 0
    snd := .notConnected
    rep := .okReply
    cs := .notConnected
    bytesToWrite := 0
    bytesToReceive := 0
    bytesToRead := 0
    wait := none
    connectPending := false
    resetPending := false
    dataPending := false
    disconnectPending := false
    ipConnected := false
    lineRead := true
    serialLocked := false
    rssi := 255
    trace := d.trace ++ [.apiReset] }

/-- cc1352p7.cpp:36-48, constructor (with those of the base classes). Members without initialiser
have arbitrary content. -/
def init (ser : Ser) (rmem wmem : List Byte) (t : ConnType) (line mac : List Byte) : D :=
  resetStates
    { ser := ser, isOpen := false, rbuf := Ring.init rmem, wbuf := Ring.init wmem, typ := t,
      host := none, port := 0,
      connectPending := false, resetPending := false, dataPending := false,
      disconnectPending := false, ipConnected := false, lineRead := true, serialLocked := false,
      cs := .notConnected, wait := none, line := { cells := line, oob := false }, lbFill := 0,
      snd := .notConnected, rep := .okReply, bytesToWrite := 0, bytesToReceive := 0,
      bytesToRead := 0, rssi := 255, delay := 0, ub := false, trace := [],
      ext := { mac := { cells := mac, oob := false } } }

/-- cc1352p7.cpp:75: is the line complete after `c` was stored? -/
def lineStop (r : Rep) (_ : Mem) (k : Nat) (c : Byte) : Option Rep :=
  if c = nl ∨ c = gt ∨ k = lineMax then some r else none

/-- cc1352p7.cpp:67-83, `fillLineBuffer()`. -/
def fillLineBuffer (d : D) : D × Bool := d.fillLine (lineStop d.rep)

/-- cc1352p7.cpp:85-108, `sendCiprcvdata()`. -/
def sendCiprcvdata (d : D) : D × Bool :=
  let d1 := d.askAvail
  if d.ser.readBufferSize - d.serAvail > 30 ∧ d1.rbuf.spaceAvailable > 0 then
    let d2 := d1.askAvail
    let n := SimDev.requestAmount (d1.ser.readBufferSize - d1.serAvail) 30 d.bytesToReceive
      d.rbuf.spaceAvailable maxRx
    (((d2.cmd b!"AT+CIPRECVDATA=").arg (dec n)).arg lineEnd, true)
  else (d1, false)

/-- cc1352p7.cpp:110-122, `parseCiprecvdata()`. -/
def parseCiprecvdata (p : Platform) (d : D) : D × Bool :=
  if d.has b!"+CIPRECVDATA" then
    let n := toInt (strtol p.long64 (d.line.drop 13))
    ({ d with
        bytesToReceive := subSize d.bytesToReceive n
        bytesToRead := addSize d.bytesToRead n
        lineRead := false }, true)
  else (d, false)

/-- cc1352p7.cpp:124-131, `parseCsq()`. -/
def parseCsq (p : Platform) (d : D) : D × Bool :=
  if d.has b!"+CSQ:" then
    ({ d with rssi := toInt16 (strtol p.long64 (d.line.drop 5)) }, true)
  else (d, false)

/-- cc1352p7.cpp:133-137, `requestMac()`. -/
def requestMac (d : D) : D :=
  { d with ext := { d.ext with mac := (d.ext.mac.store 0 0).store 1 255 } }

/-- cc1352p7.cpp:139-146, `getMacString()`. -/
def getMacString (d : D) : Option (List Byte) :=
  if d.wait = none ∧ d.ext.mac.get 0 ≠ 0 then some (cstr d.ext.mac.cells) else none

/-- cc1352p7.cpp:151-156: the serial device is not open. -/
def tryOpen (d : D) (openOk : Bool) : D :=
  if openOk then { d with isOpen := true } else { d with snd := .serialError }

/-- cc1352p7.cpp:159-171: a modem reset is pending. There is no `return`. -/
def handleReset (d : D) : D :=
  let d := d.flushSer
  let d := { d with
    bytesToRead := 0, bytesToReceive := 0, bytesToWrite := 0, snd := Snd.sendCipclose,
    rep := Rep.okReply, wait := none, resetPending := false }
  if d.cs ≠ .notConnected then d.ipConnect.1 else d

/-- cc1352p7.cpp:182-189: error messages from the modem. -/
def isError (d : D) : Bool :=
  d.has b!"ERROR" || (decide (Snd.connected.idx ≤ d.snd.idx) && d.has b!"SEND FAIL")

/-- cc1352p7.cpp:191-196: standard reply. -/
def parseWait (d : D) : D := if d.waitMatches then { d with wait := none } else d

/-- cc1352p7.cpp:212-222: the case `reqMac`. -/
def parseMac (d : D) : D :=
  if d.has b!"+CIPSTAMAC:\"" then
    { d with
      ext := { mac := SimDev.copyUntil 34 macMax macMax (d.line.drop 12) 0 d.ext.mac }
      rep := .okReply }
  else d

/-- cc1352p7.cpp:198-226: replies which need special treatment. The case `csq` falls through to
`reqMac`. -/
def parseReply (p : Platform) (d : D) : D :=
  match d.rep with
  | .parseStateCiprecvdata =>
    let r := parseCiprecvdata p d
    if r.2 then { r.1 with rep := .okReply, snd := .receiving } else r.1
  | .csq =>
    let r := parseCsq p d
    parseMac (if r.2 then { r.1 with rep := .okReply } else r.1)
  | .reqMac => parseMac d
  | .okReply => d

/-- cc1352p7.cpp:228-236: in connected state, check for new data or IP connection close. The
comparison with `"+IPD,"` looks at 4 characters only. The `long` value is converted to `Size`. -/
def checkState (p : Platform) (d : D) : D :=
  if Snd.connected.idx ≤ d.snd.idx then
    if strncmpEq d.line.cells b!"+IPD," 4 then
      { d with bytesToReceive := toU64 (strtol p.long64 (d.line.drop 5)), dataPending := true }
    else if d.has b!"CLOSED" then { d with ipConnected := false }
    else d
  else d

/-- cc1352p7.cpp:177-237: a line is complete; the flag is set by `return`. -/
def parseLine (p : Platform) (d : D) : D × Bool :=
  if isError d then ({ d with resetPending := true, cs := .generalError, wait := none }, true)
  else (checkState p (parseReply p (parseWait d)), false)

/-- cc1352p7.cpp:239-242. -/
def flushIfDisconnecting (d : D) : D :=
  if d.disconnectPending = true ∧ d.snd = .receiving then d.flushReadBuffer else d

/-- cc1352p7.cpp:284-303 -/
def actCipstart (d : D) : D :=
  let d := if d.host = none then { d with ub := true } else d
  let d := d.cmd b!"AT+CIPSTART"
  let d := if d.typ = .udp then d.arg b!"=\"UDP\",\"" else d.arg b!"=\"TCP\",\""
  let d := (((d.arg (d.host.getD [])).arg b!"\",").arg (dec5 d.port)).arg lineEnd
  { d with wait := some okStr, snd := .finalizeConnect }

/-- cc1352p7.cpp:311-332 -/
def actConnected (d : D) : D :=
  if d.wbuf.bytesAvailable ≠ 0 then
    let r := d.prepareSending false
    if r.2 then { r.1.arg lineEnd with cs := .transmitting, snd := .sendDataState } else r.1
  else if d.dataPending then
    { d with dataPending := false, cs := .receiving, snd := .sendCiprecvdata }
  else if d.ipConnected then ({ d with cs := .connected } : D).handleDisconnect .sendCipclose
  else { d with cs := .connected, disconnectPending := false, snd := .finalizeDisconnect }

/-- cc1352p7.cpp:342-356 -/
def actCiprecvdata (d : D) : D :=
  if d.disconnectPending then d.handleDisconnect .sendCipclose
  else if d.bytesToReceive > 0 then
    let r := sendCiprcvdata d
    if r.2 then { r.1 with snd := .waitReceive, rep := .parseStateCiprecvdata } else r.1
  else { d with snd := .connected }

/-- cc1352p7.cpp:361-372 -/
def actReceiving (d : D) : D :=
  if d.bytesToRead > 0 then
    let r := d.receive
    if r.2 then { r.1 with rep := .okReply, wait := some okStr } else r.1
  else if d.bytesToReceive > 0 then { d with snd := .sendCiprecvdata }
  else { d with snd := .connected }

/-- cc1352p7.cpp:269-389: the connection state machine. -/
def act (d : D) : D :=
  match d.snd with
  | .notConnected => ({ d with cs := .notConnected } : D).handleConnect .connecting
  | .connecting =>
    { d.sendCommand b!"ATE0" with
      cs := .intermediate, lineRead := true, wait := some okStr, snd := .sendCipstart }
  | .sendCipstart => actCipstart d
  | .finalizeConnect => { d with cs := .connected, snd := .connected, ipConnected := true }
  | .connected => actConnected d
  | .sendDataState => { d.sendData with wait := some okStr, snd := .connected }
  | .sendCiprecvdata => actCiprecvdata d
  | .waitReceive => d
  | .receiving => actReceiving d
  | .sendCipclose =>
    { d.sendCommand b!"AT+CIPCLOSE" with
      cs := .intermediate, wait := some okStr, snd := .finalizeDisconnect }
  | .finalizeDisconnect =>
    { d with ipConnected := false, cs := .notConnected, snd := .notConnected }
  | .serialError => d

/-- cc1352p7.cpp:252-389: requests, then the state machine. -/
def sendNext (p : Platform) (d : D) : D :=
  if d.rssi = int16Max ∧ d.lineRead = true then
    { d.sendCommand b!"AT+CSQ" with rep := .csq, wait := some okStr }
  else if Espressif.macMarked p d.ext.mac = true ∧ d.ext.mac.get 0 = 0 ∧ d.lineRead = true then
    { d.sendCommand b!"AT+CIPSTAMAC" with
      ext := { mac := d.ext.mac.store 1 0 }, rep := .reqMac, wait := some okStr }
  else act d

/-- cc1352p7.cpp:244-389: nothing is sent while waiting for a reply or with little space. -/
def proceed (p : Platform) (d : D) : D :=
  if d.wait ≠ none ∨ d.rep ≠ .okReply then d
  else if d.serSpace < 20 then d.askSpace
  else sendNext p d.askSpace

/-- cc1352p7.cpp:173-389: the port is open, a reset was handled. -/
def work (p : Platform) (d : D) : D :=
  let r := fillLineBuffer d
  if r.2 then
    let q := parseLine p r.1
    if q.2 then q.1 else proceed p q.1
  else proceed p (flushIfDisconnecting r.1)

/-- cc1352p7.cpp:148-390, `run()`. `openOk`: result of `_serial.open()` if it is called. -/
def run (p : Platform) (d : D) (openOk : Bool) : D :=
  if d.isOpen = false then tryOpen d openOk
  else work p (if d.resetPending then handleReset d else d)

end CC1352P7
end Verif
