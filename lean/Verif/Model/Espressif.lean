import Verif.Model.SimComm

/-!
# Model of `cicada/commdevices/espressif.cpp`

Structure as in `Verif.Model.Sim7x00`. (`SimComm` is imported for `requestAmount` and `copyUntil`,
which model identical code.)
-/

namespace Verif

/-- A `const char*` member without initialiser. -/
inductive CPtr
  | uninit | null | str (s : List Byte)
deriving Repr, DecidableEq

/-- The string a pointer points to. -/
def CPtr.val : CPtr → List Byte
  | .str s => s
  | _ => []

/-- espressif.h:170-173, members of `EspressifDevice`. -/
structure EspExt where
  ssid : CPtr
  passwd : CPtr
  mac : Mem
deriving Repr, DecidableEq

namespace Espressif

/-- espressif.h, `SendState`, in the order of the enumeration. -/
inductive Snd
  | notConnected | serialError | connecting | sendCwmode | sendCwjap | sendCiprecvmode | sendCipmux
  | sendCipmode | sendCipstart | finalizeConnect | connected | sendDataState | sendCiprecvdata
  | waitReceive | receiving | sendCipclose | sendCwqap | finalizeDisconnect
deriving Repr, DecidableEq

/-- Numeric value of a send state. -/
def Snd.idx : Snd → Nat
  | .notConnected => 0 | .serialError => 1 | .connecting => 2 | .sendCwmode => 3 | .sendCwjap => 4
  | .sendCiprecvmode => 5 | .sendCipmux => 6 | .sendCipmode => 7 | .sendCipstart => 8
  | .finalizeConnect => 9 | .connected => 10 | .sendDataState => 11 | .sendCiprecvdata => 12
  | .waitReceive => 13 | .receiving => 14 | .sendCipclose => 15 | .sendCwqap => 16
  | .finalizeDisconnect => 17

/-- espressif.h, `ReplyState`. -/
inductive Rep
  | okReply | waitCiprecvdata | parseStateCiprecvdata | reqMac | rssi
deriving Repr, DecidableEq

abbrev D := Dev Snd Rep EspExt

/-- espressif.h:31, `MACSTRING_MAX_LENGTH`. -/
def macMax : Nat := 18

/-- espressif.cpp:32, `ESPRESSIF_MAX_RX`. -/
def maxRx : Nat := 2048

/-- espressif.cpp:48-63, `resetStates()`. -/
def resetStates (d : D) : D :=
  { d with
    ser := d.ser.flushReceiveBuffers
    rbuf := d.rbuf.flush
    wbuf := d.wbuf.flush
    lbFill := 0
    snd := .notConnected
    rep := .okReply
    cs := .notConnected
    bytesToWrite := 0
    bytesToReceive := 0
    bytesToRead := 0
    wait := none
    connectPending := false
    resetPending := false
    dataPending := false
    disconnectPending := false
    ipConnected := false
    lineRead := true
    serialLocked := false
    rssi := 99
    trace := d.trace ++ [.apiReset] }

/-- espressif.cpp:34-46, constructor (with those of the base classes). Members without initialiser
have arbitrary content. -/
def init (ser : Ser) (rmem wmem : List Byte) (t : ConnType) (line mac : List Byte)
    (ssid passwd : CPtr) : D :=
  resetStates
    { ser := ser, isOpen := false, rbuf := Ring.init rmem, wbuf := Ring.init wmem, typ := t,
      host := none, port := 0,
      connectPending := false, resetPending := false, dataPending := false,
      disconnectPending := false, ipConnected := false, lineRead := true, serialLocked := false,
      cs := .notConnected, wait := none, line := { cells := line, oob := false }, lbFill := 0,
      snd := .notConnected, rep := .okReply, bytesToWrite := 0, bytesToReceive := 0,
      bytesToRead := 0, rssi := 99, delay := 0, ub := false, trace := [],
      ext := { ssid := ssid, passwd := passwd, mac := { cells := mac, oob := false } } }

/-- espressif.cpp:65-68, `setSSID`. -/
def setSSID (d : D) (s : Option (List Byte)) : D :=
  { d with ext := { d.ext with ssid := match s with | none => .null | some s => .str s } }

/-- espressif.cpp:70-73, `setPassword`. -/
def setPassword (d : D) (s : Option (List Byte)) : D :=
  { d with ext := { d.ext with passwd := match s with | none => .null | some s => .str s } }

/-- espressif.cpp:75-82, `connect()`. Using an indeterminate pointer is undefined behaviour (the model
then goes on as if it pointed to a string). -/
def connect (d : D) : D × Bool :=
  let d := if d.ext.ssid = .uninit ∨ d.ext.passwd = .uninit then { d with ub := true } else d
  if d.ext.ssid = .null ∨ d.ext.passwd = .null ∨ d.ext.ssid = .str [] then (d, false)
  else d.ipConnect

/-- espressif.cpp:92-110: is the line complete after `c` was stored, and the reply state then. -/
def lineStop (t : ConnType) (r : Rep) (l : Mem) (k : Nat) (c : Byte) : Option Rep :=
  if c = nl ∨ c = gt
      ∨ (t ≠ .tcp ∧ r ≠ .waitCiprecvdata ∧ r ≠ .reqMac ∧ r ≠ .rssi ∧ c = 58)
      ∨ k = lineMax then some r
  else if r = .waitCiprecvdata ∧ k > 14
      ∧ ((c = 58 ∧ hasPrefix l b!"+CIPRECVDATA,") ∨ (c = 44 ∧ hasPrefix l b!"+CIPRECVDATA:")) then
    some .parseStateCiprecvdata
  else none

/-- espressif.cpp:84-114, `fillLineBuffer()`. -/
def fillLineBuffer (d : D) : D × Bool := d.fillLine (lineStop d.typ d.rep)

/-- espressif.cpp:116-139, `sendCiprcvdata()`. -/
def sendCiprcvdata (d : D) : D × Bool :=
  let d1 := d.askAvail
  if d.ser.readBufferSize - d.serAvail > 30 ∧ d1.rbuf.spaceAvailable > 0 then
    let d2 := d1.askAvail
    let n := SimDev.requestAmount (d1.ser.readBufferSize - d1.serAvail) 30 d.bytesToReceive
      d.rbuf.spaceAvailable maxRx
    (((d2.cmd b!"AT+CIPRECVDATA=").arg (dec n)).arg lineEnd, true)
  else (d1, false)

/-- espressif.cpp:141-152, `parseCiprecvdata()`. -/
def parseCiprecvdata (p : Platform) (d : D) : D × Bool :=
  if d.has b!"+CIPRECVDATA" then
    let n := toInt (strtol p.long64 (d.line.drop 13))
    ({ d with
        bytesToReceive := subSize d.bytesToReceive n
        bytesToRead := addSize d.bytesToRead n
        lineRead := false }, true)
  else (d, false)

/-- espressif.cpp:154-158, `requestMac()`. -/
def requestMac (d : D) : D :=
  { d with ext := { d.ext with mac := (d.ext.mac.store 0 0).store 1 255 } }

/-- espressif.cpp:160-167, `getMacString()`. -/
def getMacString (d : D) : Option (List Byte) :=
  if d.wait = none ∧ d.ext.mac.get 0 ≠ 0 then some (cstr d.ext.mac.cells) else none

/-- `_macStringBuffer[1] == 0xFF` (espressif.cpp:314, cc1352p7.cpp:261): where `char` is signed, the
byte 0xFF is promoted to -1 and is never equal to 255. -/
def macMarked (p : Platform) (m : Mem) : Bool := !p.charSigned && m.get 1 == 255

/-- espressif.cpp:172-177: the serial device is not open. -/
def tryOpen (d : D) (openOk : Bool) : D :=
  if openOk then { d with isOpen := true } else { d with snd := .serialError }

/-- espressif.cpp:180-200: a modem reset is pending. -/
def handleReset (d : D) : D :=
  let d := d.flushSer
  let d := { d with
    snd := if Snd.connecting.idx ≤ d.snd.idx ∧ d.snd.idx ≤ Snd.receiving.idx ∧
        d.disconnectPending = false then Snd.connecting else Snd.notConnected
    connectPending := false, resetPending := false, dataPending := false,
    disconnectPending := false, ipConnected := false, lineRead := true, serialLocked := false,
    bytesToRead := 0, bytesToReceive := 0, bytesToWrite := 0 }
  let d := (d.cmd b!"AT+RST").arg lineEnd
  { d with rep := .okReply, wait := some b!"ready", delay := 10 }

/-- espressif.cpp:212-216: error messages from the modem. -/
def isError (d : D) : Bool := d.has b!"ERROR" || d.has b!"FAIL"

/-- espressif.cpp:217-220. -/
def parseSendFail (d : D) : D :=
  if d.snd = .connected ∧ d.has b!"SEND FAIL" = true then
    { d with cs := .generalError, wait := none }
  else d

/-- espressif.cpp:222-227: standard reply. -/
def parseWait (d : D) : D := if d.waitMatches then { d with wait := none } else d

/-- espressif.cpp:254-261: the cells after the third comma, if there are three commas before the
terminating zero. -/
def afterCommas : Nat → List Byte → Option (List Byte)
  | 0, l => some l
  | _ + 1, [] => none
  | n + 1, c :: cs =>
    if c = 0 then none else if c = 44 then afterCommas n cs else afterCommas (n + 1) cs

/-- espressif.cpp:229-270: replies which need special treatment. -/
def parseReply (p : Platform) (d : D) : D :=
  match d.rep with
  | .parseStateCiprecvdata =>
    let r := parseCiprecvdata p d
    if r.2 then { r.1 with rep := .okReply, snd := .receiving } else r.1
  | .reqMac =>
    if d.has b!"+CIPSTAMAC:\"" then
      { d with
        ext := { d.ext with mac := SimDev.copyUntil 34 macMax macMax (d.line.drop 12) 0 d.ext.mac }
        rep := .okReply }
    else d
  | .rssi =>
    if d.has b!"+CWJAP:" then
      { d with
        rssi := match afterCommas 3 (d.line.drop 7) with
          | some l => toInt16 (strtol p.long64 l)
          | none => d.rssi
        rep := .okReply }
    else if d.has b!"No AP" then { d with rssi := 99, rep := .okReply }
    else d
  | .okReply => d
  | .waitCiprecvdata => d

/-- espressif.cpp:272-289: in connected state, check for new data or IP connection close. The
comparison with `"+IPD,"` looks at 4 characters only. -/
def checkState (p : Platform) (d : D) : D :=
  if Snd.connected.idx ≤ d.snd.idx then
    if strncmpEq d.line.cells b!"+IPD," 4 then
      let n := toInt (strtol p.long64 (d.line.drop 5))
      if d.typ = .tcp then { d with bytesToReceive := toU64 n, dataPending := true }
      else
        { d with bytesToRead := addSize d.bytesToRead n, lineRead := false, dataPending := true }
    else if d.has b!"CLOSED" then { d with ipConnected := false }
    else if d.has b!"WIFI DISCONNECT" then { d with snd := .finalizeDisconnect, wait := none }
    else d
  else d

/-- espressif.cpp:206-290: a line is complete; the flag is set by `return`. -/
def parseLine (p : Platform) (d : D) : D × Bool :=
  if isError d then ({ d with resetPending := true, cs := .generalError, wait := none }, true)
  else (checkState p (parseReply p (parseWait (parseSendFail d))), false)

/-- espressif.cpp:292-295. -/
def flushIfDisconnecting (d : D) : D :=
  if d.disconnectPending = true ∧ d.snd = .receiving then d.flushReadBuffer else d

/-- espressif.cpp:347-356 -/
def actCwjap (d : D) : D :=
  let d := ((((d.cmd b!"AT+CWJAP=\"").argN d.ext.ssid.val).arg b!"\",\"").argN
    d.ext.passwd.val).arg quoteEnd
  { d with wait := some okStr, snd := .sendCipmux }

/-- espressif.cpp:385-395 -/
def protoStr : ConnType → List Byte
  | .tcp => b!"=\"TCP\",\""
  | .udp => b!"=\"UDP\",\""
  | .ssl => b!"=\"SSL\",\""

/-- espressif.cpp:380-405 -/
def actCipstart (d : D) : D :=
  let d := if d.host = none then { d with ub := true } else d
  let d := (d.cmd b!"AT+CIPSTART").arg (protoStr d.typ)
  let d := (((d.arg (d.host.getD [])).arg b!"\",").arg (dec5 d.port)).arg lineEnd
  { d with wait := some okStr, snd := .finalizeConnect }

/-- espressif.cpp:414-440 -/
def actConnected (d : D) : D :=
  if d.wbuf.bytesAvailable ≠ 0 then
    let r := d.prepareSending false
    if r.2 then { r.1.arg lineEnd with cs := .transmitting, snd := .sendDataState } else r.1
  else if d.dataPending then
    { d with
      dataPending := false
      cs := .receiving
      snd := if d.typ = .tcp then Snd.sendCiprecvdata else Snd.receiving }
  else if d.ipConnected then
    if d.disconnectPending then
      { ({ d with cs := .connected } : D).handleDisconnect .sendCipclose with delay := 100 }
    else { d with cs := .connected }
  else { d with cs := .connected, disconnectPending := false, snd := .sendCwqap }

/-- espressif.cpp:450-465 -/
def actCiprecvdata (d : D) : D :=
  if d.disconnectPending then { d.handleDisconnect .sendCipclose with delay := 100 }
  else if d.bytesToReceive > 0 then
    let r := sendCiprcvdata d
    if r.2 then { r.1 with snd := .waitReceive, rep := .waitCiprecvdata } else r.1
  else { d with snd := .connected }

/-- espressif.cpp:470-481 -/
def actReceiving (d : D) : D :=
  if d.bytesToRead > 0 then
    let r := d.receive
    if r.2 = true ∧ r.1.typ = .tcp then { r.1 with rep := .okReply, wait := some okStr } else r.1
  else if d.bytesToReceive > 0 then { d with snd := .sendCiprecvdata }
  else { d with snd := .connected }

/-- espressif.cpp:322-508: the connection state machine. -/
def act (d : D) : D :=
  match d.snd with
  | .notConnected => ({ d with delay := 10, cs := .notConnected } : D).handleConnect .connecting
  | .connecting =>
    { d.sendCommand b!"ATE0" with
      delay := 10, cs := .intermediate, lineRead := true, wait := some okStr, snd := .sendCwmode }
  | .sendCwmode =>
    { (d.cmd b!"AT+CWMODE=1").arg lineEnd with wait := some okStr, snd := .sendCwjap }
  | .sendCwjap => actCwjap d
  | .sendCipmux =>
    { d.sendCommand b!"AT+CIPMUX=0" with wait := some okStr, snd := .sendCiprecvmode }
  | .sendCiprecvmode =>
    { d.sendCommand (if d.typ = .tcp then b!"AT+CIPRECVMODE=1" else b!"AT+CIPRECVMODE=0") with
      wait := some okStr, snd := .sendCipmode }
  | .sendCipmode => { d.sendCommand b!"AT+CIPMODE=0" with wait := some okStr, snd := .sendCipstart }
  | .sendCipstart => actCipstart d
  | .finalizeConnect =>
    { d with delay := 0, cs := .connected, snd := .connected, ipConnected := true }
  | .connected => actConnected d
  | .sendDataState => { d.sendData with wait := some b!"SEND OK", snd := .connected }
  | .sendCiprecvdata => actCiprecvdata d
  | .waitReceive => d
  | .receiving => actReceiving d
  | .sendCipclose =>
    if d.ipConnected then
      { d.sendCommand b!"AT+CIPCLOSE" with
        delay := 0, cs := .intermediate, wait := some okStr, snd := .sendCwqap }
    else { d with delay := 0, cs := .intermediate, snd := .sendCwqap }
  | .sendCwqap =>
    { d.sendCommand b!"AT+CWQAP" with
      cs := .intermediate, wait := some b!"WIFI DISCONNECT", snd := .finalizeDisconnect }
  | .finalizeDisconnect =>
    { d with ipConnected := false, cs := .notConnected, snd := .notConnected }
  | .serialError => d

/-- espressif.cpp:305-508: requests, then the state machine. -/
def sendNext (p : Platform) (d : D) : D :=
  if d.rssi = int16Max ∧ d.lineRead = true then
    { d.sendCommand b!"AT+CWJAP?" with rep := .rssi, wait := some okStr }
  else if macMarked p d.ext.mac = true ∧ d.ext.mac.get 0 = 0 ∧ d.lineRead = true then
    { d.sendCommand b!"AT+CIPSTAMAC?" with
      ext := { d.ext with mac := d.ext.mac.store 1 0 }, rep := .reqMac, wait := some okStr }
  else act d

/-- espressif.cpp:297-508: nothing is sent while waiting for a reply or with little space. -/
def proceed (p : Platform) (d : D) : D :=
  if d.wait ≠ none ∨ d.rep ≠ .okReply then d
  else if d.serSpace < 20 then d.askSpace
  else sendNext p d.askSpace

/-- espressif.cpp:202-508: the port is open and no reset is pending. -/
def work (p : Platform) (d : D) : D :=
  let r := fillLineBuffer d
  if r.2 then
    let q := parseLine p r.1
    if q.2 then q.1 else proceed p q.1
  else proceed p (flushIfDisconnecting r.1)

/-- espressif.cpp:169-509, `run()`. `openOk`: result of `_serial.open()` if it is called. -/
def run (p : Platform) (d : D) (openOk : Bool) : D :=
  if d.isOpen = false then tryOpen d openOk
  else if d.resetPending then handleReset d
  else work p d

end Espressif
end Verif
