import Verif.Model.Dev

/-!
# Model of `cicada/commdevices/simcommdevice.cpp`

Common part of the SIM800 and SIM7x00 drivers. The send and reply states are those of the concrete
driver; functions that set them are given the new value.
-/

namespace Verif

/-- simcommdevice.h:71, `RequestIDType`, with the numeric values of the enumeration. -/
inductive IdType
  | noRequest | manufacturer | model | imei | imsi | iccid
deriving Repr, DecidableEq

/-- Numeric value, as stored in a `char`. -/
def IdType.code : IdType → Byte
  | .noRequest => 0 | .manufacturer => 1 | .model => 2 | .imei => 3 | .imsi => 4 | .iccid => 5

/-- simcommdevice.h:103-109, members of `SimCommDevice`: `_apn`, `_ip[16]`, `_idStringBuffer[24]`,
`_modemMaxReceiveSize`. -/
structure SimExt where
  apn : Option (List Byte)
  ip : Mem
  id : Mem
  maxRx : Nat
deriving Repr, DecidableEq

/-- simcommdevice.h:29, `IDSTRING_MAX_LENGTH`. -/
def idMax : Nat := 24

abbrev SimDev (S R : Type) := Dev S R SimExt

namespace SimDev

variable {S R : Type}

/-- simcommdevice.cpp:46-64, `resetStates()`; `s0`, `r0` are the states with number 0. -/
def resetStates (d : SimDev S R) (s0 : S) (r0 : R) : SimDev S R :=
  { d with
    ser := d.ser.flushReceiveBuffers
    rbuf := d.rbuf.flush
    wbuf := d.wbuf.flush
    lbFill := 0
    snd := s0
    rep := r0
    cs := .notConnected
    bytesToWrite := 0
    bytesToReceive := 0
    bytesToRead := 0
    wait := none
    connectPending := false
    resetPending := false
    dataPending := false
    disconnectPending := false
    ipConnected := false
    lineRead := true
    serialLocked := false
    rssi := 99
    ext := { d.ext with id := (d.ext.id.store 0 0).store 1 0 }
    trace := d.trace ++ [.apiReset] }

/-- Constructor: ipcommdevice.cpp:29-48, atcommdevice.cpp:38-46, simcommdevice.cpp:33-45, sim7x00.cpp:35-47
and sim800.cpp:34-46. Members without initialiser (`_type`, `_lineBuffer`, `_ip`, `_idStringBuffer`)
have arbitrary content. `Task`: no delay. -/
def init (ser : Ser) (rmem wmem : List Byte) (t : ConnType) (line ip id : List Byte) (maxRx : Nat)
    (s0 : S) (r0 : R) : SimDev S R :=
  resetStates
    { ser := ser, isOpen := false, rbuf := Ring.init rmem, wbuf := Ring.init wmem, typ := t,
      host := none, port := 0,
      connectPending := false, resetPending := false, dataPending := false,
      disconnectPending := false, ipConnected := false, lineRead := true, serialLocked := false,
      cs := .notConnected, wait := none, line := { cells := line, oob := false }, lbFill := 0,
      snd := s0, rep := r0, bytesToWrite := 0, bytesToReceive := 0, bytesToRead := 0, rssi := 99,
      delay := 0, ub := false, trace := [],
      ext := { apn := none, ip := { cells := ip, oob := false }, id := { cells := id, oob := false },
               maxRx := maxRx } }
    s0 r0

/-- simcommdevice.cpp:74: is the line complete after `c` was stored? -/
def lineStop (r : R) (_ : Mem) (k : Nat) (c : Byte) : Option R :=
  if c = nl ∨ c = gt ∨ k = lineMax then some r else none

/-- simcommdevice.cpp:66-82, `fillLineBuffer()`. -/
def fillLineBuffer (d : SimDev S R) : SimDev S R × Bool := d.fillLine (lineStop d.rep)

/-- simcommdevice.cpp:84-87, `setApn`. -/
def setApn (d : SimDev S R) (apn : Option (List Byte)) : SimDev S R :=
  { d with ext := { d.ext with apn := apn } }

/-- simcommdevice.cpp:89-95, `connect()`. -/
def connect (d : SimDev S R) : SimDev S R × Bool :=
  if d.ext.apn = none then (d, false) else d.ipConnect

/-- simcommdevice.cpp:97-104, `serialLock()`; `ok` is the reply state with number 0. -/
def serialLock [DecidableEq R] (d : SimDev S R) (ok : R) : SimDev S R × Bool :=
  if d.wait ≠ none ∨ d.rep ≠ ok then (d, false)
  else ({ d with serialLocked := true }, true)

/-- simcommdevice.cpp:106-109, `serialUnlock()`. -/
def serialUnlock (d : SimDev S R) : SimDev S R := { d with serialLocked := false }

/-- simcommdevice.cpp:118-121: number of quotes in the line. A `uint8_t`, at most 60. -/
def quotes (l : List Byte) : Nat := ((cstr l).filter (· = 34)).length

/-- simcommdevice.cpp:130-132: the cells after the `n`-th quote. -/
def afterQuotes : Nat → List Byte → List Byte
  | 0, l => l
  | _ + 1, [] => []
  | n + 1, c :: cs => if c = 34 then afterQuotes n cs else afterQuotes (n + 1) cs

/-- simcommdevice.cpp:134-138: quotes up to the terminating zero are replaced by zeros. -/
def cutQuotes (l : List Byte) : List Byte :=
  (l.takeWhile (· ≠ 0)).map (fun c => if c = 34 then 0 else c) ++ l.dropWhile (· ≠ 0)

/-- `strcpy` into a buffer. -/
def strcpy (m : Mem) (s : List Byte) : Mem :=
  { cells := (cstr s ++ [0] ++ m.cells.drop ((cstr s).length + 1)).take m.cells.length
    oob := m.oob || decide (m.cells.length < (cstr s).length + 1) }

/-- simcommdevice.cpp:111-146, `parseDnsReply()`: new state, return value. A copy longer than `_ip`
is undefined behaviour. -/
def parseDnsReply (d : SimDev S R) : SimDev S R × Bool :=
  if d.has b!"+CDNSGIP: 1" then
    let q := quotes d.line.cells
    if q < 4 ∨ q > 10 then ({ d with cs := .dnsError }, false)
    else
      let rest := afterQuotes 3 d.line.cells
      let i := d.line.cells.length - rest.length
      let rest' := cutQuotes rest
      let ip := strcpy d.ext.ip rest'
      ({ d with
          line := { d.line with cells := d.line.cells.take i ++ rest' }
          ext := { d.ext with ip := ip }
          ub := d.ub || ip.oob }, true)
  else if d.has b!"+CDNSGIP: 0" then ({ d with resetPending := true }, false)
  else (d, false)

/-- simcommdevice.cpp:148-156, `parseCiprxget4()`. -/
def parseCiprxget4 (p : Platform) (d : SimDev S R) : SimDev S R × Bool :=
  if d.has b!"+CIPRXGET: 4,0," then
    let n := toInt (strtol p.long64 (d.line.drop 15))
    ({ d with bytesToReceive := addSize d.bytesToReceive n }, true)
  else (d, false)

/-- simcommdevice.cpp:158-168, `parseCiprxget2()`. -/
def parseCiprxget2 (p : Platform) (d : SimDev S R) : SimDev S R × Bool :=
  if d.has b!"+CIPRXGET: 2,0," then
    let n := toInt (strtol p.long64 (d.line.drop 15))
    ({ d with
        bytesToReceive := subSize d.bytesToReceive n
        bytesToRead := addSize d.bytesToRead n
        lineRead := false }, true)
  else (d, false)

/-- simcommdevice.cpp:173-183: conversion of the raw value, an `unsigned int`; the arithmetic is
`unsigned` and the result is converted to `int16_t`. -/
def csqToRssi (raw : Nat) : Int :=
  if raw ≤ 31 then toInt16 (((4294967296 - 113) + raw * 2) % 4294967296 : Nat)
  else if raw > 99 ∧ raw ≤ 199 then
    toInt16 (((4294967296 - 116) + (raw - 100)) % 4294967296 : Nat)
  else 0

/-- simcommdevice.cpp:170-187, `parseCsq()`. -/
def parseCsq (p : Platform) (d : SimDev S R) : SimDev S R × Bool :=
  if d.has b!"+CSQ: " then
    let raw := (strtol p.long64 (d.line.drop 6) % 4294967296).toNat
    ({ d with rssi := csqToRssi raw }, true)
  else (d, false)

/-- simcommdevice.cpp:214-225, the loop over the digits, from the last to the first one. -/
def luhnLoop : List Byte → Bool → Nat → Nat
  | [], _, sum => sum
  | c :: cs, second, sum =>
    let v := c.toNat - 48
    let v := if second then v * 2 else v
    luhnLoop cs (!second) (sum + v / 10 + v % 10)

/-- simcommdevice.cpp:207-229, validation of an ICCID. -/
def iccidValid (src : List Byte) : Bool :=
  let digits := src.takeWhile isDigit
  let sum := luhnLoop digits.reverse false 0
  decide (digits.length ≥ 18 ∧ digits.length ≤ 22 ∧ sum % 10 = 0) &&
    src.headD 0 == 56 && src.tail.headD 0 == 57

/-- simcommdevice.cpp:238-244: copy up to a carriage return, at most `idMax - 1` bytes (no stop at a
zero), then terminate. `stopAt` is the carriage return here and the quote in the MAC address parsers
(espressif.cpp:242-245, cc1352p7.cpp:216-219). -/
def copyUntil (stopAt : Byte) (max : Nat) : Nat → List Byte → Nat → Mem → Mem
  | 0, _, k, m => m.store k 0
  | fuel + 1, src, k, m =>
    if src.headD 0 ≠ stopAt ∧ k < max - 1 then
      copyUntil stopAt max fuel src.tail (k + 1) (m.store k (src.headD 0))
    else m.store k 0

/-- simcommdevice.cpp:189-250, `parseIDReply()`. -/
def parseIDReply (d : SimDev S R) : SimDev S R × Bool :=
  if d.has b!"AT" || d.line.get 0 == cr then (d, false)
  else if d.has b!"+ICCID: " then go d (d.line.drop 8)
  else if d.has b!"+" then (d, false)
  else go d (d.line.drop 0)
where
  /-- simcommdevice.cpp:205-249 -/
  go (d : SimDev S R) (src : List Byte) : SimDev S R × Bool :=
    let valid := if d.ext.id.get 2 = IdType.iccid.code then iccidValid src else true
    if valid then
      ({ d with ext := { d.ext with id := copyUntil cr idMax idMax src 0 d.ext.id } }, true)
    else (d, false)

/-- simcommdevice.cpp:254-264, `sendDnsQuery()`. `_host` is not NULL here unless the application set
it to NULL after `connect()`, which is undefined behaviour (`strlen(NULL)`). -/
def sendDnsQuery (d : SimDev S R) : SimDev S R × Bool :=
  let d := if d.host = none then { d with ub := true } else d
  let h := d.host.getD []
  if d.serSpace < h.length + 20 then (d.askSpace, false)
  else (((d.askSpace.cmd b!"AT+CDNSGIP=\"").arg h).arg quoteEnd, true)

/-- simcommdevice.cpp:270-276, espressif.cpp:121-128, cc1352p7.cpp:90-97: the amount to request. `free` is
`readBufferSize() - bytesAvailable()` at the second evaluation; `free - reserve` wraps. -/
def requestAmount (free reserve announced space maxRx : Nat) : Nat :=
  let n := toU64 ((free : Int) - (reserve : Int))
  let n := if n > announced then announced else n
  let n := if n > space then space else n
  if n > maxRx then maxRx else n

/-- simcommdevice.cpp:266-288, `sendCiprxget2()`. `bytesAvailable()` of the serial device is
evaluated twice. -/
def sendCiprxget2 (d : SimDev S R) : SimDev S R × Bool :=
  let d1 := d.askAvail
  if d.ser.readBufferSize - d.serAvail > 8 ∧ d1.rbuf.spaceAvailable > 0 then
    let d2 := d1.askAvail
    let n := requestAmount (d1.ser.readBufferSize - d1.serAvail) 8 d.bytesToReceive
      d.rbuf.spaceAvailable d.ext.maxRx
    (((d2.cmdN b!"AT+CIPRXGET=2,0,").arg (dec n)).arg lineEnd, true)
  else (d1, false)

/-- simcommdevice.cpp:290-298, `checkConnectionState`. -/
def checkConnectionState (d : SimDev S R) (closeVariant : List Byte) : SimDev S R :=
  if d.has b!"+CIPRXGET: 1,0" then { d with dataPending := true }
  else if d.has closeVariant then { d with wait := none, ipConnected := false }
  else d

/-- The command for an identification request (simcommdevice.cpp:306-326); `none` for other values. -/
def idCommand (iccidCmd : List Byte) (c : Byte) : Option (List Byte) :=
  if c = IdType.manufacturer.code then some b!"AT+CGMI"
  else if c = IdType.model.code then some b!"AT+CGMM"
  else if c = IdType.imei.code then some b!"AT+CGSN"
  else if c = IdType.imsi.code then some b!"AT+CIMI"
  else if c = IdType.iccid.code then some iccidCmd
  else none

/-- simcommdevice.cpp:300-330, `sendIDRequest`: new state, return value. -/
def sendIDRequest (d : SimDev S R) (iccidCmd : List Byte) : SimDev S R × Bool :=
  if d.ext.id.get 1 ≠ IdType.noRequest.code ∧ d.ext.id.get 0 = 0 ∧ d.lineRead = true then
    let d' := { d with ext := { d.ext with id := d.ext.id.store 1 0 } }
    match idCommand iccidCmd (d.ext.id.get 1) with
    | some c => (d'.sendCommand c, true)
    | none => (d', false)
  else (d, false)

/-- simcommdevice.cpp:332-337, `requestIDString`. -/
def requestIDString (d : SimDev S R) (t : IdType) : SimDev S R :=
  { d with ext := { d.ext with id := ((d.ext.id.store 0 0).store 1 t.code).store 2 t.code } }

/-- simcommdevice.cpp:339-346, `getIDString()`. -/
def getIDString (d : SimDev S R) : Option (List Byte) :=
  if d.wait = none ∧ d.ext.id.get 0 ≠ 0 then some (cstr d.ext.id.cells) else none

end SimDev
end Verif
