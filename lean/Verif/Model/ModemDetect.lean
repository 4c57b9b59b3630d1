import Verif.Model.Ops

/-!
# Model of `cicada/commdevices/modemdetect.cpp`

Once a driver has been created, the serial device is used by the driver only: its state is then in the
driver (`Driver.ser`). The members of `Task` are modelled as far as `setDelay` is concerned;
`setLastRun(lastRun())` is not.
-/

namespace Verif.ModemDetect

/-- modemdetect.h, `DetectState`, in the order of the enumeration. -/
inductive Det
  | noState | beginState | errorState | cgmmSent | gmrSent | espressifWaitOk | modemDetectedState
  | detectedSim800 | detectedSim7x00 | detectedEspressif | detectedCC1352P7
deriving Repr, DecidableEq

/-- Numeric value. -/
def Det.idx : Det → Nat
  | .noState => 0 | .beginState => 1 | .errorState => 2 | .cgmmSent => 3 | .gmrSent => 4
  | .espressifWaitOk => 5 | .modemDetectedState => 6 | .detectedSim800 => 7 | .detectedSim7x00 => 8
  | .detectedEspressif => 9 | .detectedCC1352P7 => 10

/-- modemdetect.h, `union ModemDriver`. -/
inductive Driver
  | sim800 (d : Sim800.D)
  | sim7x00 (d : Sim7x00.D)
  | espressif (d : Espressif.D)
  | cc1352p7 (d : CC1352P7.D)

/-- The virtual `run()` of the drivers. -/
def Driver.run (p : Platform) (ok : Bool) : Driver → Driver
  | .sim800 d => .sim800 (Sim800.run p d ok)
  | .sim7x00 d => .sim7x00 (Sim7x00.run p d ok)
  | .espressif d => .espressif (Espressif.run p d ok)
  | .cc1352p7 d => .cc1352p7 (CC1352P7.run p d ok)

/-- `Task::delay()` of the drivers. -/
def Driver.delay : Driver → Nat
  | .sim800 d => d.delay
  | .sim7x00 d => d.delay
  | .espressif d => d.delay
  | .cc1352p7 d => d.delay

/-- The serial device. -/
def Driver.ser : Driver → Ser
  | .sim800 d => d.ser
  | .sim7x00 d => d.ser
  | .espressif d => d.ser
  | .cc1352p7 d => d.ser

/-- Is the serial device open? -/
def Driver.isOpen : Driver → Bool
  | .sim800 d => d.isOpen
  | .sim7x00 d => d.isOpen
  | .espressif d => d.isOpen
  | .cc1352p7 d => d.isOpen

/-- Ghost events: `startDetection()`; `flushReceiveBuffers()`; a command written; a line read (without
the terminating zero). -/
inductive DEv
  | start
  | flush
  | cmd (s : List Byte)
  | line (s : List Byte)
deriving Repr, DecidableEq

/-- State of a `ModemDetect` (modemdetect.h) with its serial device. `ub`: sticky, undefined behaviour
happened; `trace`: ghost, never read by the model. -/
structure MD where
  ser : Ser
  isOpen : Bool
  det : Det
  started : Bool
  modem : Option Driver
  delay : Nat
  ub : Bool
  trace : List DEv

/-- modemdetect.cpp:30-32, constructor. -/
def init (ser : Ser) : MD :=
  { ser := ser, isOpen := false, det := .noState, started := false, modem := none, delay := 0,
    ub := false, trace := [] }

/-- modemdetect.cpp:34-37, `startDetection()`. -/
def startDetection (m : MD) : MD := { m with started := true, trace := m.trace ++ [.start] }

/-- modemdetect.cpp:39-42, `modemDetected()`. -/
def modemDetected (m : MD) : Bool := decide (m.det.idx > Det.modemDetectedState.idx)

/-- Buffers given by the application, and the contents of uninitialised memory in the driver. -/
structure Mems where
  rmem : List Byte
  wmem : List Byte
  typ : ConnType
  line : List Byte
  ip : List Byte
  id : List Byte
  mac : List Byte
  ssid : CPtr
  passwd : CPtr

/-- The serial device. -/
def MD.serial (m : MD) : Ser := (m.modem.map Driver.ser).getD m.ser

/-- Is the serial device open? -/
def MD.serialOpen (m : MD) : Bool := (m.modem.map Driver.isOpen).getD m.isOpen

/-- modemdetect.cpp:47-69: construction of the driver. -/
def construct (det : Det) (ser : Ser) (isOpen : Bool) (b : Mems) : Option Driver :=
  match det with
  | .detectedSim800 =>
    some (.sim800 { Sim800.init ser b.rmem b.wmem b.typ b.line b.ip b.id with isOpen := isOpen })
  | .detectedSim7x00 =>
    some (.sim7x00 { Sim7x00.init ser b.rmem b.wmem b.typ b.line b.ip b.id with isOpen := isOpen })
  | .detectedEspressif =>
    some (.espressif
      { Espressif.init ser b.rmem b.wmem b.typ b.line b.mac b.ssid b.passwd with isOpen := isOpen })
  | .detectedCC1352P7 =>
    some (.cc1352p7 { CC1352P7.init ser b.rmem b.wmem b.typ b.line b.mac with isOpen := isOpen })
  | _ => none

/-- modemdetect.cpp:44-72, `getDetectedModem(readBuffer, writeBuffer, readBufferSize,
writeBufferSize)`: `modem` is the return value. -/
def getDetectedModem (m : MD) (b : Mems) : MD :=
  match construct m.det m.serial m.serialOpen b with
  | some d => { m with modem := some d }
  | none => m

/-- `_serial.write((const uint8_t*)s)`. -/
def send (m : MD) (s : List Byte) : MD :=
  { m with ser := (m.ser.writeStr s).1, trace := m.trace ++ [.cmd s] }

/-- modemdetect.cpp:34, 102: the first query. -/
def cgmm : List Byte := b!"AT+CGMM\r\n"
/-- modemdetect.cpp:127: the second query. -/
def gmr : List Byte := b!"AT+GMR\r\n"

/-- modemdetect.cpp:96-110. -/
def query (m : MD) : MD :=
  match m.det with
  | .noState => if m.started then { m with det := .beginState } else m
  | .beginState =>
    let m := { m with ser := m.ser.flushReceiveBuffers, trace := m.trace ++ [.flush] }
    { send m cgmm with det := .cgmmSent, delay := 10 }
  | _ => m

/-- modemdetect.cpp:118-145: what a line means. -/
def examine (m : MD) (l : List Byte) : MD :=
  match m.det with
  | .cgmmSent =>
    if strncmpEq b!"SIMCOM_SIM800" l 13 then { m with det := .detectedSim800 }
    else if strncmpEq b!"SIMCOM_SIM7600" l 14 then { m with det := .detectedSim7x00 }
    else if strncmpEq b!"CC1352P7" l 8 then { m with det := .detectedCC1352P7 }
    else if strncmpEq b!"ERROR" l 5 then { send m gmr with det := .gmrSent }
    else m
  | .gmrSent =>
    if strncmpEq b!"AT version:1.7" l 14 || strncmpEq b!"AT version:2.1" l 14 then
      { m with det := .espressifWaitOk }
    else m
  | .espressifWaitOk =>
    if strncmpEq b!"OK\r\n" l 4 then { m with det := .detectedEspressif } else m
  | _ => m

/-- modemdetect.cpp:112-146. `bufSize` is a `uint16_t`; if it wraps to 0, `readLine` stores nothing and
the terminating zero is stored outside of the array. -/
def readReply (m : MD) : MD :=
  let r := m.ser.canReadLine
  if r.2 then
    let a := r.1.bytesAvailable
    let bufSize := (a.2 + 1) % 65536
    if bufSize = 0 then { m with ser := a.1, ub := true }
    else
      let l := a.1.readLine bufSize
      examine { m with ser := l.1, trace := m.trace ++ [.line (l.2.1.take l.2.2)] } l.2.1
  else { m with ser := r.1 }

/-- modemdetect.cpp:79-147, `run()`. `openOk`: result of `_serial.open()` if it is called. -/
def run (p : Platform) (m : MD) (openOk : Bool) : MD :=
  match m.modem with
  | some d =>
    let d := d.run p openOk
    { m with modem := some d, delay := d.delay }
  | none =>
    if m.isOpen = false then
      if openOk then { m with isOpen := true } else { m with det := .errorState }
    else readReply (query m)

/-- Operations: interrupts of the serial port between calls, the port being closed, the API of the detector, and a call
of the driver (by the pointer returned by `getDetectedModem`). -/
inductive DOp
  | irq (hs : List Hw)
  | closePort
  | run (openOk : Bool)
  | start
  | get (b : Mems)
  | app (op : Op)

/-- An operation on the driver. -/
def Driver.common (op : Op) : Driver → Driver
  | .sim800 d => .sim800 (d.common op)
  | .sim7x00 d => .sim7x00 (d.common op)
  | .espressif d => .espressif (d.common op)
  | .cc1352p7 d => .cc1352p7 (d.common op)

/-- An operation on the driver, with the functions of the driver classes. -/
def Driver.app (p : Platform) (op : Op) : Driver → Driver
  | .sim800 d => .sim800 (Sim800.step p d op)
  | .sim7x00 d => .sim7x00 (Sim7x00.step p d op)
  | .espressif d => .espressif (Espressif.step p d op)
  | .cc1352p7 d => .cc1352p7 (CC1352P7.step p d op)

/-- One operation. -/
def step (p : Platform) (m : MD) : DOp → MD
  | .irq hs =>
    match m.modem with
    | none => { m with ser := m.ser.transfers hs }
    | some d => { m with modem := some (d.common (.irq hs)) }
  | .closePort =>
    match m.modem with
    | none => { m with isOpen := false }
    | some d => { m with modem := some (d.common .closePort) }
  | .run ok => run p m ok
  | .start => startDetection m
  | .get b => getDetectedModem m b
  | .app op =>
    match m.modem with
    | none => m
    | some d => { m with modem := some (d.app p op) }

/-- A history. -/
def execD (p : Platform) (m : MD) (ops : List DOp) : MD := ops.foldl (step p) m

end Verif.ModemDetect
