import Verif.Base

/-!
# Model of the configuration of the serial ports: `cicada/platform/linux/unixserial.cpp`,
`setSerialConfig` of `cicada/platform/stm32f1/stm32uart.cpp`

The constants `B50`, `CS8` etc. of termios and `UART_WORDLENGTH_8B` of the HAL are represented by the
numbers in their names.
-/

namespace Verif.PortConfig

/-- Members that hold the configuration: `_speed`, `_dataBits` (unixserial.h), `_handle.Init.BaudRate`,
`_handle.Init.WordLength` (stm32uart.cpp). -/
structure Conf where
  speed : Nat
  bits : Nat
deriving Repr, DecidableEq

/-- Constructors: unixserial.cpp:32-49, stm32uart.cpp:59-63. -/
def Conf.init : Conf := { speed := 115200, bits := 8 }

/-- unixserial.cpp:93-188, the first `switch` of `setSerialConfig`, not on OSX: `none` is `return
false`. -/
def unixSpeed : Nat → Option Nat
  | 0 => some 0 | 50 => some 50 | 75 => some 75 | 110 => some 110 | 134 => some 134
  | 150 => some 150 | 200 => some 200 | 300 => some 300 | 600 => some 600 | 1200 => some 1200
  | 1800 => some 1800 | 2400 => some 2400 | 9600 => some 9600 | 19200 => some 19200
  | 38400 => some 38400 | 57600 => some 57600 | 115200 => some 115200 | 230400 => some 230400
  | 460800 => some 460800 | 576000 => some 576000 | 921600 => some 921600
  | 1000000 => some 1000000 | 1152000 => some 1152000 | 1500000 => some 1500000
  | 2000000 => some 2000000 | 2500000 => some 2500000 | 3000000 => some 3000000
  | 3500000 => some 3500000 | 4000000 => some 4000000
  | _ => none

/-- unixserial.cpp:190-205, the second `switch`. -/
def unixBits : Nat → Option Nat
  | 5 => some 5 | 6 => some 6 | 7 => some 7 | 8 => some 8
  | _ => none

/-- unixserial.cpp:91-208, `UnixSerial::setSerialConfig(uint32_t, uint8_t)`. -/
def unixSet (c : Conf) (baud : UInt32) (bits : UInt8) : Conf × Bool :=
  match unixSpeed baud.toNat with
  | none => (c, false)
  | some s =>
    let c := { c with speed := s }
    match unixBits bits.toNat with
    | none => (c, false)
    | some b => ({ c with bits := b }, true)

/-- stm32uart.cpp:91-110, `Stm32Uart::setSerialConfig(uint32_t, uint8_t)`. -/
def stm32Set (c : Conf) (baud : UInt32) (bits : UInt8) : Conf × Bool :=
  if baud < 50 ∨ baud > 4500000 then (c, false)
  else
    let c := { c with speed := baud.toNat }
    match bits.toNat with
    | 8 => ({ c with bits := 8 }, true)
    | 9 => ({ c with bits := 9 }, true)
    | _ => (c, false)

/-! ## Opening and closing a Unix serial port -/

/-- What the system calls in `open()` do: no such file; not a terminal; `tcgetattr`, `cfset?speed` or
`tcsetattr` fail; everything succeeds. -/
inductive Outcome
  | noFile | notTty | getFails | speedFails | setFails | success
deriving Repr, DecidableEq

/-- A `UnixSerial` object (`_isOpen`, `_fd`, configuration) and the part of the operating system that
matters: the file descriptors that are open, the next one it will hand out, and the configuration of
the line. -/
structure Port where
  isOpen : Bool
  fd : Option Nat
  conf : Conf
  fds : List Nat
  next : Nat
  line : Option Conf
deriving Repr, DecidableEq

/-- unixserial.cpp:32-49, constructors. -/
def Port.init : Port :=
  { isOpen := false, fd := none, conf := Conf.init, fds := [], next := 0, line := none }

/-- unixserial.cpp:210-218, `close()`. -/
def Port.close (p : Port) : Port :=
  { p with isOpen := false
           fds := match p.fd with
             | none => p.fds
             | some f => p.fds.erase f
           fd := none }

/-- unixserial.cpp:51-89, `open()`. -/
def Port.open (p : Port) (o : Outcome) : Port × Bool :=
  if o = .noFile then ({ p with fd := none }, false)
  else
    let p := { p with fd := some p.next, fds := p.next :: p.fds, next := p.next + 1 }
    match o with
    | .notTty => (p.close, false)
    | .success => ({ p with isOpen := true, line := some p.conf }, true)
    | _ => (p, false)

/-- Calls of the functions of a port. `poll` is what `run()` of the drivers does first: open the port
unless it is open. -/
inductive PortOp
  | poll (o : Outcome)
  | close
  | set (baud : UInt32) (bits : UInt8)
deriving Repr, DecidableEq

/-- One call. -/
def Port.step (p : Port) : PortOp → Port
  | .poll o => if p.isOpen then p else (p.open o).1
  | .close => p.close
  | .set b n => { p with conf := (unixSet p.conf b n).1 }

/-- A history of calls. -/
def Port.exec (ops : List PortOp) : Port := ops.foldl Port.step Port.init

end Verif.PortConfig
