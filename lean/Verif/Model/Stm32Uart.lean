import Verif.Model.BufferedSerial

/-!
# Model of `cicada/platform/stm32f1/stm32uart.cpp`

The processor executes the main program and interrupt handlers. An interrupt handler runs to its end
before the main program goes on; the main program may be interrupted between any two atomic steps.
Atomic steps of the main program are the critical sections of `BufferedSerial`, and single accesses
to the register CR1. The functions of `BufferedSerial` are those of `Verif.Model.BufferedSerial`; the
schedule of interrupts in `Ser` is not used here (it is empty), interrupts are explicit actions.

Hardware assumptions: the interrupt handler is called only if the interrupt is enabled in the NVIC and
RXNE and RXNEIE are set or TXE and TXEIE are set. Writing CR1 has an effect only if the clock of
the UART is enabled. The HAL is not part of the repository: `HAL_UART_Init` and `HAL_UART_DeInit`
leave each interrupt enable bit of CR1 alone or clear it; `HAL_UART_MspDeInit` (supplied by the
application) may switch off the clock.
-/

namespace Verif.Stm32

/-- Where the main program is: outside of the write functions; in the loop of
bufferedserial.cpp:89-91/104-106, with these bytes still to be copied; at `startTransmit()`, before
reading CR1 and after reading it (with the value of RXNEIE read). -/
inductive Pc
  | idle
  | copy (rest : List Byte)
  | load
  | store (rxneie : Bool)
deriving Repr, DecidableEq

/-- State of a `Stm32Uart` and of its UART: the buffers, the bits TXEIE and RXNEIE of CR1, the clock,
the interrupt enable of the NVIC, `_flags & FLAG_ISOPEN`, and the main program. -/
structure Uart where
  ser : Ser
  txeie : Bool
  rxneie : Bool
  clk : Bool
  nvic : Bool
  isOpen : Bool
  pc : Pc
deriving Repr, DecidableEq

/-- stm32uart.cpp:34-58, constructors. -/
def init (rmem wmem : List Byte) : Uart :=
  { ser := Ser.init rmem wmem [], txeie := false, rxneie := false, clk := false, nvic := false,
    isOpen := false, pc := .idle }

/-- Something that happens. -/
inductive Act
  /-- The main program calls `write(data, size)` or `write(data)`; up to the computation of the number
  of bytes to copy. -/
  | callWrite (data : List Byte)
  /-- The main program calls `write(uint8_t)`. -/
  | callWrite1 (c : Byte)
  /-- The main program executes the next atomic step of the write function. -/
  | go
  /-- The main program calls `read()`. -/
  | callRead
  /-- The main program calls `flushReceiveBuffers()`. -/
  | callFlush
  /-- The UART has a byte received and/or is ready to send: calls the handler if enabled. -/
  | event (h : Hw)
  /-- `open()`: result of `HAL_UART_Init`; which bits it leaves alone. -/
  | callOpen (ok keepTx keepRx : Bool)
  /-- `close()`: which bits `HAL_UART_DeInit` leaves alone; is the clock kept on. -/
  | callClose (keepTx keepRx keepClk : Bool)
deriving Repr, DecidableEq

/-- stm32uart.cpp:243-249, `handleInterrupt()`. -/
def handleInterrupt (u : Uart) (h : Hw) : Uart :=
  let s := u.ser.transfer h
  { u with ser := s, txeie := if s.tx.ring.bytesAvailable = 0 then false else u.txeie }

/-- Does the UART request an interrupt that gets executed? -/
def fires (u : Uart) (h : Hw) : Bool :=
  u.nvic && ((h.rx.isSome && u.rxneie) || (h.txOk && u.txeie))

/-- Next atomic step of a write function: bufferedserial.cpp:119-124 (`copyToBuffer`),
stm32uart.cpp:238-241 (`startTransmit()`, a load and a store of CR1). -/
def go (u : Uart) : Uart :=
  match u.pc with
  | .idle => u
  | .copy (c :: cs) => { u with ser := u.ser.copyToBuffer c, pc := .copy cs }
  | .copy [] => { u with pc := .load }
  | .load => { u with pc := .store u.rxneie }
  | .store r =>
    if u.clk then { u with txeie := true, rxneie := r, pc := .idle } else { u with pc := .idle }

/-- stm32uart.cpp:112-195, `open()`, for an existing UART. -/
def openPort (u : Uart) (ok keepTx keepRx : Bool) : Uart :=
  let u := { u with clk := true, txeie := u.txeie && keepTx, rxneie := u.rxneie && keepRx }
  if ok then { u with nvic := true, rxneie := true, isOpen := true } else u

/-- stm32uart.cpp:197-205, `close()`. -/
def closePort (u : Uart) (keepTx keepRx keepClk : Bool) : Uart :=
  { u with nvic := false, txeie := u.txeie && keepTx, rxneie := u.rxneie && keepRx,
           clk := u.clk && keepClk, isOpen := false }

/-- One action. API functions can be called only when the main program is outside of one. -/
def step (u : Uart) : Act → Uart
  | .callWrite data =>
    if u.pc = .idle then
      let r := u.ser.spaceAvailable
      { u with ser := r.1, pc := .copy (data.take r.2) }
    else u
  | .callWrite1 c => if u.pc = .idle then { u with pc := .copy [c] } else u
  | .go => go u
  | .callRead => if u.pc = .idle then { u with ser := u.ser.read1.1 } else u
  | .callFlush => if u.pc = .idle then { u with ser := u.ser.flushReceiveBuffers } else u
  | .event h => if fires u h then handleInterrupt u h else u
  | .callOpen ok kt kr => if u.pc = .idle then openPort u ok kt kr else u
  | .callClose kt kr kc => if u.pc = .idle then closePort u kt kr kc else u

/-- A sequence of actions. -/
def exec (u : Uart) (as : List Act) : Uart := as.foldl step u

/-! ## The table of instances -/

/-- All `Stm32Uart` objects ever constructed, in order: the UART and whether the object still exists;
and the static array `instance` (indices into the former). -/
structure Objs where
  objs : List (Nat × Bool)
  slots : List (Option Nat)
deriving Repr, DecidableEq

/-- stm32uart.cpp:32, the array of `E_MULTITON_MAX_INSTANCES` null pointers. -/
def Objs.start (n : Nat) : Objs := { objs := [], slots := List.replicate n none }

/-- stm32uart.cpp:65-70, the loop of `init`: the first free slot gets the object. -/
def fillSlot (i : Nat) : List (Option Nat) → List (Option Nat)
  | [] => []
  | none :: r => some i :: r
  | some j :: r => some j :: fillSlot i r

/-- stm32uart.cpp:59-71, constructor and `init`. -/
def Objs.new (o : Objs) (uart : Nat) : Objs :=
  { objs := o.objs ++ [(uart, true)], slots := fillSlot o.objs.length o.slots }

/-- stm32uart.cpp:73-77, destructor: the array `instance` is left alone. -/
def Objs.delete (o : Objs) (i : Nat) : Objs :=
  { o with objs := o.objs.modify i fun x => (x.1, false) }

/-- stm32uart.cpp:81-86, the loop of `getInstance`. -/
def findSlot (objs : List (Nat × Bool)) (uart : Nat) : List (Option Nat) → Option Nat
  | [] => none
  | none :: r => findSlot objs uart r
  | some j :: r => if (objs[j]?.map Prod.fst) = some uart then some j else findSlot objs uart r

/-- stm32uart.cpp:79-89, `getInstance`. -/
def Objs.getInstance (o : Objs) (uart : Nat) : Option Nat := findSlot o.objs uart o.slots

/-- Construction and destruction of objects. -/
inductive ObjOp
  | new (uart : Nat)
  | delete (i : Nat)
deriving Repr, DecidableEq

/-- One of them. -/
def Objs.step (o : Objs) : ObjOp → Objs
  | .new u => o.new u
  | .delete i => o.delete i

/-- A history of constructions and destructions in a program with `n` slots. -/
def Objs.exec (n : Nat) (ops : List ObjOp) : Objs := ops.foldl Objs.step (Objs.start n)

end Verif.Stm32
