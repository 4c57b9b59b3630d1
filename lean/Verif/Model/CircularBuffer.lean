import Verif.Base

/-!
# Model of `cicada/circularbuffer.h`

The buffer memory is a list of cells. An access outside of it sets the sticky flag `oob` (undefined
behaviour in C++). `Size` is `Nat`: `Verif.Props.Ring` shows that no counter exceeds `bufferSize`,
so no `uint64_t` wrap-around is hidden.
-/

namespace Verif

/-- circularbuffer.h:190-194, members of `CircularBuffer<T>`. `cells` is the memory `_buffer` points
to; `oob` is not a member, it records undefined behaviour. -/
structure Ring (α : Type) where
  writeHead : Nat
  readHead : Nat
  avail : Nat
  size : Nat
  cells : List α
  oob : Bool
deriving Repr, DecidableEq

namespace Ring

variable {α : Type}

/-- circularbuffer.h:47-49, constructor, given `bufferSize` entries of arbitrary content. -/
def init (mem : List α) : Ring α :=
  { writeHead := 0, readHead := 0, avail := 0, size := mem.length, cells := mem, oob := false }

/-- circularbuffer.h:196-201, `incrementOrResetHead`, returning the new value of the head. -/
def inc (r : Ring α) (head : Nat) : Nat :=
  if head + 1 ≥ r.size then 0 else head + 1

/-- circularbuffer.h:168-171, `bytesAvailable`. -/
def bytesAvailable (r : Ring α) : Nat := r.avail

/-- circularbuffer.h:176-179, `spaceAvailable`. Natural subtraction; no wrap since
`avail ≤ size` always holds (`Verif.Props.Ring`). -/
def spaceAvailable (r : Ring α) : Nat := r.size - r.avail

/-- circularbuffer.h:152-155, `isEmpty`. -/
def isEmpty (r : Ring α) : Bool := r.avail == 0

/-- circularbuffer.h:160-163, `isFull`. -/
def isFull (r : Ring α) : Bool := r.avail == r.size

/-- The store `_buffer[_writeHead] = x` followed by `incrementOrResetHead(_writeHead)`
(circularbuffer.h:67-68 and 84-85). -/
def store (r : Ring α) (x : α) : Ring α :=
  { r with
    cells := r.cells.set r.writeHead x
    oob := r.oob || decide (r.cells.length ≤ r.writeHead)
    writeHead := r.inc r.writeHead }

/-- circularbuffer.h:66-69, the loop of `push(const T*, Size)`. -/
def pushLoop (r : Ring α) : List α → Ring α
  | [] => r
  | x :: xs => (r.store x).pushLoop xs

/-- circularbuffer.h:59-74, `push(const T* data, Size size)` for an array `data` of `size`
elements. Returns the new state and the number of elements written. -/
def pushN (r : Ring α) (data : List α) : Ring α × Nat :=
  let n := if data.length > r.spaceAvailable then r.spaceAvailable else data.length
  let r' := r.pushLoop (data.take n)
  ({ r' with avail := r'.avail + n }, n)

/-- circularbuffer.h:82-88, `push(T data)`. -/
def push (r : Ring α) (x : α) : Ring α :=
  let r' := r.store x
  { r' with avail := if r'.avail < r'.size then r'.avail + 1 else r'.avail }

/-- The load of `_buffer[_readHead]` (circularbuffer.h:104, 120, 136): the value, if in range. -/
def load [Inhabited α] (r : Ring α) : α := r.cells.getD r.readHead default

/-- `load` followed by `incrementOrResetHead(_readHead)` (circularbuffer.h:104-105, 120-121): the
remaining state. -/
def advance (r : Ring α) : Ring α :=
  { r with
    oob := r.oob || decide (r.cells.length ≤ r.readHead)
    readHead := r.inc r.readHead }

/-- circularbuffer.h:103-106, the loop of `pull(T*, Size)`. -/
def pullLoop [Inhabited α] (r : Ring α) : Nat → Ring α × List α
  | 0 => (r, [])
  | n + 1 =>
    let x := r.load
    let (r', xs) := r.advance.pullLoop n
    (r', x :: xs)

/-- circularbuffer.h:96-110, `pull(T* data, Size size)`. Returns the new state and the elements
stored in `data`; the return value of the C++ function is their number. -/
def pullN [Inhabited α] (r : Ring α) (size : Nat) : Ring α × List α :=
  let n := if size > r.bytesAvailable then r.bytesAvailable else size
  let (r', xs) := r.pullLoop n
  ({ r' with avail := r'.avail - n }, xs)

/-- circularbuffer.h:118-126, `pull()`. -/
def pull [Inhabited α] (r : Ring α) : Ring α × α :=
  let x := r.load
  let r' := r.advance
  ({ r' with avail := if r'.avail > 0 then r'.avail - 1 else r'.avail }, x)

/-- circularbuffer.h:134-137, `read()`: the value, and the state with the access recorded. -/
def peek [Inhabited α] (r : Ring α) : Ring α × α :=
  ({ r with oob := r.oob || decide (r.cells.length ≤ r.readHead) }, r.load)

/-- circularbuffer.h:142-147, `flush()`. -/
def flush (r : Ring α) : Ring α :=
  { r with writeHead := 0, readHead := 0, avail := 0 }

end Ring
end Verif
