import Verif.Model.CircularBuffer

/-!
# Model of `cicada/linecircularbuffer.h`
-/

namespace Verif

/-- linecircularbuffer.h:38, 129: a `CircularBuffer<char>` and the counter `_bufferedLines`. The
counter is a `uint16_t`; it is kept below 65536 by explicit reduction. -/
structure LineBuf where
  ring : Ring Byte
  lines : Nat
deriving Repr, DecidableEq

namespace LineBuf

/-- linecircularbuffer.h:41-43, constructor. -/
def init (mem : List Byte) : LineBuf := { ring := Ring.init mem, lines := 0 }

/-- linecircularbuffer.h:59-66, `push(char)`. -/
def push (b : LineBuf) (c : Byte) : LineBuf :=
  { ring := b.ring.push c
    lines := if c = nl then (b.lines + 1) % 65536 else b.lines }

/-- linecircularbuffer.h:52-54, the loop of `push(const char*, Size)`. -/
def pushLoop (b : LineBuf) : List Byte → LineBuf
  | [] => b
  | c :: cs => (b.push c).pushLoop cs

/-- linecircularbuffer.h:45-57, `push(const char* data, Size size)`, `data` having `size` bytes. -/
def pushN (b : LineBuf) (data : List Byte) : LineBuf × Nat :=
  let n := if data.length > b.ring.spaceAvailable then b.ring.spaceAvailable else data.length
  (b.pushLoop (data.take n), n)

/-- linecircularbuffer.h:82-91, `pull()`. Decrement of a `uint16_t`. -/
def pull (b : LineBuf) : LineBuf × Byte :=
  let (r, c) := b.ring.pull
  ({ ring := r, lines := if c = nl then (b.lines + 65535) % 65536 else b.lines }, c)

/-- linecircularbuffer.h:75-77, the loop of `pull(char*, Size)`. -/
def pullLoop (b : LineBuf) : Nat → LineBuf × List Byte
  | 0 => (b, [])
  | n + 1 =>
    let (b', c) := b.pull
    let (b'', cs) := b'.pullLoop n
    (b'', c :: cs)

/-- linecircularbuffer.h:68-80, `pull(char* data, Size size)`. -/
def pullN (b : LineBuf) (size : Nat) : LineBuf × List Byte :=
  let n := if size > b.ring.bytesAvailable then b.ring.bytesAvailable else size
  b.pullLoop n

/-- linecircularbuffer.h:96-99, `numBufferedLines`. -/
def numBufferedLines (b : LineBuf) : Nat := b.lines

/-- linecircularbuffer.h:112-117, the loop of `readLine`; `c` is the last character read, `acc` what
was stored so far (in reverse), `fuel` bounds the iterations (`readLine` starts with enough, the
loop removes one element per iteration). -/
def readLineLoop (size : Nat) : Nat → LineBuf → Byte → List Byte → LineBuf × List Byte
  | 0, b, _, acc => (b, acc.reverse)
  | fuel + 1, b, c, acc =>
    if !b.ring.isEmpty && c != nl then
      let (b', c') := b.pull
      readLineLoop size fuel b' c' (if acc.length < size then c' :: acc else acc)
    else (b, acc.reverse)

/-- linecircularbuffer.h:107-120, `readLine(char* data, Size size)`: the bytes stored in `data`. -/
def readLine (b : LineBuf) (size : Nat) : LineBuf × List Byte :=
  readLineLoop size (b.ring.bytesAvailable + 1) b 0 []

/-- linecircularbuffer.h:122-126, `flush()`. -/
def flush (b : LineBuf) : LineBuf := { ring := b.ring.flush, lines := 0 }

end LineBuf
end Verif
