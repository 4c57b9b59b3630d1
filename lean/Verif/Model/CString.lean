import Verif.Base

/-!
# C library functions used by the drivers

A `char` buffer is a list of cells; a missing cell reads as 0. `strncmp`, `strtol`, `strlen` and
decimal printing as in the C standard (C locale). These are models of the C library, not of code in
the repository.
-/

namespace Verif

/-- A `char` array member with a sticky flag for stores outside of it. -/
structure Mem where
  cells : List Byte
  oob : Bool
deriving Repr, DecidableEq

namespace Mem

/-- `buf[i]`. -/
def get (m : Mem) (i : Nat) : Byte := m.cells.getD i 0

/-- `buf[i] = c`. -/
def store (m : Mem) (i : Nat) (c : Byte) : Mem :=
  { cells := m.cells.set i c, oob := m.oob || decide (m.cells.length ≤ i) }

/-- `buf + i`, as the cells from there on. -/
def drop (m : Mem) (i : Nat) : List Byte := m.cells.drop i

end Mem

/-- The zero terminated string at the start of some cells. -/
def cstr (l : List Byte) : List Byte := l.takeWhile (· ≠ 0)

/-- `strncmp(a, b, n) == 0`. -/
def strncmpEq : List Byte → List Byte → Nat → Bool
  | _, _, 0 => true
  | a, b, n + 1 =>
    a.headD 0 == b.headD 0 && (a.headD 0 == 0 || strncmpEq a.tail b.tail n)

/-- `strncmp(line, lit, strlen(lit)) == 0`. -/
def hasPrefix (m : Mem) (lit : List Byte) : Bool := strncmpEq m.cells lit lit.length

/-- `isspace` in the C locale. -/
def isSpace (c : Byte) : Bool := c == 32 || (9 ≤ c && c ≤ 13)

/-- `isdigit`. -/
def isDigit (c : Byte) : Bool := 48 ≤ c && c ≤ 57

/-- Value of a digit sequence. -/
def digitsVal : Nat → List Byte → Nat
  | acc, [] => acc
  | acc, c :: cs => if isDigit c then digitsVal (acc * 10 + (c.toNat - 48)) cs else acc

/-- Largest value of `long`: 64 bit on Linux, 32 bit on ARM. -/
def longMax (long64 : Bool) : Int := if long64 then 9223372036854775807 else 2147483647

/-- Saturation of an integer to the range of `long`. -/
def satLong (long64 : Bool) (v : Int) : Int :=
  if v > longMax long64 then longMax long64
  else if v < -longMax long64 - 1 then -longMax long64 - 1
  else v

/-- `strtol(s, NULL, 10)`. -/
def strtol (long64 : Bool) (s : List Byte) : Int :=
  let s := s.dropWhile isSpace
  satLong long64 <|
    match s with
    | 45 :: r => -(digitsVal 0 r : Int)
    | 43 :: r => (digitsVal 0 r : Int)
    | r => (digitsVal 0 r : Int)

/-- Conversion to a signed type of `m = 2^bits` values (implementation defined modular conversion, as
all supported compilers do it). -/
def wrapS (m : Int) (v : Int) : Int :=
  let r := v % m
  if r ≥ m / 2 then r - m else r

/-- Conversion to `int`. -/
def toInt (v : Int) : Int := wrapS 4294967296 v

/-- Conversion to `int16_t`. -/
def toInt16 (v : Int) : Int := wrapS 65536 v

/-- Conversion to `Size` (`uint64_t`, defines.h:36). -/
def toU64 (v : Int) : Nat := (v % 18446744073709551616).toNat

/-- `a += b` for `Size a`, `int b`. -/
def addSize (a : Nat) (b : Int) : Nat := toU64 (a + b)

/-- `a -= b` for `Size a`, `int b`. -/
def subSize (a : Nat) (b : Int) : Nat := toU64 (a - b)

/-- Decimal digits, most significant first, at most `fuel` of them (least significant ones). -/
def decAux : Nat → Nat → List Byte → List Byte
  | 0, _, acc => acc
  | fuel + 1, n, acc =>
    let acc := UInt8.ofNat (48 + n % 10) :: acc
    if n / 10 = 0 then acc else decAux fuel (n / 10) acc

/-- `"%u"` of a 32 bit unsigned value (at most 10 digits). -/
def dec (n : Nat) : List Byte := decAux 10 (n % 4294967296) []

/-- `snprintf(buf, 6, "%u", n)`: at most 5 characters. -/
def dec5 (n : Nat) : List Byte := (dec n).take 5

end Verif
