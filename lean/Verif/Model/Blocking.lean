import Verif.Base

/-!
# Model of `cicada/commdevices/blockingcommdev.cpp`

The wrapped `ICommDevice`, the tick function and the yield function are arbitrary: they act on a world
`σ`. The loops may run for ever, hence the fuel: `none` means "not finished after that many polls".
-/

namespace Verif

/-- blockingcommdev.h:70-75: what `BlockingCommDevice` is given. `read s n` are the bytes the device
delivers for `read(buffer, n)`; `space`, `write`, `processed` are `spaceAvailable()`, the number
returned by `write(buffer, len)`, and `writeBufferProcessed()`. -/
structure BDev (σ : Type) where
  tick : σ → Nat × σ
  read : σ → Nat → List Byte × σ
  space : σ → Nat × σ
  write : σ → List Byte → Nat × σ
  processed : σ → Bool × σ
  yield : σ → σ

namespace Blocking

/-- Conversion of an `int` to `E_TICK_TYPE` (uint32_t). -/
def toTick (t : Int) : Nat := (t % 4294967296).toNat

/-- Conversion of an `int` to `Size` (size_t, 64 bits). -/
def toSize (n : Int) : Nat := (n % 18446744073709551616).toNat

/-- `_tickFunction() - startTime > (E_TICK_TYPE)timeout` (blockingcommdev.cpp:48, 66, 75). -/
def expired (now start : Nat) (timeout : Int) : Bool :=
  decide ((now + 4294967296 - start) % 4294967296 > toTick timeout)

variable {σ : Type}

/-- blockingcommdev.cpp:47-56, the loop of `read`. `got` are the bytes stored so far, its length is
`totalBytes`. Simplified: `len` and `totalBytes` are unbounded integers, not `int`. -/
def readLoop (d : BDev σ) (start : Nat) (timeout : Int) : Nat → Int → List Byte → σ →
    Option (List Byte × σ)
  | 0, len, got, s => if len = 0 then some (got, s) else none
  | fuel + 1, len, got, s =>
    if len = 0 then some (got, s)
    else
      let t := d.tick s
      if expired t.1 start timeout then some (got, t.2)
      else
        let r := d.read t.2 (toSize len)
        readLoop d start timeout fuel (len - r.1.length) (got ++ r.1) (d.yield r.2)

/-- blockingcommdev.cpp:42-59, `read(buffer, len, timeout)`: the bytes stored in `buffer` (the returned
number is their length). -/
def read (d : BDev σ) (fuel : Nat) (s : σ) (len timeout : Int) : Option (List Byte × σ) :=
  let t := d.tick s
  readLoop d t.1 timeout fuel len [] t.2

/-- blockingcommdev.cpp:65-70, first loop of `write`: wait for space. `some true`: enough space. -/
def spaceLoop (d : BDev σ) (start : Nat) (timeout : Int) (len : Int) : Nat → σ → Option (Bool × σ)
  | 0, _ => none
  | fuel + 1, s =>
    let sp := d.space s
    if sp.1 < toSize len then
      let t := d.tick sp.2
      if expired t.1 start timeout then some (false, t.2)
      else spaceLoop d start timeout len fuel (d.yield t.2)
    else some (true, sp.2)

/-- blockingcommdev.cpp:74-79, second loop of `write`: wait until the data are processed. -/
def doneLoop (d : BDev σ) (start : Nat) (timeout : Int) : Nat → σ → Option (Bool × σ)
  | 0, _ => none
  | fuel + 1, s =>
    let p := d.processed s
    if !p.1 then
      let t := d.tick p.2
      if expired t.1 start timeout then some (false, t.2)
      else doneLoop d start timeout fuel (d.yield t.2)
    else some (true, p.2)

/-- blockingcommdev.cpp:61-82, `write(buffer, len, timeout)` with `len` = number of bytes in `data`.
Simplified: the result is not narrowed from `Size` to `int`. -/
def write (d : BDev σ) (fuel : Nat) (s : σ) (data : List Byte) (timeout : Int) : Option (Nat × σ) :=
  let t := d.tick s
  match spaceLoop d t.1 timeout data.length fuel t.2 with
  | none => none
  | some (false, s) => some (0, s)
  | some (true, s) =>
    let w := d.write s data
    match doneLoop d t.1 timeout fuel w.2 with
    | none => none
    | some (false, s) => some (0, s)
    | some (true, s) => some (w.1, s)

end Blocking
end Verif
