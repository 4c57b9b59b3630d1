import Verif.Model.Client

/-!
# The task of the examples for mbed and the STM32

The tasks of examples/mbed/main.cpp, 18-72, and of examples/stm32f1/ipcommdevice_stm32.cpp, 19-89, do the same as the one of
examples/linux/ipcommdevice.cpp (`Verif.Client`), but they read the answer in a loop of 400 rounds. A round reads a piece or waits.
-/

namespace Verif.Counted

open Verif.Client (Api Call)

/-- What differs between the two examples. -/
structure Kind where
  /-- the modem is detected first -/
  detect : Bool
  /-- the argument of `E_REENTER_DELAY` -/
  wait : Nat
  /-- what is printed of a piece of the answer -/
  print : List Byte → List Byte

/-- examples/mbed/main.cpp:51-54: a zero is put behind the piece, which is printed with `%s`, that is up to the first zero. -/
def mbed : Kind := ⟨false, 10, fun bs => bs.takeWhile (· != 0)⟩

/-- ipcommdevice_stm32.cpp:62-69: byte by byte, with `\r` before each `\n`. The port `_putchar()` writes to is not modelled. -/
def stm32 : Kind := ⟨true, 20, fun bs => bs.flatMap fun c => if c = 10 then [13, 10] else [c]⟩

/-- The world of the task. `i`: the member `m_i`. `pauses` counts the rounds without data; it is not in the code. -/
structure World (D : Type) where
  base : Client.World D
  i : Nat
  pauses : Nat

variable {D : Type}

/-- A call without a result. -/
def call (c : Call) (f : D → D) (w : World D) : World D := { w with base := Client.call c f w.base }

/-- ipcommdevice_stm32.cpp:60-67, main.cpp:49-52: up to 40 bytes are read into `char buf[41]` and printed. -/
def readSome (k : Kind) (api : Api D) (w : World D) : World D :=
  let r := api.read w.base.dev 40
  { w with base :=
    { dev := r.1
      log := w.base.log ++ [.read r.2]
      shown := w.base.shown ++ k.print r.2
      oob := w.base.oob || decide (r.2.length > 40) } }

/-- A condition on the device. -/
def ask (f : D → Bool) : Duff.Test (World D) := fun w => (f w.base.dev, w)

/-- ipcommdevice_stm32.cpp:30-34 -/
def detection (api : Api D) : Duff.Prog (World D) :=
  .seq (.act (call .startDetection api.startDetection))
  (.seq (.wait 1 (.cond (ask api.modemDetected)))
  (.act (call .getDetectedModem api.getDetectedModem)))

/-- ipcommdevice_stm32.cpp:59-70, main.cpp:48-55, one round. -/
def round (k : Kind) (api : Api D) : Duff.Prog (World D) :=
  .ite (ask fun d => api.bytesAvailable d != 0)
    (.act (readSome k api))
    (.seq (.act fun w => { w with pauses := w.pauses + 1 }) (.wait 4 (.delay fun _ => k.wait)))

/-- ipcommdevice_stm32.cpp:58-71, main.cpp:47-56, the loop. -/
def rounds (k : Kind) (api : Api D) : Duff.Prog (World D) :=
  .loop (fun w => (decide (w.i < 400), w)) (fun w => { w with i := w.i + 1 }) (round k api)

/-- ipcommdevice_stm32.cpp:36-76, main.cpp:27-61, from the connection on. The values of `__COUNTER__` are those of the first example. -/
def session (k : Kind) (api : Api D) : Duff.Prog (World D) :=
  .seq (.act (call .configure api.configure))
  (.seq (.act (call .setHostPort api.setHostPort))
  (.seq (.act (call .connect api.connect))
  (.seq (.wait 2 (.cond (ask api.isConnected)))
  (.seq (.act fun w => call (.write (api.isConnected w.base.dev)) (api.write · Client.request) w)
  (.seq (.wait 3 (.cond (ask fun d => api.bytesAvailable d != 0)))
  (.seq (.act fun w => { w with i := 0 })
  (.seq (rounds k api)
  (.seq (.act fun w => call (.disconnect (api.isConnected w.base.dev) (api.bytesAvailable w.base.dev)) api.disconnect w)
  (.seq (.wait 5 (.cond (ask api.isIdle)))
  (.act (call .done id)))))))))))

/-- ipcommdevice_stm32.cpp:24-79, main.cpp:23-64, `run()`. -/
def body (k : Kind) (api : Api D) : Duff.Prog (World D) :=
  .seq (if k.detect then detection api else .act id) (session k api)

/-- The text of `run()` after macro expansion. -/
def text (k : Kind) (api : Api D) : Duff.Raw (World D) := Duff.whole 0 6 (body k api).expand

/-- The task before its first turn; the constructor sets `m_i` to 0. -/
def start (d : D) : World D := ⟨⟨d, [], [], false⟩, 0, 0⟩

/-- ipcommdevice_stm32.cpp:38-40, main.cpp:29 -/
def conf : List Op := [.setApn (some b!"internet")]

end Verif.Counted
