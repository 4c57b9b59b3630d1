import Verif.Model.Duff
import Verif.Model.Ops

/-!
# The task of examples/linux/ipcommdevice.cpp

The task asks for the detection of the modem, connects, sends a request to a web server, prints the answer and disconnects.
It uses whatever driver the detection yields, through the interface `IPCommDevice`. `D` is the modem detector and the driver.
-/

namespace Verif.Client

/-- What the task uses of the detector and of the driver. -/
structure Api (D : Type) where
  startDetection : D → D
  modemDetected : D → Bool
  getDetectedModem : D → D
  /-- `setApn()` or `setSSID()` and `setPassword()`, depending on the class of the driver -/
  configure : D → D
  setHostPort : D → D
  connect : D → D
  isConnected : D → Bool
  write : D → List Byte → D
  bytesAvailable : D → Nat
  read : D → Nat → D × List Byte
  disconnect : D → D
  isIdle : D → Bool

/-- The calls of the task, with what matters about their circumstances. -/
inductive Call where
  | startDetection
  | getDetectedModem
  | configure
  | setHostPort
  | connect
  /-- the answer `isConnected()` would have given at this moment -/
  | write (connected : Bool)
  | read (bytes : List Byte)
  /-- the answers `isConnected()` and `bytesAvailable()` would have given at this moment -/
  | disconnect (connected : Bool) (left : Nat)
  | done
deriving DecidableEq, Repr

/-- The world of the task. `log`: its calls. `shown`: what it printed of the answer. `oob`: an access outside `buf`. -/
structure World (D : Type) where
  dev : D
  log : List Call
  shown : List Byte
  oob : Bool

variable {D : Type}

/-- ipcommdevice.cpp:51-54 -/
def request : List Byte := b!"GET / HTTP/1.1\r\nHost: wttr.in\r\nUser-Agent: curl\r\nConnection: close\r\n\r\n"

/-- A call without a result. -/
def call (c : Call) (f : D → D) (w : World D) : World D := { w with dev := f w.dev, log := w.log ++ [c] }

/-- ipcommdevice.cpp:62-65: up to 40 bytes are read into `char buf[41]`, a zero is put behind them, and they are printed with
`%s`, that is up to the first zero. -/
def readSome (api : Api D) (w : World D) : World D :=
  let r := api.read w.dev 40
  { w with
    dev := r.1
    log := w.log ++ [.read r.2]
    shown := w.shown ++ r.2.takeWhile (· != 0)
    oob := w.oob || decide (r.2.length > 40) }

/-- A condition on the device. -/
def ask (f : D → Bool) : Duff.Test (World D) := fun w => (f w.dev, w)

/-- ipcommdevice.cpp:25-76, `run()`, with the values of `__COUNTER__` from 1 on. -/
def body (api : Api D) : Duff.Prog (World D) :=
  .seq (.act (call .startDetection api.startDetection))
  (.seq (.wait 1 (.cond (ask api.modemDetected)))
  (.seq (.act (call .getDetectedModem api.getDetectedModem))
  (.seq (.act (call .configure api.configure))
  (.seq (.act (call .setHostPort api.setHostPort))
  (.seq (.act (call .connect api.connect))
  (.seq (.wait 2 (.cond (ask api.isConnected)))
  (.seq (.act fun w => call (.write (api.isConnected w.dev)) (api.write · request) w)
  (.seq (.wait 3 (.cond (ask fun d => api.bytesAvailable d != 0)))
  (.seq (.loop (ask api.isConnected) id
    (.ite (ask fun d => api.bytesAvailable d != 0)
      (.act (readSome api))
      (.wait 4 (.cond (ask fun d => api.bytesAvailable d != 0 || !api.isConnected d)))))
  (.seq (.act fun w => call (.disconnect (api.isConnected w.dev) (api.bytesAvailable w.dev)) api.disconnect w)
  (.seq (.wait 5 (.cond (ask api.isIdle)))
  (.act (call .done id)))))))))))))

/-- The text of `run()` after macro expansion. -/
def text (api : Api D) : Duff.Raw (World D) := Duff.whole 0 6 (body api).expand

/-- What the task sees if the detection yields a given class of driver. The flag is the answer of `modemDetected()`; the detector itself
is modelled elsewhere. The driver exists from the beginning, and `getDetectedModem()` only hands it over. `conf`: the calls of
lines 33-41 for this class. -/
def driver {S R X : Type} (step : Dev S R X → Op → Dev S R X) (conf : List Op) : Api (Bool × Dev S R X) where
  startDetection x := x
  modemDetected x := x.1
  getDetectedModem x := x
  configure x := (x.1, exec step x.2 conf)
  setHostPort x := (x.1, step x.2 (.setHostPort (some b!"wttr.in") 80 .tcp))
  connect x := (x.1, step x.2 .connect)
  isConnected x := x.2.isConnected
  write x bs := (x.1, step x.2 (.write bs))
  bytesAvailable x := x.2.rbuf.bytesAvailable
  read x n := ((x.1, step x.2 (.read n)), (x.2.read n).2)
  disconnect x := (x.1, step x.2 .disconnect)
  isIdle x := x.2.isIdle

/-- ipcommdevice.cpp:33-36 -/
def confSim : List Op := [.setApn (some b!"iot-eu.aer.net")]

/-- ipcommdevice.cpp:37-41 -/
def confEsp : List Op := [.setSSID (some b!"your_ssid"), .setPassword (some b!"your_pass")]

end Verif.Client
