import Verif.Model.Ntp

/-!
# The tasks of examples/linux/ntp.cpp and examples/stm32f1/ntp.cpp

They ask a server for the time, like the test in examples/linux/autodetectntp.cpp (`Verif.Ntp`), but without time limits and without a verdict.
-/

namespace Verif.NtpClient

open Verif.Ntp

variable {D : Type}

/-- A condition on the device. -/
def when (f : D → Bool) : Duff.Test (World D) := fun w => (f w.dev, w)

/-- linux/ntp.cpp:29-33 -/
def detection (api : Client.Api D) : Duff.Prog (World D) :=
  .seq (.act (call .startDetection api.startDetection))
  (.seq (.wait 1 (.cond (when api.modemDetected)))
  (.act fun w => call (.getDetectedModem (api.modemDetected w.dev)) api.getDetectedModem w))

/-- linux/ntp.cpp:35-48, stm32f1/ntp.cpp:39-43 -/
def opens (api : Client.Api D) (w : World D) : World D :=
  call .connect api.connect (call .setHostPort api.setHostPort (clear (call .configure api.configure w)))

/-- linux/ntp.cpp:35-65, stm32f1/ntp.cpp:39-60. Statements without waits between them are put together. -/
def session (api : Client.Api D) : Duff.Prog (World D) :=
  .seq (.act (opens api))
  (.seq (.wait 2 (.cond (when api.isConnected)))
  (.seq (.act (ask api))
  (.seq (.wait 3 (.cond (when fun d => api.bytesAvailable d != 0)))
  (.seq (.act fun w => closes api (print (read api w)))
  (.seq (.wait 4 (.cond (when api.isIdle)))
  (.act fun w => call (.done (api.isIdle w.dev)) id w))))))

/-- `run()`; the example for Linux detects the modem first. -/
def body (detect : Bool) (api : Client.Api D) : Duff.Prog (World D) :=
  .seq (if detect then detection api else .act id) (session api)

/-- The text of `run()` after macro expansion. -/
def text (detect : Bool) (api : Client.Api D) : Duff.Raw (World D) := Duff.whole 0 5 (body detect api).expand

/-- stm32f1/ntp.cpp:21-28, `byteSwap()`, which is `ntohl()` there. -/
def byteSwap (x : BitVec 32) : BitVec 32 :=
  let ret := (x &&& 0xff) <<< 24
  let ret := ret ||| ((x &&& 0xff00) <<< 8)
  let ret := ret ||| ((x &&& 0xff0000) >>> 8)
  ret ||| ((x &&& 0xff000000) >>> 24)

end Verif.NtpClient
