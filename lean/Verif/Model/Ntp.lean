import Verif.Model.Client

/-!
# The task of examples/linux/autodetectntp.cpp

A test at the end of a production line: the task finds the modem, asks a server for the time by UDP and ends the program with a verdict.
`D` is the modem detector and the driver, used through the interface `Client.Api`.
-/

namespace Verif.Ntp

/-- The calls of the task, with the answers other functions would have given at this moment. -/
inductive Call where
  | startDetection
  | getDetectedModem (detected : Bool)
  | configure
  | setHostPort
  | connect
  | write (connected : Bool) (bytes : List Byte)
  | read (available : Nat) (bytes : List Byte)
  | disconnect
  | done (idle : Bool)
deriving DecidableEq, Repr

/-- How the program ends: `exit(EXIT_SUCCESS)`, or the message of `checkExitEol()`. -/
inductive Exit where
  | success
  | noModem
  | notConnected
  | noData
  | noTime
  | notIdle
deriving DecidableEq, Repr

/-- The world of the task. `packet`: the bytes of `m_ntpPacket`. `printed`: the time it printed. `exit`: it has ended the program. -/
structure World (D : Type) where
  dev : D
  log : List Call
  packet : List Byte
  printed : Option Nat
  exit : Option Exit

variable {D : Type}

/-- A call without a result. -/
def call (c : Call) (f : D → D) (w : World D) : World D := { w with dev := f w.dev, log := w.log ++ [c] }

/-- autodetectntp.cpp:71: `memset`. -/
def clear (w : World D) : World D := { w with packet := List.replicate 48 0 }

/-- autodetectntp.cpp:81-82: the first word is stored with the byte order of the PC (least significant byte first). -/
def ask (api : Client.Api D) (w : World D) : World D :=
  let pk := [0x1b, 0, 0, 0] ++ w.packet.drop 4
  { w with dev := api.write w.dev pk, packet := pk, log := w.log ++ [.write (api.isConnected w.dev) pk] }

/-- autodetectntp.cpp:87: the bytes that were not received remain as they are. Simplified: not more than 48 bytes are handed out
(`read()` of the drivers, C28). -/
def read (api : Client.Api D) (w : World D) : World D :=
  let r := api.read w.dev 48
  { w with dev := r.1, packet := r.2 ++ w.packet.drop r.2.length, log := w.log ++ [.read (api.bytesAvailable w.dev) r.2] }

/-- autodetectntp.cpp:90, `ntohl(m_ntpPacket[10]) - 2208988800U`, unsigned arithmetic of 32 bits. -/
def epoch (pk : List Byte) : Nat :=
  let b (i : Nat) : Nat := (pk.getD (40 + i) 0).toNat
  (b 0 * 16777216 + b 1 * 65536 + b 2 * 256 + b 3 + 4294967296 - 2208988800) % 4294967296

/-- autodetectntp.cpp:91 -/
def print (w : World D) : World D := { w with printed := some (epoch w.packet) }

/-- autodetectntp.cpp:107-113, `checkExitEol()`. `exit()` is the end of the task: it leaves the `do { … } while (false)` that the body
is put in here, and the last label is stored. What other tasks do after that is of no concern. -/
def check (c : World D → Bool) (e : Exit) : Duff.Prog (World D) :=
  .ite (fun w => (c w, w)) (.act id) (.seq (.act fun w => { w with exit := some e }) .brk)

/-- A condition on the device. -/
def dev (f : D → Bool) (w : World D) : Bool := f w.dev

/-- autodetectntp.cpp:48-49 and so on: wait and check. -/
def await (l : Nat) (f : D → Bool) (T : Nat) (e : Exit) (rest : Duff.Prog (World D)) : Duff.Prog (World D) :=
  .seq (.wait l (.condTimeout (fun w => (dev f w, w)) fun _ => T)) (.seq (check (dev f) e) rest)

/-- autodetectntp.cpp:50-75 -/
def opens (api : Client.Api D) (w : World D) : World D :=
  call .connect api.connect (call .setHostPort api.setHostPort (clear (call .configure api.configure (call (.getDetectedModem (api.modemDetected w.dev)) api.getDetectedModem w))))

/-- autodetectntp.cpp:95 -/
def closes (api : Client.Api D) (w : World D) : World D := call .disconnect api.disconnect w

/-- autodetectntp.cpp:103-104 -/
def succeeds (api : Client.Api D) (w : World D) : World D := { call (.done (api.isIdle w.dev)) id w with exit := some .success }

/-- autodetectntp.cpp:44-104, `run()`, with the values of `__COUNTER__` from 1 on. Statements without waits between them are put together. -/
def body (api : Client.Api D) : Duff.Prog (World D) :=
  .loop (fun w => (true, w)) id
    (.seq (.act (call .startDetection api.startDetection))
    (await 1 api.modemDetected 30000 .noModem
    (.seq (.act (opens api))
    (await 2 api.isConnected 60000 .notConnected
    (.seq (.act (ask api))
    (await 3 (fun d => api.bytesAvailable d != 0) 60000 .noData
    (.seq (.act fun w => print (read api w))
    (.seq (check (fun w => decide (w.printed.getD 0 > 1636647985)) .noTime)
    (.seq (.act (closes api))
    (await 4 api.isIdle 30000 .notIdle
    (.seq (.act (succeeds api)) .brk)))))))))))

/-- The text of `run()` after macro expansion. -/
def text (api : Client.Api D) : Duff.Raw (World D) := Duff.whole 0 5 (body api).expand

/-- The state before the first call; `junk` is the uninitialised packet. -/
def start (d : D) (junk : List Byte) : World D := ⟨d, [], junk, none, none⟩

/-- A driver, as in `Client.driver`, with host and port of lines 137-138 and UDP (line 74). -/
def driver {S R X : Type} (step : Dev S R X → Op → Dev S R X) (conf : List Op) : Client.Api (Bool × Dev S R X) :=
  { Client.driver step conf with
    setHostPort := fun x => (x.1, step x.2 (.setHostPort (some b!"pool.ntp.org") 123 .udp)) }

end Verif.Ntp
