import Verif.Model.Sim7x00
import Verif.Model.Sim800
import Verif.Model.CC1352P7

/-!
# Histories

A history is a list of operations on a driver: calls of its API by the application, calls of `run()`
by the scheduler, interrupts of the serial port between calls, and the port being closed. Interrupts
during a call are given by the schedule of the serial device (`Ser.sched`). Results of calls are not
part of the state; what matters of them is recorded in the ghost trace.
-/

namespace Verif

inductive Op
  /-- Interrupts between two calls. -/
  | irq (hs : List Hw)
  /-- The serial port gets closed. -/
  | closePort
  /-- `run()`; result of `open()` in case it is called. -/
  | run (openOk : Bool)
  | connect
  | disconnect
  | setHostPort (host : Option (List Byte)) (port : UInt16) (t : ConnType)
  | write (bs : List Byte)
  | read (n : Nat)
  | requestRSSI
  | resetStates
  | serialWrite (s : List Byte)
  | serialRead (n : Nat)
  /-- cellular drivers only -/
  | setApn (apn : Option (List Byte))
  /-- cellular drivers only -/
  | serialLock
  /-- cellular drivers only -/
  | serialUnlock
  /-- cellular drivers only -/
  | requestID (t : IdType)
  /-- Espressif only -/
  | setSSID (s : Option (List Byte))
  /-- Espressif only -/
  | setPassword (s : Option (List Byte))
  /-- Espressif and CC1352P7 only -/
  | requestMac
deriving Repr, DecidableEq

/-- Operations that are the same for all drivers. Those a driver does not have change nothing. -/
def Dev.common {S R X : Type} (d : Dev S R X) : Op → Dev S R X
  | .irq hs => { d with ser := d.ser.transfers hs }
  | .closePort => { d with isOpen := false }
  | .disconnect => d.disconnect.log .apiDisconnect
  | .setHostPort h p t => d.setHostPort h p t
  | .write bs => (d.write bs).1.log (.apiWrite (bs.take (d.write bs).2))
  | .read n => (d.read n).1.log (.apiRead (d.read n).2)
  | .requestRSSI => d.requestRSSI
  | .serialWrite s => (d.serialWrite s).1
  | .serialRead n => (d.serialRead n).1
  | _ => d

/-- Ghost: log a successful `connect()`. -/
def Dev.logConnect {S R X : Type} (r : Dev S R X × Bool) : Dev S R X :=
  if r.2 then r.1.log .apiConnect else r.1

/-- One operation on a SIM7x00 driver. -/
def Sim7x00.step (p : Platform) (d : Sim7x00.D) : Op → Sim7x00.D
  | .run ok => Sim7x00.run p d ok
  | .connect => Dev.logConnect (SimDev.connect d)
  | .resetStates => SimDev.resetStates d .notConnected .okReply
  | .setApn a => SimDev.setApn d a
  | .serialLock => (SimDev.serialLock d .okReply).1
  | .serialUnlock => SimDev.serialUnlock d
  | .requestID t => SimDev.requestIDString d t
  | op => d.common op

/-- One operation on a SIM800 driver. -/
def Sim800.step (p : Platform) (d : Sim800.D) : Op → Sim800.D
  | .run ok => Sim800.run p d ok
  | .connect => Dev.logConnect (SimDev.connect d)
  | .resetStates => SimDev.resetStates d .notConnected .okReply
  | .setApn a => SimDev.setApn d a
  | .serialLock => (SimDev.serialLock d .okReply).1
  | .serialUnlock => SimDev.serialUnlock d
  | .requestID t => SimDev.requestIDString d t
  | op => d.common op

/-- One operation on an Espressif driver. -/
def Espressif.step (p : Platform) (d : Espressif.D) : Op → Espressif.D
  | .run ok => Espressif.run p d ok
  | .connect => Dev.logConnect (Espressif.connect d)
  | .resetStates => Espressif.resetStates d
  | .setSSID s => Espressif.setSSID d s
  | .setPassword s => Espressif.setPassword d s
  | .requestMac => Espressif.requestMac d
  | op => d.common op

/-- One operation on a CC1352P7 driver. -/
def CC1352P7.step (p : Platform) (d : CC1352P7.D) : Op → CC1352P7.D
  | .run ok => CC1352P7.run p d ok
  | .connect => Dev.logConnect d.ipConnect
  | .resetStates => CC1352P7.resetStates d
  | .requestMac => CC1352P7.requestMac d
  | op => d.common op

/-- A history of operations. -/
def exec {D : Type} (step : D → Op → D) (d : D) (ops : List Op) : D := ops.foldl step d

end Verif
