import Verif.Model.Ops
import Verif.Lemmas.DevFrame
import Verif.Lemmas.Ring

/-!
# Properties C28, C29, C39, C43: the application interface of the drivers
-/

namespace Verif.Props.DriverApi

open Verif

/-! ## C28 -/

section
variable {S R X : Type}

/-- C28, generic part (also `connect()` of the CC1352P7 driver, cc1352p7.h has no override). -/
theorem C28_connect (d : Dev S R X) :
    (d.ipConnect.2 = true ↔ (∃ h, d.host = some h) ∧ d.port ≠ 0) ∧
    (d.ipConnect.2 = true → d.ipConnect.1 = { d with connectPending := true }) ∧
    (d.ipConnect.2 = false → d.ipConnect.1 = d) := by
  unfold Dev.ipConnect
  cases h : d.host <;> by_cases hp : d.port = 0 <;> simp [hp]

/-- C28 for the cellular drivers. -/
theorem C28_connect_sim (d : SimDev S R) :
    ((SimDev.connect d).2 = true ↔
      (∃ a, d.ext.apn = some a) ∧ (∃ h, d.host = some h) ∧ d.port ≠ 0) ∧
    ((SimDev.connect d).2 = true → (SimDev.connect d).1 = { d with connectPending := true }) ∧
    ((SimDev.connect d).2 = false → (SimDev.connect d).1 = d) := by
  have h := C28_connect d
  unfold SimDev.connect
  cases ha : d.ext.apn with
  | none => simp
  | some a =>
    simp only [reduceCtorEq, if_false, Option.some.injEq, exists_eq', true_and]
    exact h

/-- C28 for the WiFi driver, SSID and password having been set (to a string or to NULL). -/
theorem C28_connect_esp (d : Espressif.D) (hs : d.ext.ssid ≠ .uninit) (hp : d.ext.passwd ≠ .uninit) :
    ((Espressif.connect d).2 = true ↔
      (∃ s, d.ext.ssid = .str s ∧ s ≠ []) ∧ (∃ w, d.ext.passwd = .str w) ∧
        (∃ h, d.host = some h) ∧ d.port ≠ 0) ∧
    ((Espressif.connect d).2 = true → (Espressif.connect d).1 = { d with connectPending := true }) ∧
    ((Espressif.connect d).2 = false → (Espressif.connect d).1 = d) := by
  have h := C28_connect d
  have hu : ¬(d.ext.ssid = .uninit ∨ d.ext.passwd = .uninit) := by simp [hs, hp]
  simp only [Espressif.connect, if_neg hu]
  by_cases hc : d.ext.ssid = .null ∨ d.ext.passwd = .null ∨ d.ext.ssid = .str []
  · simp only [if_pos hc, Bool.false_eq_true, false_iff, false_imp_iff, imp_self, and_true]
    rcases hc with hc | hc | hc <;> simp [hc]
  · simp only [if_neg hc]
    refine ⟨?_, h.2⟩
    rw [h.1]
    cases h1 : d.ext.ssid with
    | uninit => exact absurd h1 hs
    | null => simp [h1] at hc
    | str s =>
      cases h2 : d.ext.passwd with
      | uninit => exact absurd h2 hp
      | null => simp [h2] at hc
      | str w => cases s <;> simp_all

/-- A driver with host, port and APN: the request is recorded. -/
example (ser : Ser) :
    let d := Sim800.init ser [0] [0] .tcp [] [] [0, 0, 0]
    let d := SimDev.setApn (d.setHostPort (some b!"h") 80 .tcp) (some b!"internet")
    (SimDev.connect d).2 = true ∧ (SimDev.connect d).1.connectPending = true := ⟨rfl, rfl⟩

/-- Without APN it is refused. -/
example (ser : Ser) :
    let d := Sim800.init ser [0] [0] .tcp [] [] [0, 0, 0]
    let d := d.setHostPort (some b!"h") 80 .tcp
    (SimDev.connect d).2 = false := rfl

/-! ## C29 -/

/-- C29: outside of the state `connected`, nothing is stored and no space is reported. -/
theorem C29_not_connected (d : Dev S R X) (bs : List Byte) (h : d.cs ≠ .connected) :
    d.write bs = (d, 0) ∧ d.spaceAvailable = 0 := by
  simp [Dev.write, Dev.spaceAvailable, h]

/-- C29: `write()` returns `min(n, spaceAvailable())` in every state, and appends exactly that prefix
of the data to the bytes waiting to be sent. `q` are the bytes waiting before. -/
theorem C29_write (d : Dev S R X) (bs q : List Byte) (h : Ring.Rep d.wbuf q) :
    (d.write bs).2 = min bs.length d.spaceAvailable ∧
    Ring.Rep (d.write bs).1.wbuf (q ++ bs.take (d.write bs).2) ∧
    (d.write bs).1 = { d with wbuf := (d.write bs).1.wbuf } := by
  by_cases hc : d.cs = .connected
  · have := Ring.rep_pushN h bs
    have hsp : d.spaceAvailable = d.wbuf.size - q.length := by
      simp [Dev.spaceAvailable, hc, h.spaceAvailable]
    have e : (d.write bs).2 = min bs.length (d.wbuf.size - q.length) := by
      simp [Dev.write, hc, this.2]
    refine ⟨by rw [hsp, e], ?_, by simp [Dev.write, hc]⟩
    have e2 : (d.write bs).1.wbuf = (d.wbuf.pushN bs).1 := by simp [Dev.write, hc]
    rw [e, e2]
    have e3 : bs.take (min bs.length (d.wbuf.size - q.length)) = bs.take (d.wbuf.size - q.length) := by
      rw [Nat.min_comm, ← List.take_take, List.take_length]
    rw [e3]; exact this.1
  · simp [Dev.write, Dev.spaceAvailable, hc, h]

/-- C29: connected and idle exclude each other. -/
theorem C29_exclusive (d : Dev S R X) : ¬(d.isConnected = true ∧ d.isIdle = true) := by
  unfold Dev.isConnected Dev.isIdle
  cases d.cs <;> decide

/-- C29: `disconnect()` while idle changes nothing; otherwise it only records the request. -/
theorem C29_disconnect (d : Dev S R X) :
    (d.isIdle = true → d.disconnect = d) ∧
    (d.isIdle = false → d.disconnect = { d with disconnectPending := true }) := by
  constructor <;> intro h <;> simp [Dev.disconnect, h]

/-- A connected driver with room for two bytes accepts two of three. -/
example :
    let d : Dev Unit Unit Unit :=
      { ser := Ser.init [] [] [], isOpen := true, rbuf := Ring.init [], wbuf := Ring.init [0, 0],
        typ := .tcp, host := none, port := 0, connectPending := false, resetPending := false,
        dataPending := false, disconnectPending := false, ipConnected := true, lineRead := true,
        serialLocked := false, cs := .connected, wait := none, line := ⟨[], false⟩, lbFill := 0,
        snd := (), rep := (), bytesToWrite := 0, bytesToReceive := 0, bytesToRead := 0, rssi := 0,
        delay := 0, ub := false, trace := [], ext := () }
    (d.write [1, 2, 3]).2 = 2 := by decide

end

/-! ## C39 -/

/-- `serialLock()` succeeds iff the driver waits for nothing, and then only sets the lock. -/
theorem C39_lock {S R : Type} [DecidableEq R] (d : SimDev S R) (ok : R) :
    ((SimDev.serialLock d ok).2 = true ↔ d.wait = none ∧ d.rep = ok) ∧
    ((SimDev.serialLock d ok).2 = true → (SimDev.serialLock d ok).1 = { d with serialLocked := true }) ∧
    ((SimDev.serialLock d ok).2 = false → (SimDev.serialLock d ok).1 = d) := by
  unfold SimDev.serialLock
  cases hw : d.wait <;> by_cases hr : d.rep = ok <;> simp [hr]

/-- Operations that do not end the lock and do not close the port. -/
def keepsLock : Op → Bool
  | .serialUnlock | .resetStates | .closePort => false
  | _ => true

/-- Is the operation a call of `run()`? -/
def isRun : Op → Bool
  | .run _ => true
  | _ => false

theorem sim7x00_step_lock (p : Platform) (d : Sim7x00.D) (op : Op) (hk : keepsLock op = true)
    (ho : d.isOpen = true) (hl : d.serialLocked = true) :
    (Sim7x00.step p d op).isOpen = true ∧ (Sim7x00.step p d op).serialLocked = true ∧
      (isRun op = true → Sim7x00.step p d op = d) := by
  cases op <;> simp_all [keepsLock, isRun, Sim7x00.step, Sim7x00.run, Dev.common, Dev.logConnect,
    Dev.log, SimDev.connect, SimDev.setApn, SimDev.serialLock, SimDev.requestIDString,
    Dev.setHostPort, Dev.requestRSSI] <;> (repeat' split) <;> simp_all

theorem sim800_step_lock (p : Platform) (d : Sim800.D) (op : Op) (hk : keepsLock op = true)
    (ho : d.isOpen = true) (hl : d.serialLocked = true) :
    (Sim800.step p d op).isOpen = true ∧ (Sim800.step p d op).serialLocked = true ∧
      (isRun op = true → Sim800.step p d op = d) := by
  cases op <;> simp_all [keepsLock, isRun, Sim800.step, Sim800.run, Dev.common, Dev.logConnect,
    Dev.log, SimDev.connect, SimDev.setApn, SimDev.serialLock, SimDev.requestIDString,
    Dev.setHostPort, Dev.requestRSSI] <;> (repeat' split) <;> simp_all

/-- While the lock is held and the port is open, calls of `run()` have no effect at all: any history
gives the same state as the history without its calls of `run()`. -/
theorem C39_locked_sim7x00 (p : Platform) (ops : List Op) (d : Sim7x00.D)
    (hk : ∀ op ∈ ops, keepsLock op = true) (ho : d.isOpen = true) (hl : d.serialLocked = true) :
    exec (Sim7x00.step p) d ops = exec (Sim7x00.step p) d (ops.filter (fun op => !isRun op)) := by
  induction ops generalizing d with
  | nil => rfl
  | cons op ops ih =>
    have h := sim7x00_step_lock p d op (hk op (by simp)) ho hl
    have hk' : ∀ op ∈ ops, keepsLock op = true := fun o ho => hk o (by simp [ho])
    by_cases hr : isRun op = true
    · simp only [exec, List.foldl_cons, List.filter_cons, hr, Bool.not_true, Bool.false_eq_true,
        if_false]
      rw [h.2.2 hr]
      exact ih d hk' ho hl
    · simp only [Bool.not_eq_true] at hr
      simp only [exec, List.foldl_cons, List.filter_cons, hr, Bool.not_false, if_true]
      exact ih _ hk' h.1 h.2.1

/-- The same for the SIM800 driver. -/
theorem C39_locked_sim800 (p : Platform) (ops : List Op) (d : Sim800.D)
    (hk : ∀ op ∈ ops, keepsLock op = true) (ho : d.isOpen = true) (hl : d.serialLocked = true) :
    exec (Sim800.step p) d ops = exec (Sim800.step p) d (ops.filter (fun op => !isRun op)) := by
  induction ops generalizing d with
  | nil => rfl
  | cons op ops ih =>
    have h := sim800_step_lock p d op (hk op (by simp)) ho hl
    have hk' : ∀ op ∈ ops, keepsLock op = true := fun o ho => hk o (by simp [ho])
    by_cases hr : isRun op = true
    · simp only [exec, List.foldl_cons, List.filter_cons, hr, Bool.not_true, Bool.false_eq_true,
        if_false]
      rw [h.2.2 hr]
      exact ih d hk' ho hl
    · simp only [Bool.not_eq_true] at hr
      simp only [exec, List.foldl_cons, List.filter_cons, hr, Bool.not_false, if_true]
      exact ih _ hk' h.1 h.2.1

/-- Without the lock, `serialWrite` and `serialRead` do nothing; with it they are the serial device's
own functions. -/
theorem C39_serial_access {S R X : Type} (d : Dev S R X) (s : List Byte) (n : Nat) :
    (d.serialLocked = false → d.serialWrite s = (d, 0) ∧ d.serialRead n = (d, [])) ∧
    (d.serialLocked = true →
      (d.serialWrite s).2 = (d.ser.writeStr s).2 ∧ (d.serialWrite s).1.ser = (d.ser.writeStr s).1 ∧
      (d.serialRead n).2 = (d.ser.read n).2 ∧ (d.serialRead n).1.ser = (d.ser.read n).1) := by
  constructor <;> intro h <;> simp [Dev.serialWrite, Dev.serialRead, h]

/-- The application takes the lock of a fresh driver, sends a command of its own and lets the driver
run; the driver is silent, and the command is in the serial buffer. -/
example :
    let d0 := Sim7x00.init (Ser.init [0, 0] [0, 0, 0, 0] []) [0] [0] .tcp [] [] [0, 0, 0]
    let d := exec (Sim7x00.step ⟨true, true⟩) d0
      [.run true, .serialLock, .serialWrite b!"AT", .run true, .requestRSSI, .run true]
    d.serialLocked = true ∧ d.ser.sent = b!"AT" ∧ d.rssi = 32767 := by decide +kernel

/-! ## C43 -/

/-- The part of a driver state that `resetStates()` is documented to restore. -/
structure Core (S R : Type) where
  connectPending : Bool
  resetPending : Bool
  dataPending : Bool
  disconnectPending : Bool
  ipConnected : Bool
  lineRead : Bool
  serialLocked : Bool
  cs : ConnState
  wait : Option (List Byte)
  lbFill : Nat
  snd : S
  rep : R
  bytesToWrite : Nat
  bytesToReceive : Nat
  bytesToRead : Nat
  rssi : Int
  readable : Nat
  unsent : Nat
  serialReadable : Nat

def core {S R X : Type} (d : Dev S R X) : Core S R :=
  { connectPending := d.connectPending, resetPending := d.resetPending,
    dataPending := d.dataPending, disconnectPending := d.disconnectPending,
    ipConnected := d.ipConnected, lineRead := d.lineRead, serialLocked := d.serialLocked,
    cs := d.cs, wait := d.wait, lbFill := d.lbFill, snd := d.snd, rep := d.rep,
    bytesToWrite := d.bytesToWrite, bytesToReceive := d.bytesToReceive,
    bytesToRead := d.bytesToRead, rssi := d.rssi, readable := d.rbuf.bytesAvailable,
    unsent := d.wbuf.bytesAvailable, serialReadable := d.ser.rx.ring.bytesAvailable }

/-- C43, cellular drivers: after any history, `resetStates()` restores the state a newly constructed
driver has, whatever the parameters of the construction; a pending identification request is gone. -/
theorem C43_sim {S R : Type} (d : SimDev S R) (s0 : S) (r0 : R) (ser : Ser)
    (rmem wmem line ip id : List Byte) (t : ConnType) (m : Nat) (hid : d.ext.id.cells.length = idMax) :
    core (SimDev.resetStates d s0 r0) = core (SimDev.init ser rmem wmem t line ip id m s0 r0) ∧
    (SimDev.resetStates d s0 r0).ext.id.get 0 = 0 ∧ (SimDev.resetStates d s0 r0).ext.id.get 1 = 0 ∧
    SimDev.getIDString (SimDev.resetStates d s0 r0) = none := by
  have h0 : (SimDev.resetStates d s0 r0).ext.id.get 0 = 0 := by
    simp [SimDev.resetStates, Mem.store, Mem.get, hid, idMax, List.getD_eq_getElem?_getD]
  refine ⟨rfl, h0, ?_, ?_⟩
  · simp [SimDev.resetStates, Mem.store, Mem.get, hid, idMax, List.getD_eq_getElem?_getD]
  · unfold SimDev.getIDString; rw [h0]; simp

/-- C43, WiFi driver. The MAC address buffer, and with it a pending request, is kept. -/
theorem C43_esp (d : Espressif.D) (ser : Ser) (rmem wmem line mac : List Byte) (t : ConnType)
    (ssid passwd : CPtr) :
    core (Espressif.resetStates d) = core (Espressif.init ser rmem wmem t line mac ssid passwd) ∧
    (Espressif.resetStates d).ext = d.ext := ⟨rfl, rfl⟩

/-- C43, WiSUN driver. The MAC address buffer, and with it a pending request, is kept. -/
theorem C43_cc (d : CC1352P7.D) (ser : Ser) (rmem wmem line mac : List Byte) (t : ConnType) :
    core (CC1352P7.resetStates d) = core (CC1352P7.init ser rmem wmem t line mac) ∧
    (CC1352P7.resetStates d).ext = d.ext := ⟨rfl, rfl⟩

/-- The surviving MAC request is visible: the driver sends the query although the request was made
before `resetStates()`. -/
theorem C43_mac_survives :
    let d0 := Espressif.init (Ser.init [0] (List.replicate 40 0) []) [0] [0] .tcp
      (List.replicate 61 0) (List.replicate 18 0) .null .null
    let d := exec (Espressif.step ⟨false, true⟩) d0 [.run true, .requestMac, .resetStates, .run true]
    d.ser.sent = b!"AT+CIPSTAMAC?\r\n" := by decide +kernel

/-- Neither does `resetStates()` reset the delay of the task. -/
theorem C43_delay_survives {S R : Type} (d : SimDev S R) (s0 : S) (r0 : R) :
    (SimDev.resetStates d s0 r0).delay = d.delay := rfl

/-- A driver in the middle of a connection is as new after `resetStates()`. -/
example :
    let d0 := Sim7x00.init (Ser.init [0, 0] (List.replicate 40 0) []) [0] [0] .tcp [] []
      (List.replicate 24 0)
    let d := exec (Sim7x00.step ⟨true, true⟩) d0
      [.setApn (some b!"a"), .setHostPort (some b!"h") 1 .tcp, .connect, .run true, .run true,
       .run true]
    d.wait = some okStr ∧ core (SimDev.resetStates d .notConnected .okReply) = core d0 := by
  refine ⟨by decide +kernel, rfl⟩

end Verif.Props.DriverApi
