import Verif.Lemmas.PaceSched
import Verif.Lemmas.PaceSim7x00
import Verif.Lemmas.PaceSim800
import Verif.Lemmas.PaceEspressif
import Verif.Lemmas.PaceCC1352P7
import Verif.Spec.Sessions

/-!
# C78: how long a driver sleeps, and how soon it is run again

`C78_<driver>_delay`: the delays a driver asks for, in all histories, and while it is connected.

`C78_period`: a scheduler with `n` tasks whose `runTask()` is called at least every `B` milliseconds runs a task that
never asks for more than `D` milliseconds again after at most `D + n * B`.

`C78_<driver>_reaction`: both together, for a driver in a system of arbitrary other tasks that use it in any way.
-/

namespace Verif.Props.Pace

open Verif Dev Spec

/-- **C78**, scheduler. -/
theorem C78_period {σ : Type} {body : Bodies σ} (hb : Sched.Respects body) (tasks : List Task) (w : σ)
    (tm : Nat → Nat) {B D i : Nat} (hc : Clock tm B) (hi : i < tasks.length)
    (hs : D + tasks.length * B < 4294967296) (j : Nat) (hj : RunsAt body (Sched.init tasks w) tm i j)
    (hd : ∀ k, j < k → tm k ≤ tm j + D + tasks.length * B → ∀ t,
      (stAt body (Sched.init tasks w) tm k).tasks[i]? = some t → t.delay ≤ D) :
    ∃ k, j < k ∧ RunsAt body (Sched.init tasks w) tm i k ∧ tm k ≤ tm j + D + tasks.length * B :=
  next_run hb tasks w tm hc hi hs j hj hd

/-- Two tasks that ask for 7 ms, calls 3 ms apart: the second one is run at 3 ms and again at 15 ms, not at 9 ms. These
12 ms are one less than the bound 7 + 2 * 3. -/
example : (Sched.runTasks (fun i (w : Nat) ts => (w, ts.modify i (·.setDelay 7)))
      (Sched.init [Task.init 0 0, Task.init 0 0] 0) [0, 3, 6, 9, 12, 15]).2.map (·.map fun e => (e.idx, e.tick, e.ran)) =
    [some (0, 0, true), some (1, 3, true), some (0, 6, false), some (1, 9, false), some (0, 12, true),
      some (1, 15, true)] := by decide

example : Clock (fun k => 3 * k) 3 :=
  ⟨fun k => by omega, fun k => by omega, fun T => ⟨T, by omega⟩⟩

/-! ## Sim7x00 -/

/-- **C78**, Sim7x00: delays. -/
theorem C78_sim7x00_delay (p : Platform) (rx tx : List Byte) (sched : List (List Hw))
    (rmem wmem : List Byte) (t : ConnType) (line ip id : List Byte) (hl : line.length = 61)
    (ops : List Op) :
    let d := exec (Sim7x00.step p) (Sim7x00.init (Ser.init rx tx sched) rmem wmem t line ip id) ops
    d.delay ∈ [0, 10, 2000, 4000] ∧ (d.isConnected = true → d.delay = 0) := by
  intro d
  have h : Sim7x00.Paced d := Sim7x00.exec_stages (Sim7x00.paced_sections p) Sim7x00.paced_calls Sim7x00.paced_own
    (Sim7x00.inv_init rx tx sched rmem wmem t ip id hl)
    (.slow (Sim7x00.LinkInv.of_down rfl rfl (by simp [Sim7x00.init, SimDev.init, SimDev.resetStates]) (by simp [Sim7x00.init, SimDev.init, SimDev.resetStates]))
      (List.mem_cons_self ..) rfl rfl (by simp [Sim7x00.init, SimDev.init, SimDev.resetStates])) ops
  refine ⟨h.all, fun hc => ?_⟩
  · exact h.fast (Or.inl hc)

/-- **C78**, Sim7x00: in any system of tasks the driver is run again after at most 4000 + `n * B` milliseconds, and after
at most `n * B` milliseconds while it is connected. -/
theorem C78_sim7x00_reaction {W : Type} (p : Platform) (rx tx : List Byte) (sched : List (List Hw))
    (rmem wmem : List Byte) (t : ConnType) (line ip id : List Byte) (hl : line.length = 61)
    {i : Nat} (turn : Nat → Sim7x00.D × W → List Task → Turn W)
    (ht : ∀ j w ts, (turn j w ts).tasks.map Task.lastRun = ts.map Task.lastRun)
    (tasks : List Task) (w : W) (tm : Nat → Nat) (hi : i < tasks.length)
    (h0 : tasks[i]?.map Task.delay = some 0) {B : Nat} (hc : Clock tm B)
    (hs : 4000 + tasks.length * B < 4294967296) (j : Nat) :
    let d0 := Sim7x00.init (Ser.init rx tx sched) rmem wmem t line ip id
    let s0 := Sched.init tasks (d0, w)
    let body := system (Sim7x00.step p) i turn
    RunsAt body s0 tm i j →
      (∃ k, j < k ∧ RunsAt body s0 tm i k ∧ tm k ≤ tm j + 4000 + tasks.length * B) ∧
      ((∀ k, j < k → tm k ≤ tm j + 0 + tasks.length * B → (stAt body s0 tm k).world.1.isConnected = true) →
        ∃ k, j < k ∧ RunsAt body s0 tm i k ∧ tm k ≤ tm j + 0 + tasks.length * B) := by
  intro d0 s0 body hj
  refine ⟨?_, fun hconn => ?_⟩
  · refine system_next (D := 4000) _ turn ht tasks d0 w tm hi h0 hc hs j hj fun k _ _ ops _ => ?_
    have := (C78_sim7x00_delay p rx tx sched rmem wmem t line ip id hl ops).1
    simp only [List.mem_cons, List.not_mem_nil, or_false] at this
    show (exec (Sim7x00.step p) (Sim7x00.init (Ser.init rx tx sched) rmem wmem t line ip id) ops).delay ≤ 4000
    omega
  · refine system_next (D := 0) _ turn ht tasks d0 w tm hi h0 hc (by omega) j hj fun k hk hT ops e => ?_
    have hi := hconn k hk hT
    rw [e] at hi
    have := (C78_sim7x00_delay p rx tx sched rmem wmem t line ip id hl ops).2 hi
    show (exec (Sim7x00.step p) (Sim7x00.init (Ser.init rx tx sched) rmem wmem t line ip id) ops).delay ≤ 0
    omega

/-! ## Sim800 -/

/-- **C78**, Sim800: delays. -/
theorem C78_sim800_delay (p : Platform) (rx tx : List Byte) (sched : List (List Hw))
    (rmem wmem : List Byte) (t : ConnType) (line ip id : List Byte) (hl : line.length = 61)
    (ops : List Op) :
    let d := exec (Sim800.step p) (Sim800.init (Ser.init rx tx sched) rmem wmem t line ip id) ops
    d.delay ∈ [0, 10, 2000] ∧ (d.isConnected = true → d.delay ∈ [0, 10]) := by
  intro d
  have h : Sim800.Paced d := Sim800.exec_stages (Sim800.paced_sections p) Sim800.paced_calls Sim800.paced_own
    (Sim800.inv_init rx tx sched rmem wmem t ip id hl)
    (.slow (Sim800.LinkInv.of_down rfl rfl (by simp [Sim800.init, SimDev.init, SimDev.resetStates]) (by simp [Sim800.init, SimDev.init, SimDev.resetStates]))
      (List.mem_cons_self ..) rfl rfl (by simp [Sim800.init, SimDev.init, SimDev.resetStates])) ops
  refine ⟨h.all, fun hc => ?_⟩
  · have h1 := h.all
    have h2 := h.fast (Or.inl hc)
    simp only [List.mem_cons, List.not_mem_nil, or_false] at h1 ⊢
    omega

/-- **C78**, Sim800: in any system of tasks the driver is run again after at most 2000 + `n * B` milliseconds, and after
at most 10 + `n * B` milliseconds while it is connected. -/
theorem C78_sim800_reaction {W : Type} (p : Platform) (rx tx : List Byte) (sched : List (List Hw))
    (rmem wmem : List Byte) (t : ConnType) (line ip id : List Byte) (hl : line.length = 61)
    {i : Nat} (turn : Nat → Sim800.D × W → List Task → Turn W)
    (ht : ∀ j w ts, (turn j w ts).tasks.map Task.lastRun = ts.map Task.lastRun)
    (tasks : List Task) (w : W) (tm : Nat → Nat) (hi : i < tasks.length)
    (h0 : tasks[i]?.map Task.delay = some 0) {B : Nat} (hc : Clock tm B)
    (hs : 2000 + tasks.length * B < 4294967296) (j : Nat) :
    let d0 := Sim800.init (Ser.init rx tx sched) rmem wmem t line ip id
    let s0 := Sched.init tasks (d0, w)
    let body := system (Sim800.step p) i turn
    RunsAt body s0 tm i j →
      (∃ k, j < k ∧ RunsAt body s0 tm i k ∧ tm k ≤ tm j + 2000 + tasks.length * B) ∧
      ((∀ k, j < k → tm k ≤ tm j + 10 + tasks.length * B → (stAt body s0 tm k).world.1.isConnected = true) →
        ∃ k, j < k ∧ RunsAt body s0 tm i k ∧ tm k ≤ tm j + 10 + tasks.length * B) := by
  intro d0 s0 body hj
  refine ⟨?_, fun hconn => ?_⟩
  · refine system_next (D := 2000) _ turn ht tasks d0 w tm hi h0 hc hs j hj fun k _ _ ops _ => ?_
    have := (C78_sim800_delay p rx tx sched rmem wmem t line ip id hl ops).1
    simp only [List.mem_cons, List.not_mem_nil, or_false] at this
    show (exec (Sim800.step p) (Sim800.init (Ser.init rx tx sched) rmem wmem t line ip id) ops).delay ≤ 2000
    omega
  · refine system_next (D := 10) _ turn ht tasks d0 w tm hi h0 hc (by omega) j hj fun k hk hT ops e => ?_
    have hi := hconn k hk hT
    rw [e] at hi
    have := (C78_sim800_delay p rx tx sched rmem wmem t line ip id hl ops).2 hi
    simp only [List.mem_cons, List.not_mem_nil, or_false] at this
    show (exec (Sim800.step p) (Sim800.init (Ser.init rx tx sched) rmem wmem t line ip id) ops).delay ≤ 10
    omega

/-! ## Espressif -/

/-- **C78**, Espressif: delays. -/
theorem C78_espressif_delay (p : Platform) (rx tx : List Byte) (sched : List (List Hw))
    (rmem wmem : List Byte) (t : ConnType) (line mac : List Byte) (ssid passwd : CPtr) (hl : line.length = 61)
    (ops : List Op) :
    let d := exec (Espressif.step p) (Espressif.init (Ser.init rx tx sched) rmem wmem t line mac ssid passwd) ops
    d.delay ∈ [0, 10, 100] ∧ (d.isConnected = true → d.delay ∈ [0, 100]) := by
  intro d
  have h : Espressif.Paced d := Espressif.exec_stages (Espressif.paced_sections p) Espressif.paced_calls Espressif.paced_own
    (Espressif.inv_init rx tx sched rmem wmem t mac ssid passwd hl)
    (.slow (Espressif.LinkInv.of_down rfl rfl (by simp [Espressif.init, Espressif.resetStates]) (by simp [Espressif.init, Espressif.resetStates]) (by simp [Espressif.init, Espressif.resetStates]))
      (List.mem_cons_self ..) rfl rfl (by simp [Espressif.init, Espressif.resetStates])) ops
  refine ⟨h.all, fun hc => ?_⟩
  · exact h.conn hc

/-- **C78**, Espressif: in any system of tasks the driver is run again after at most 100 + `n * B` milliseconds, and after
at most 100 + `n * B` milliseconds while it is connected. -/
theorem C78_espressif_reaction {W : Type} (p : Platform) (rx tx : List Byte) (sched : List (List Hw))
    (rmem wmem : List Byte) (t : ConnType) (line mac : List Byte) (ssid passwd : CPtr) (hl : line.length = 61)
    {i : Nat} (turn : Nat → Espressif.D × W → List Task → Turn W)
    (ht : ∀ j w ts, (turn j w ts).tasks.map Task.lastRun = ts.map Task.lastRun)
    (tasks : List Task) (w : W) (tm : Nat → Nat) (hi : i < tasks.length)
    (h0 : tasks[i]?.map Task.delay = some 0) {B : Nat} (hc : Clock tm B)
    (hs : 100 + tasks.length * B < 4294967296) (j : Nat) :
    let d0 := Espressif.init (Ser.init rx tx sched) rmem wmem t line mac ssid passwd
    let s0 := Sched.init tasks (d0, w)
    let body := system (Espressif.step p) i turn
    RunsAt body s0 tm i j →
      (∃ k, j < k ∧ RunsAt body s0 tm i k ∧ tm k ≤ tm j + 100 + tasks.length * B) ∧
      ((∀ k, j < k → tm k ≤ tm j + 100 + tasks.length * B → (stAt body s0 tm k).world.1.isConnected = true) →
        ∃ k, j < k ∧ RunsAt body s0 tm i k ∧ tm k ≤ tm j + 100 + tasks.length * B) := by
  intro d0 s0 body hj
  refine ⟨?_, fun hconn => ?_⟩
  · refine system_next (D := 100) _ turn ht tasks d0 w tm hi h0 hc hs j hj fun k _ _ ops _ => ?_
    have := (C78_espressif_delay p rx tx sched rmem wmem t line mac ssid passwd hl ops).1
    simp only [List.mem_cons, List.not_mem_nil, or_false] at this
    show (exec (Espressif.step p) (Espressif.init (Ser.init rx tx sched) rmem wmem t line mac ssid passwd) ops).delay ≤ 100
    omega
  · refine system_next (D := 100) _ turn ht tasks d0 w tm hi h0 hc (by omega) j hj fun k hk hT ops e => ?_
    have hi := hconn k hk hT
    rw [e] at hi
    have := (C78_espressif_delay p rx tx sched rmem wmem t line mac ssid passwd hl ops).2 hi
    simp only [List.mem_cons, List.not_mem_nil, or_false] at this
    show (exec (Espressif.step p) (Espressif.init (Ser.init rx tx sched) rmem wmem t line mac ssid passwd) ops).delay ≤ 100
    omega

/-! ## CC1352P7 -/

/-- **C78**, CC1352P7. -/
theorem C78_cc1352p7_delay (p : Platform) (rx tx : List Byte) (sched : List (List Hw))
    (rmem wmem : List Byte) (t : ConnType) (line mac : List Byte) (hl : line.length = 61)
    (ops : List Op) :
    let d := exec (CC1352P7.step p) (CC1352P7.init (Ser.init rx tx sched) rmem wmem t line mac) ops
    d.delay = 0 :=
  CC1352P7.exec_stages (CC1352P7.paced_sections p) CC1352P7.paced_calls CC1352P7.paced_own
    (CC1352P7.inv_init rx tx sched rmem wmem t mac hl) rfl ops

/-- **C78**, CC1352P7: in any system of tasks the driver is run again after at most `n * B` milliseconds. -/
theorem C78_cc1352p7_reaction {W : Type} (p : Platform) (rx tx : List Byte) (sched : List (List Hw))
    (rmem wmem : List Byte) (t : ConnType) (line mac : List Byte) (hl : line.length = 61)
    {i : Nat} (turn : Nat → CC1352P7.D × W → List Task → Turn W)
    (ht : ∀ j w ts, (turn j w ts).tasks.map Task.lastRun = ts.map Task.lastRun)
    (tasks : List Task) (w : W) (tm : Nat → Nat) (hi : i < tasks.length)
    (h0 : tasks[i]?.map Task.delay = some 0) {B : Nat} (hc : Clock tm B)
    (hs : tasks.length * B < 4294967296) (j : Nat) :
    let d0 := CC1352P7.init (Ser.init rx tx sched) rmem wmem t line mac
    let s0 := Sched.init tasks (d0, w)
    let body := system (CC1352P7.step p) i turn
    RunsAt body s0 tm i j → ∃ k, j < k ∧ RunsAt body s0 tm i k ∧ tm k ≤ tm j + tasks.length * B := by
  intro d0 s0 body hj
  exact system_next (D := 0) _ turn ht tasks d0 w tm hi h0 hc (by omega) j hj fun k _ _ ops _ => by
    have := C78_cc1352p7_delay p rx tx sched rmem wmem t line mac hl ops
    dsimp only at this
    exact Nat.le_of_eq this

example : (exec (CC1352P7.step Sess.arm) Sess.cc1352p7 (Sess.upCC .tcp)).isConnected = true := by decide +kernel

/-! ## Concrete histories -/

/-- Each delay occurs: from the constructor on, waiting for `connect()`, connected. -/
example : (Sess.sim7x00.delay, (exec (Sim7x00.step Sess.arm) Sess.sim7x00 [.run true, .run true]).delay,
    (exec (Sim7x00.step Sess.arm) Sess.sim7x00 (Sess.up7x00 .tcp)).delay,
    (exec (Sim7x00.step Sess.arm) Sess.sim7x00 (Sess.up7x00 .tcp)).isConnected) = (0, 10, 0, true) := by
  decide +kernel

example : (Sess.sim800.delay, (exec (Sim800.step Sess.arm) Sess.sim800 [.run true, .run true]).delay,
    (exec (Sim800.step Sess.arm) Sess.sim800 (Sess.up800 .tcp)).delay,
    (exec (Sim800.step Sess.arm) Sess.sim800 (Sess.up800 .tcp)).isConnected) = (0, 10, 0, true) := by
  decide +kernel

example : (Sess.espressif.delay, (exec (Espressif.step Sess.arm) Sess.espressif [.run true, .run true]).delay,
    (exec (Espressif.step Sess.arm) Sess.espressif (Sess.upEsp .tcp)).delay,
    (exec (Espressif.step Sess.arm) Sess.espressif (Sess.upEsp .tcp)).isConnected) = (0, 10, 0, true) := by
  decide +kernel

/-- The ESP driver is still connected when it has taken up a request to disconnect; then it sleeps for 100 ms. -/
example : ((exec (Espressif.step Sess.arm) Sess.espressif (Sess.upEsp .tcp ++ [.disconnect, .run true])).delay,
    (exec (Espressif.step Sess.arm) Sess.espressif (Sess.upEsp .tcp ++ [.disconnect, .run true])).isConnected) =
    (100, true) := by
  decide +kernel

/-- A SIM7x00 driver that got an error restarts the modem and asks for 4 s. -/
def restart7x00 : List Op := Sess.up7x00 .tcp ++ [.requestRSSI, .run true] ++ Sess.say b!"ERROR\r\n" ++ [.run true, .run true]

/-- **C78**, SIM7x00 after a restart: every line the modem sends while it boots is read in a run of its own and the
delay stays at 4 s. All four lines are in the receive buffer, but the driver reads the line `RDY` it waits for in the
fourth run, 16 s later; and the delay is still 4 s after that. -/
theorem C78_sim7x00_boot :
    let d := exec (Sim7x00.step Sess.arm) Sess.sim7x00
      (restart7x00 ++ Sess.say b!"\r\n+CPIN: READY\r\nSMS DONE\r\nRDY\r\n")
    let runs := fun n => exec (Sim7x00.step Sess.arm) d (List.replicate n (.run true))
    d.delay = 4000 ∧ (runs 1).delay = 4000 ∧ (runs 2).delay = 4000 ∧ (runs 3).delay = 4000 ∧ (runs 4).delay = 4000 ∧
    Ev.line b!"RDY\r\n" ∉ (runs 3).trace ∧ Ev.line b!"RDY\r\n" ∈ (runs 4).trace := by
  decide +kernel

end Verif.Props.Pace
