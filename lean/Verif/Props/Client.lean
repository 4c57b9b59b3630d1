import Verif.Lemmas.Plays

/-!
# C85: the task of the example

The text of `run()` of `examples/linux/ipcommdevice.cpp` after macro expansion (C83), called any number of times, with any driver.
-/

namespace Verif.Props.Client

open Verif.Client Spec.Client Spec.Threads

/-- Whatever the driver answers and whatever happens between the calls: the task makes its calls in the documented order, sends the
request only while connected, calls `disconnect()` only when the connection is down, and prints what it has read. -/
theorem C85_order {D : Type} (api : Verif.Client.Api D) {t : Task} (ht : t.timeoutRunning = false) {xs : List (Nat × (World D → World D))} {d : D}
    (hx : ∀ x ∈ xs, ∀ w, Others w (x.2 w)) {st : Duff.St (World D)} (hc : Duff.Calls (text api) xs (Duff.init 0 t (start d)) st) :
    Orderly st.user.log ∧ st.user.shown = answer st.user.log := by
  have s : Side api Others (fun _ => True) (fun _ => True) (fun _ => True) True (fun _ => True) := by
    constructor <;> intros <;> first | trivial | exact ⟨trivial, trivial⟩ | (rename_i h; exact ⟨h.1, h.2.1⟩)
  have h := client_rests s ht hx trivial hc
  exact ⟨h.1.orderly, h.2.1⟩

/-- What the task does with a driver. -/
def Served {S R X : Type} (w : World (Bool × Dev S R X)) : Prop :=
  Orderly w.log ∧ w.shown = answer w.log ∧ w.oob = false ∧ (∀ bs, .read bs ∈ w.log → bs ≠ [] ∧ bs.length ≤ 40) ∧
    ∀ c n, .disconnect c n ∈ w.log → c = false ∧ n = 0

theorem served {S R X : Type} {step : Dev S R X → Op → Dev S R X} {I : Dev S R X → Prop} (f : Copes step I) (conf : List Op)
    {t : Task} (ht : t.timeoutRunning = false) {xs : List (Nat × (World (Bool × Dev S R X) → World (Bool × Dev S R X)))}
    {b : Bool} {d : Dev S R X} {ops : List Op} (hi : I d) (hx : ∀ x ∈ xs, ∀ w, OnceRun step w (x.2 w))
    {st : Duff.St (World (Bool × Dev S R X))}
    (hc : Duff.Calls (text (driver step conf)) xs (Duff.init 0 t (start (b, exec step d ops))) st) : Served st.user := by
  have h := client_rests (d := (b, exec step d ops)) (f.side conf) ht hx ⟨f.exec ops hi, rfl, fun bs hb => by cases hb⟩ hc
  exact ⟨h.1.orderly, h.2.1, h.2.2.2.1, h.2.2.2.2, fun c n hm => (h.1.disconnect hm).2⟩

/-- SIM7x00, whatever happened to the driver before, whatever the modem says and whatever else is called, if the driver is run once at
most between two turns of the task: no access outside `buf`, nothing is read in vain, and everything received before the end of the
connection has been read when `disconnect()` is called. -/
theorem C85_sim7x00 (p : Platform) (rmem0 wmem0 : List Byte) (sched : List (List Hw)) (rmem wmem : List Byte) (ty : ConnType)
    {line : List Byte} (ip id : List Byte) (hl : line.length = lineMax + 1) (ops : List Op) (b : Bool) {t : Task}
    (ht : t.timeoutRunning = false) {xs : List (Nat × (World (Bool × Sim7x00.D) → World (Bool × Sim7x00.D)))}
    (hx : ∀ x ∈ xs, ∀ w, OnceRun (Sim7x00.step p) w (x.2 w)) {st : Duff.St (World (Bool × Sim7x00.D))}
    (hc : Duff.Calls (text (driver (Sim7x00.step p) confSim)) xs
      (Duff.init 0 t (start (b, exec (Sim7x00.step p) (Sim7x00.init (Ser.init rmem0 wmem0 sched) rmem wmem ty line ip id) ops))) st) :
    Served st.user :=
  served (Sim7x00.fits p) confSim ht ⟨Sim7x00.inv_init _ _ _ _ _ _ _ _ hl, Or.inr ⟨fun h => (by cases h), fun _ => rfl, fun _ => rfl⟩⟩ hx hc

/-- SIM800. -/
theorem C85_sim800 (p : Platform) (rmem0 wmem0 : List Byte) (sched : List (List Hw)) (rmem wmem : List Byte) (ty : ConnType)
    {line : List Byte} (ip id : List Byte) (hl : line.length = lineMax + 1) (ops : List Op) (b : Bool) {t : Task}
    (ht : t.timeoutRunning = false) {xs : List (Nat × (World (Bool × Sim800.D) → World (Bool × Sim800.D)))}
    (hx : ∀ x ∈ xs, ∀ w, OnceRun (Sim800.step p) w (x.2 w)) {st : Duff.St (World (Bool × Sim800.D))}
    (hc : Duff.Calls (text (driver (Sim800.step p) confSim)) xs
      (Duff.init 0 t (start (b, exec (Sim800.step p) (Sim800.init (Ser.init rmem0 wmem0 sched) rmem wmem ty line ip id) ops))) st) :
    Served st.user :=
  served (Sim800.fits p) confSim ht ⟨Sim800.inv_init _ _ _ _ _ _ _ _ hl, Or.inr ⟨fun h => (by cases h), fun _ => rfl, fun _ => rfl⟩⟩ hx hc

/-- Espressif. -/
theorem C85_espressif (p : Platform) (rmem0 wmem0 : List Byte) (sched : List (List Hw)) (rmem wmem : List Byte) (ty : ConnType)
    {line : List Byte} (mac : List Byte) (ssid passwd : CPtr) (hl : line.length = lineMax + 1) (ops : List Op) (b : Bool) {t : Task}
    (ht : t.timeoutRunning = false) {xs : List (Nat × (World (Bool × Espressif.D) → World (Bool × Espressif.D)))}
    (hx : ∀ x ∈ xs, ∀ w, OnceRun (Espressif.step p) w (x.2 w)) {st : Duff.St (World (Bool × Espressif.D))}
    (hc : Duff.Calls (text (driver (Espressif.step p) confEsp)) xs
      (Duff.init 0 t (start (b, exec (Espressif.step p)
        (Espressif.init (Ser.init rmem0 wmem0 sched) rmem wmem ty line mac ssid passwd) ops))) st) :
    Served st.user :=
  served (Espressif.fits p) confEsp ht ⟨Espressif.inv_init _ _ _ _ _ _ _ _ _ hl, Or.inr ⟨fun h => (by cases h), fun _ => rfl, fun _ => rfl⟩⟩ hx hc

/-- CC1352P7. -/
theorem C85_cc1352p7 (p : Platform) (rmem0 wmem0 : List Byte) (sched : List (List Hw)) (rmem wmem : List Byte) (ty : ConnType)
    {line : List Byte} (mac : List Byte) (hl : line.length = lineMax + 1) (ops : List Op) (b : Bool) {t : Task}
    (ht : t.timeoutRunning = false) {xs : List (Nat × (World (Bool × CC1352P7.D) → World (Bool × CC1352P7.D)))}
    (hx : ∀ x ∈ xs, ∀ w, OnceRun (CC1352P7.step p) w (x.2 w)) {st : Duff.St (World (Bool × CC1352P7.D))}
    (hc : Duff.Calls (text (driver (CC1352P7.step p) [])) xs
      (Duff.init 0 t (start (b, exec (CC1352P7.step p) (CC1352P7.init (Ser.init rmem0 wmem0 sched) rmem wmem ty line mac) ops))) st) :
    Served st.user :=
  served (CC1352P7.fits p) [] ht ⟨CC1352P7.inv_init _ _ _ _ _ _ _ hl, Or.inr ⟨fun h => (by cases h), fun _ => rfl, fun _ => rfl⟩⟩ hx hc

/-- With each driver the task sends its request, prints the answer and comes to its end. -/
theorem C85_sessions :
    (∃ st, Duff.Calls (text (driver (Sim7x00.step Sess.arm) confSim)) (oneByOne (Sim7x00.step Sess.arm) (sent7x00 ++ got7x00))
      (Duff.init 0 (Task.init 0 0) (start (true, roomy Sess.sim7x00))) st ∧
      st.user.log = opening ++ [.read b!"abc", .disconnect false 0, .done] ∧ st.user.shown = b!"abc") ∧
    (∃ st, Duff.Calls (text (driver (Sim800.step Sess.arm) confSim)) (oneByOne (Sim800.step Sess.arm) (sent800 ++ got800))
      (Duff.init 0 (Task.init 0 0) (start (true, roomy Sess.sim800))) st ∧
      st.user.log = opening ++ [.read b!"abc", .disconnect false 0, .done] ∧ st.user.shown = b!"abc") ∧
    (∃ st, Duff.Calls (text (driver (Espressif.step Sess.arm) confEsp)) (oneByOne (Espressif.step Sess.arm) (sentEsp ++ gotEsp))
      (Duff.init 0 (Task.init 0 0) (start (true, roomy Sess.espressif))) st ∧
      st.user.log = opening ++ [.read b!"abc", .disconnect false 0, .done] ∧ st.user.shown = b!"abc") ∧
    (∃ st, Duff.Calls (text (driver (CC1352P7.step Sess.arm) [])) (oneByOne (CC1352P7.step Sess.arm) (sentCC ++ gotCC))
      (Duff.init 0 (Task.init 0 0) (start (true, roomy Sess.cc1352p7))) st ∧
      st.user.log = opening ++ [.read b!"abc", .disconnect false 0, .done] ∧ st.user.shown = b!"abc") :=
  ⟨plays_result (n := 60) _ (by decide +kernel), plays_result (n := 60) _ (by decide +kernel),
    plays_result (n := 60) _ (by decide +kernel), plays_result (n := 60) _ (by decide +kernel)⟩

example : ∀ x ∈ oneByOne (Espressif.step Sess.arm) (sentEsp ++ gotEsp), ∀ w, OnceRun (Espressif.step Sess.arm) w (x.2 w) :=
  once_oneByOne _ _

theorem silent {S R X : Type} {step : Dev S R X → Op → Dev S R X} {I : Dev S R X → Prop} (f : Copes step I) {conf : List Op}
    (h0 : conf.countP isRun = 0) {t : Task} (ht : t.timeoutRunning = false)
    {xs : List (Nat × (World (Bool × Dev S R X) → World (Bool × Dev S R X)))} {x : Bool × Dev S R X} (he : x.2.rbuf.bytesAvailable = 0)
    (hx : ∀ x ∈ xs, ∀ w, Silent (driver step conf) w (x.2 w)) {st : Duff.St (World (Bool × Dev S R X))}
    (hc : Duff.Calls (text (driver step conf)) xs (Duff.init 0 t (start x)) st) : st.user.log <+: opening := by
  have k : ∀ (d : Dev S R X) op, isRun op = false → d.rbuf.bytesAvailable = 0 → (step d op).rbuf.bytesAvailable = 0 :=
    fun d op ho h => Classical.byContradiction fun hq => (f.quiet d op ho hq).1 h
  have s : Side (driver step conf) (Silent (driver step conf)) (fun w => w.dev.2.rbuf.bytesAvailable = 0) (fun _ => True)
      (fun _ => False) False (fun _ => True) :=
    { others := fun _ _ r => ⟨r.1.1, r.1.2.1⟩
      keep := fun _ _ h r => r.2 h
      start := fun _ h => h
      get := fun _ h _ => h
      conf := fun w h => Classical.byContradiction fun hq => (f.still conf h0 w.dev.2 hq).1 h
      host := fun w h => k w.dev.2 _ rfl h
      conn := fun w h => k w.dev.2 _ rfl h
      write := fun w h _ => ⟨k w.dev.2 _ rfl h, trivial⟩
      wait := fun _ _ _ _ _ _ => trivial
      enter := fun _ h _ hq => hq h
      entered := fun _ h => h
      read := fun _ _ h => h.elim
      rest := fun _ _ _ h => h.elim
      leave := fun _ _ h => h.elim
      disc := fun w _ h => k w.dev.2 _ rfl h
      done := fun _ h => h }
  have h := client_rests s ht hx he hc
  have q := h.1
  generalize st.user.log = l at q
  cases q with
  | early h => exact h
  | loop a => exact a.elim
  | late a => exact a.elim

/-- The task waits for the first byte of the answer without looking at the connection (line 58): if none comes, say because the server has
closed, it waits for ever and never calls `disconnect()`. -/
theorem C85_silent_sim7x00 (p : Platform) {t : Task} (ht : t.timeoutRunning = false)
    {xs : List (Nat × (World (Bool × Sim7x00.D) → World (Bool × Sim7x00.D)))} {x : Bool × Sim7x00.D} (he : x.2.rbuf.bytesAvailable = 0)
    (hx : ∀ x ∈ xs, ∀ w, Silent (driver (Sim7x00.step p) confSim) w (x.2 w)) {st : Duff.St (World (Bool × Sim7x00.D))}
    (hc : Duff.Calls (text (driver (Sim7x00.step p) confSim)) xs (Duff.init 0 t (start x)) st) : st.user.log <+: opening :=
  silent (Sim7x00.fits p) rfl ht he hx hc

theorem C85_silent_sim800 (p : Platform) {t : Task} (ht : t.timeoutRunning = false)
    {xs : List (Nat × (World (Bool × Sim800.D) → World (Bool × Sim800.D)))} {x : Bool × Sim800.D} (he : x.2.rbuf.bytesAvailable = 0)
    (hx : ∀ x ∈ xs, ∀ w, Silent (driver (Sim800.step p) confSim) w (x.2 w)) {st : Duff.St (World (Bool × Sim800.D))}
    (hc : Duff.Calls (text (driver (Sim800.step p) confSim)) xs (Duff.init 0 t (start x)) st) : st.user.log <+: opening :=
  silent (Sim800.fits p) rfl ht he hx hc

theorem C85_silent_espressif (p : Platform) {t : Task} (ht : t.timeoutRunning = false)
    {xs : List (Nat × (World (Bool × Espressif.D) → World (Bool × Espressif.D)))} {x : Bool × Espressif.D}
    (he : x.2.rbuf.bytesAvailable = 0) (hx : ∀ x ∈ xs, ∀ w, Silent (driver (Espressif.step p) confEsp) w (x.2 w))
    {st : Duff.St (World (Bool × Espressif.D))}
    (hc : Duff.Calls (text (driver (Espressif.step p) confEsp)) xs (Duff.init 0 t (start x)) st) : st.user.log <+: opening :=
  silent (Espressif.fits p) rfl ht he hx hc

theorem C85_silent_cc1352p7 (p : Platform) {t : Task} (ht : t.timeoutRunning = false)
    {xs : List (Nat × (World (Bool × CC1352P7.D) → World (Bool × CC1352P7.D)))} {x : Bool × CC1352P7.D}
    (he : x.2.rbuf.bytesAvailable = 0) (hx : ∀ x ∈ xs, ∀ w, Silent (driver (CC1352P7.step p) []) w (x.2 w))
    {st : Duff.St (World (Bool × CC1352P7.D))}
    (hc : Duff.Calls (text (driver (CC1352P7.step p) [])) xs (Duff.init 0 t (start x)) st) : st.user.log <+: opening :=
  silent (CC1352P7.fits p) rfl ht he hx hc

/-- The server closes without an answer, the driver is idle, and the task is at line 58. -/
theorem C85_hangs :
    ∃ st, Duff.Calls (text (driver (Espressif.step Sess.arm) confEsp)) (oneByOne (Espressif.step Sess.arm) (sentEsp ++ endedEsp))
      (Duff.init 0 (Task.init 0 0) (start (true, roomy Sess.espressif))) st ∧ st.user.log = opening ∧ st.user.dev.2.isIdle = true := by
  refine plays_calls (n := 60) _ (P := fun w : World (Bool × Espressif.D) => w.log = opening ∧ w.dev.2.isIdle = true) ?_
  have h : (plays 60 (oneByOne (Espressif.step Sess.arm) (sentEsp ++ endedEsp)) (Thread.fresh (body (driver (Espressif.step Sess.arm) confEsp)) 0
      (start (true, roomy Sess.espressif)))).map (fun th => (th.user.log, th.user.dev.2.isIdle)) = some (opening, true) := by decide +kernel
  cases e : plays 60 (oneByOne (Espressif.step Sess.arm) (sentEsp ++ endedEsp)) (Thread.fresh (body (driver (Espressif.step Sess.arm) confEsp)) 0
      (start (true, roomy Sess.espressif))) with
  | none => rw [e] at h; cases h
  | some th =>
    rw [e] at h
    injection h with h
    exact ⟨th, rfl, (Prod.mk.inj h).1, (Prod.mk.inj h).2⟩

/-- If the driver is run several times between two turns of the task, the end of the connection hides data that have arrived: with three
bytes unread the task disconnects and prints nothing. -/
theorem C85_unread :
    ∃ st, Duff.Calls (text (driver (Espressif.step Sess.arm) confEsp))
      (oneByOne (Espressif.step Sess.arm) sentEsp ++ [(0, meanwhile (Espressif.step Sess.arm) gotEsp), (0, id)])
      (Duff.init 0 (Task.init 0 0) (start (true, roomy Sess.espressif))) st ∧
      st.user.log = opening ++ [.disconnect false 3, .done] ∧ st.user.shown = [] :=
  plays_result (n := 60) _ (by decide +kernel)

/-- What follows a zero in a piece of the answer is read but not printed. -/
theorem C85_zero :
    ∃ st, Duff.Calls (text (driver (Espressif.step Sess.arm) confEsp)) (oneByOne (Espressif.step Sess.arm) (sentEsp ++ zeroEsp))
      (Duff.init 0 (Task.init 0 0) (start (true, roomy Sess.espressif))) st ∧
      st.user.log = opening ++ [.read [97, 0, 99]] ∧ st.user.shown = [97] :=
  plays_result (n := 60) _ (by decide +kernel)

end Verif.Props.Client
