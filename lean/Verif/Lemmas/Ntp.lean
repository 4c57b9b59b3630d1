import Verif.Spec.Ntp

/-!
# The task of examples/linux/autodetectntp.cpp, call by call
-/

namespace Verif.Duff

variable {σ : Type}

/-- Some number of steps leads from one to the other. -/
def Reach (x y : List (Frame σ) × St σ) : Prop := ∃ n, steps n x = y

theorem Reach.refl (x : List (Frame σ) × St σ) : Reach x x := ⟨0, rfl⟩

theorem Reach.head {x y : List (Frame σ) × St σ} (h : Reach (step x) y) : Reach x y := by
  obtain ⟨n, h⟩ := h
  exact ⟨n + 1, h⟩

theorem Reach.trans {x y z : List (Frame σ) × St σ} (h1 : Reach x y) (h2 : Reach y z) : Reach x z := by
  obtain ⟨n, h1⟩ := h1
  induction n generalizing x with
  | zero => cases h1; exact h2
  | succ n ih => exact (ih h1).head

theorem reach_seq {a b : Raw σ} {k : List (Frame σ)} {s : St σ} {y : List (Frame σ) × St σ} (h : Reach (.run a :: .run b :: k, s) y) :
    Reach (.run (.seq a b) :: k, s) y := h.head

theorem reach_ite_true {c : Task → Test σ} {a b : Raw σ} {k : List (Frame σ)} {s : St σ} {y : List (Frame σ) × St σ} {u : σ}
    (hc : c s.task s.user = (true, u)) (h : Reach (.run a :: k, { s with user := u }) y) : Reach (.run (.ite c a b) :: k, s) y := by
  refine Reach.head ?_
  have e : step (.run (.ite c a b) :: k, s) = (.run (if (c s.task s.user).1 then a else b) :: k, { s with user := (c s.task s.user).2 }) := rfl
  rw [e, hc]
  exact h

theorem reach_ite_false {c : Task → Test σ} {a b : Raw σ} {k : List (Frame σ)} {s : St σ} {y : List (Frame σ) × St σ} {u : σ}
    (hc : c s.task s.user = (false, u)) (h : Reach (.run b :: k, { s with user := u }) y) : Reach (.run (.ite c a b) :: k, s) y := by
  refine Reach.head ?_
  have e : step (.run (.ite c a b) :: k, s) = (.run (if (c s.task s.user).1 then a else b) :: k, { s with user := (c s.task s.user).2 }) := rfl
  rw [e, hc]
  exact h

end Verif.Duff

namespace Verif.Ntp

open Duff Spec.Ntp

variable {D : Type} {api : Client.Api D}

abbrev TSt (D : Type) := Duff.St (World D)

/-- What is left to do after the label of a wait. -/
def pause (f : D → Bool) (T : Nat) (e : Exit) (rest : Prog (World D)) (k : List (Frame (World D))) : List (Frame (World D)) :=
  .run (.seq (.unlessTimeout (fun w => (dev f w, w)) fun _ => T) .resetTimeout) :: .run (.seq (check (dev f) e).expand rest.expand) :: k

section
variable {f : D → Bool} {T l : Nat} {e : Exit} {rest : Prog (World D)} {k : List (Frame (World D))} {s : TSt D}

theorem reach_await {y} (h : Reach (pause f T e rest k, ⟨s.task.startTimeout.setDelay 0, l % 256, s.user⟩) y) :
    Reach (.run (await l f T e rest).expand :: k, s) y :=
  reach_seq (reach_seq (Reach.head (reach_seq (Reach.head (reach_seq (Reach.head (reach_seq (Reach.head h))))))))

theorem pause_stays (ht : s.task.isTimeout T = false) (hf : f s.user.dev = false) : Reach (pause f T e rest k, s) ([], s) := by
  refine reach_seq (reach_ite_true (u := s.user) ?_ ⟨1, rfl⟩)
  show (if s.task.isTimeout T = true then (false, s.user) else (!dev f s.user, s.user)) = (true, s.user)
  have : dev f s.user = false := hf
  rw [this, ht]
  rfl

theorem pause_over (h : s.task.isTimeout T = true ∨ f s.user.dev = true) :
    Reach (pause f T e rest k, s) (.run (.seq (check (dev f) e).expand rest.expand) :: k, { s with task := s.task.resetTimeout }) := by
  refine reach_seq (reach_ite_false (u := s.user) ?_ ⟨2, rfl⟩)
  show (if s.task.isTimeout T = true then (false, s.user) else (!dev f s.user, s.user)) = (false, s.user)
  split
  · rfl
  · rename_i hn
    rcases h with h | h
    · exact absurd h hn
    · have : dev f s.user = true := h
      rw [this]
      rfl

theorem check_true {c : World D → Bool} {y} (h : c s.user = true) (hy : Reach (.run rest.expand :: k, s) y) :
    Reach (.run (.seq (check c e).expand rest.expand) :: k, s) y :=
  reach_seq (reach_ite_true (u := s.user) (by simp only [h]) (Reach.head hy))

theorem check_false {c : World D → Bool} {y} (h : c s.user = false) (hy : Reach (leave k, { s with user := { s.user with exit := some e } }) y) :
    Reach (.run (.seq (check c e).expand rest.expand) :: k, s) y :=
  reach_seq (reach_ite_false (u := s.user) (by simp only [h]) (reach_seq (Reach.head (Reach.head hy))))

theorem pause_goes {y} (h : f s.user.dev = true) (hy : Reach (.run rest.expand :: k, { s with task := s.task.resetTimeout }) y) :
    Reach (pause f T e rest k, s) y := (pause_over (.inr h)).trans (check_true h hy)

theorem pause_fails {y} (ht : s.task.isTimeout T = true) (h : f s.user.dev = false)
    (hy : Reach (leave k, ⟨s.task.resetTimeout, s.entry, { s.user with exit := some e }⟩) y) : Reach (pause f T e rest k, s) y :=
  (pause_over (.inl ht)).trans (check_false h hy)

end

/-! ### The parts of the text -/

def last (api : Client.Api D) : Prog (World D) := .seq (.act (succeeds api)) .brk
def rest3 (api : Client.Api D) : Prog (World D) :=
  .seq (.act fun w => print (read api w)) (.seq (check (fun w => decide (w.printed.getD 0 > 1636647985)) .noTime)
    (.seq (.act (closes api)) (await 4 api.isIdle 30000 .notIdle (last api))))
def rest2 (api : Client.Api D) : Prog (World D) :=
  .seq (.act (ask api)) (await 3 (fun d => api.bytesAvailable d != 0) 60000 .noData (rest3 api))
def rest1 (api : Client.Api D) : Prog (World D) := .seq (.act (opens api)) (await 2 api.isConnected 60000 .notConnected (rest2 api))
def inner (api : Client.Api D) : Prog (World D) :=
  .seq (.act (call .startDetection api.startDetection)) (await 1 api.modemDetected 30000 .noModem (rest1 api))

/-- What comes after the body of the loop. -/
def after (api : Client.Api D) : List (Frame (World D)) :=
  [.again (fun w => (true, w)) id (inner api).expand, .run (.setEntry 5)]

theorem body_eq : body api = .loop (fun w => (true, w)) id (inner api) := rfl

def pause1 (api : Client.Api D) := pause api.modemDetected 30000 .noModem (rest1 api) (after api)
def pause2 (api : Client.Api D) := pause api.isConnected 60000 .notConnected (rest2 api) (after api)
def pause3 (api : Client.Api D) := pause (fun d => api.bytesAvailable d != 0) 60000 .noData (rest3 api) (after api)
def pause4 (api : Client.Api D) := pause api.isIdle 30000 .notIdle (last api) (after api)

theorem find0 : find 0 (text api) [] = some [.run (.seq (body api).expand (.setEntry 5))] := rfl
theorem find1 : find 1 (text api) [] = some (pause1 api) := rfl
theorem find2 : find 2 (text api) [] = some (pause2 api) := rfl
theorem find3 : find 3 (text api) [] = some (pause3 api) := rfl
theorem find4 : find 4 (text api) [] = some (pause4 api) := rfl
theorem find5 : find 5 (text api) [] = none := rfl

/-! ### The phases -/

theorem timeout_real {t : Task} {r c T : Nat} (h1 : t.lastRun = c % 4294967296) (h2 : t.timeout = r % 4294967296) (h3 : r ≤ c)
    (h4 : c < r + 4294967296) (hT : T < 4294967296) : t.isTimeout T = decide (c > r + T) := by
  unfold Task.isTimeout sub32
  rw [h1, h2, Nat.mod_eq_of_lt hT]
  refine decide_eq_decide.mpr ?_
  have : (c % 4294967296 + 4294967296 - r % 4294967296) % 4294967296 = c - r := by omega
  rw [this]
  omega

/-- Where the task is between two calls at time `c`, after a first call at time `first`. `r`: beginning of the wait. -/
def Waits (G first c : Nat) (s : TSt D) (r : Nat) : Prop :=
  (s.entry = 1 ∧ s.user.log = asked.take 1 ∧ s.user.printed = none ∧ c ≤ r + 30000 ∧ r ≤ first) ∨
  (s.entry = 2 ∧ s.user.log = asked.take 5 ∧ s.user.packet = List.replicate 48 0 ∧ s.user.printed = none ∧ c ≤ r + 60000 ∧
    r ≤ first + 30000 + G) ∨
  (s.entry = 3 ∧ s.user.log = asked ∧ s.user.packet = request ∧ s.user.printed = none ∧ c ≤ r + 60000 ∧ r ≤ first + 90000 + 2 * G) ∨
  (s.entry = 4 ∧ Answered s.user [.disconnect] (· > 1636647985) ∧ c ≤ r + 30000 ∧ r ≤ first + 150000 + 3 * G)

/-- The invariant. -/
structure Inv (G first c : Nat) (s : TSt D) : Prop where
  verdict : Verdict s.user
  place : (s.entry = 5 ∧ ∃ e, s.user.exit = some e ∧ first + patience e ≤ c) ∨
    (s.user.exit = none ∧ ∃ r, s.task.timeout = r % 4294967296 ∧ first ≤ r ∧ r ≤ c ∧ Waits G first c s r)

/-- The moment of a call. -/
structure Now (first c r : Nat) (s : TSt D) : Prop where
  running : s.user.exit = none
  now : s.task.lastRun = c % 4294967296
  since : s.task.timeout = r % 4294967296
  first : first ≤ r
  order : r ≤ c
  range : c < r + 4294967296

theorem reach_end {e : TSt D} : Reach (leave (after api), e) ([], { e with entry := 5 }) := ⟨1, rfl⟩

theorem Now.enter {first c r : Nat} {s : TSt D} (h : Now first c r s) {l : Nat} {u : World D} (hu : u.exit = none) :
    Now first c c ⟨s.task.resetTimeout.startTimeout.setDelay 0, l, u⟩ :=
  ⟨hu, h.now, h.now, Nat.le_trans h.first h.order, Nat.le_refl _, by omega⟩

variable {G first c r : Nat} {s : TSt D}

theorem run4 (h : Now first c r s) (he : s.entry = 4) (ha : Answered s.user [.disconnect] (· > 1636647985))
    (hr : r ≤ first + 150000 + 3 * G) : ∃ s', Reach (pause4 api, s) ([], s') ∧ Inv G first c s' := by
  have tm := timeout_real h.now h.since h.order h.range (T := 30000) (by omega)
  cases hf : api.isIdle s.user.dev with
  | true =>
    refine ⟨_, pause_goes hf (reach_seq (Reach.head (Reach.head reach_end))), ?_, .inl ⟨rfl, .success, rfl, ?_⟩⟩
    · obtain ⟨n, bs, h1, h2, h3⟩ := ha
      refine ⟨n, bs, h1, ?_, h3⟩
      show s.user.log ++ [.done (api.isIdle s.user.dev)] = _
      rw [h2, hf, List.append_assoc]
      rfl
    · exact Nat.le_trans h.first h.order
  | false =>
    by_cases q : c > r + 30000
    · refine ⟨_, pause_fails (tm.trans (decide_eq_true q)) hf reach_end, ha, .inl ⟨rfl, .notIdle, rfl, ?_⟩⟩
      have := h.first
      show first + 30000 ≤ c
      omega
    · refine ⟨s, pause_stays (tm.trans (decide_eq_false q)) hf, ?_, .inr ⟨h.running, r, h.since, h.first, h.order,
        .inr (.inr (.inr ⟨he, ha, by omega, hr⟩))⟩⟩
      unfold Verdict
      rw [h.running]
      exact .inr ha

theorem run3 (h : Now first c r s) (he : s.entry = 3) (hl : s.user.log = asked) (hk : s.user.packet = request) (hp : s.user.printed = none)
    (hr : r ≤ first + 90000 + 2 * G) (hc : c ≤ r + 60000 + G) : ∃ s', Reach (pause3 api, s) ([], s') ∧ Inv G first c s' := by
  have tm := timeout_real h.now h.since h.order h.range (T := 60000) (by omega)
  cases hf : (api.bytesAvailable s.user.dev != 0) with
  | true =>
    have epk : (read api s.user).packet = overlay (api.read s.user.dev 48).2 := by
      show _ ++ s.user.packet.drop _ = _
      rw [hk]
      rfl
    have elog : (read api s.user).log = asked ++ [.read (api.bytesAvailable s.user.dev) (api.read s.user.dev 48).2] := by
      show s.user.log ++ _ = _
      rw [hl]
    have hn : api.bytesAvailable s.user.dev ≠ 0 := fun q => by rw [q] at hf; cases hf
    have epr : (print (read api s.user)).printed = some (epoch (overlay (api.read s.user.dev 48).2)) := by
      show some (epoch (read api s.user).packet) = _
      rw [epk]
    cases hq : decide ((print (read api s.user)).printed.getD 0 > 1636647985) with
    | true =>
      have hgt : epoch (overlay (api.read s.user.dev 48).2) > 1636647985 := by
        have := of_decide_eq_true hq
        rw [epr, Option.getD_some] at this
        exact this
      obtain ⟨s', h1, h2⟩ := run4 (api := api) (G := G) (first := first) (c := c) (r := c) (s := ⟨s.task.resetTimeout.startTimeout.setDelay 0, 4,
        closes api (print (read api s.user))⟩) (h.enter h.running) rfl
        ⟨_, _, hn, by show (read api s.user).log ++ _ = _; rw [elog, List.append_assoc]; rfl, epr, hgt⟩ (by omega)
      exact ⟨s', pause_goes hf (reach_seq (Reach.head (check_true hq (reach_seq (Reach.head (reach_await h1)))))), h2⟩
    | false =>
      refine ⟨_, pause_goes hf (reach_seq (Reach.head (check_false hq reach_end))), ?_, .inl ⟨rfl, .noTime, rfl,
        Nat.le_trans h.first h.order⟩⟩
      refine ⟨_, _, hn, elog, epr, ?_⟩
      have := of_decide_eq_false hq
      rw [epr, Option.getD_some] at this
      exact Nat.le_of_not_lt this
  | false =>
    by_cases q : c > r + 60000
    · refine ⟨_, pause_fails (tm.trans (decide_eq_true q)) hf reach_end, ⟨hl, hp⟩, .inl ⟨rfl, .noData, rfl, ?_⟩⟩
      have := h.first
      show first + 60000 ≤ c
      omega
    · refine ⟨s, pause_stays (tm.trans (decide_eq_false q)) hf, ?_, .inr ⟨h.running, r, h.since, h.first, h.order,
        .inr (.inr (.inl ⟨he, hl, hk, hp, by omega, hr⟩))⟩⟩
      unfold Verdict
      rw [h.running]
      exact .inl ⟨by rw [hl]; exact List.prefix_rfl, hp⟩

theorem run2 (h : Now first c r s) (he : s.entry = 2) (hl : s.user.log = asked.take 5) (hk : s.user.packet = List.replicate 48 0)
    (hp : s.user.printed = none) (hr : r ≤ first + 30000 + G) (hc : c ≤ r + 60000 + G) :
    ∃ s', Reach (pause2 api, s) ([], s') ∧ Inv G first c s' := by
  have tm := timeout_real h.now h.since h.order h.range (T := 60000) (by omega)
  cases hf : api.isConnected s.user.dev with
  | true =>
    obtain ⟨s', h1, h2⟩ := run3 (api := api) (G := G) (first := first) (c := c) (r := c) (s := ⟨s.task.resetTimeout.startTimeout.setDelay 0, 3,
      ask api s.user⟩) (h.enter h.running) rfl (by show s.user.log ++ [.write (api.isConnected s.user.dev) ([0x1b, 0, 0, 0] ++ s.user.packet.drop 4)] = _; rw [hl, hf, hk]; rfl)
      (by show [0x1b, 0, 0, 0] ++ s.user.packet.drop 4 = _; rw [hk]; rfl) hp (by omega) (by omega)
    exact ⟨s', pause_goes hf (reach_seq (Reach.head (reach_await h1))), h2⟩
  | false =>
    by_cases q : c > r + 60000
    · refine ⟨_, pause_fails (tm.trans (decide_eq_true q)) hf reach_end, ⟨hl, hp⟩, .inl ⟨rfl, .notConnected, rfl, ?_⟩⟩
      have := h.first
      show first + 60000 ≤ c
      omega
    · refine ⟨s, pause_stays (tm.trans (decide_eq_false q)) hf, ?_, .inr ⟨h.running, r, h.since, h.first, h.order,
        .inr (.inl ⟨he, hl, hk, hp, by omega, hr⟩)⟩⟩
      unfold Verdict
      rw [h.running]
      exact .inl ⟨by rw [hl]; exact List.take_prefix .., hp⟩

theorem run1 (h : Now first c r s) (he : s.entry = 1) (hl : s.user.log = asked.take 1) (hp : s.user.printed = none) (hr : r ≤ first)
    (hc : c ≤ r + 30000 + G) : ∃ s', Reach (pause1 api, s) ([], s') ∧ Inv G first c s' := by
  have tm := timeout_real h.now h.since h.order h.range (T := 30000) (by omega)
  cases hf : api.modemDetected s.user.dev with
  | true =>
    obtain ⟨s', h1, h2⟩ := run2 (api := api) (G := G) (first := first) (c := c) (r := c) (s := ⟨s.task.resetTimeout.startTimeout.setDelay 0, 2,
      opens api s.user⟩) (h.enter h.running) rfl (by show s.user.log ++ [.getDetectedModem (api.modemDetected s.user.dev)] ++ _ ++ _ ++ _ = _; rw [hl, hf]; rfl) rfl hp (by omega) (by omega)
    exact ⟨s', pause_goes hf (reach_seq (Reach.head (reach_await h1))), h2⟩
  | false =>
    by_cases q : c > r + 30000
    · refine ⟨_, pause_fails (tm.trans (decide_eq_true q)) hf reach_end, ⟨hl, hp⟩, .inl ⟨rfl, .noModem, rfl, ?_⟩⟩
      have := h.first
      show first + 30000 ≤ c
      omega
    · refine ⟨s, pause_stays (tm.trans (decide_eq_false q)) hf, ?_, .inr ⟨h.running, r, h.since, h.first, h.order,
        .inl ⟨he, hl, hp, by omega, hr⟩⟩⟩
      unfold Verdict
      rw [h.running]
      exact .inl ⟨by rw [hl]; exact List.take_prefix .., hp⟩

/-! ### Calls -/

theorem call_of {t : Nat} {s s' : TSt D} {k : List (Frame (World D))} (hf : find s.entry (text api) [] = some k)
    (h : Reach (k, { s with task := s.task.setLastRun t }) ([], s')) : Duff.Call (text api) t s s' := by
  obtain ⟨n, h⟩ := h
  refine ⟨n, ?_⟩
  show steps n ((find s.entry (text api) []).getD [], { s with task := s.task.setLastRun t }) = _
  rw [hf]
  exact h

theorem first_call {t0 : Task} (ht : t0.timeoutRunning = false) (G first : Nat) {u : World D} (h1 : u.log = []) (h2 : u.printed = none)
    (h3 : u.exit = none) : ∃ s', Duff.Call (text api) (first % 4294967296) (Duff.init 0 t0 u) s' ∧ Inv G first first s' := by
  have e : ((t0.setLastRun (first % 4294967296)).startTimeout.setDelay 0).timeout = first % 4294967296 := by
    simp [Task.setDelay, Task.startTimeout, Task.setLastRun, ht]
  have e2 : ((t0.setLastRun (first % 4294967296)).startTimeout.setDelay 0).lastRun = first % 4294967296 := by
    simp [Task.setDelay, Task.startTimeout, Task.setLastRun, ht]
  obtain ⟨s', r1, r2⟩ := run1 (api := api) (G := G) (first := first) (c := first) (r := first)
    (s := ⟨(t0.setLastRun (first % 4294967296)).startTimeout.setDelay 0, 1, call .startDetection api.startDetection u⟩)
    ⟨h3, e2, e, Nat.le_refl _, Nat.le_refl _, by omega⟩ rfl (by show u.log ++ _ = _; rw [h1]; rfl) h2 (Nat.le_refl _) (by omega)
  exact ⟨s', call_of (k := [.run (.seq (body api).expand (.setEntry 5))]) find0
    (reach_seq (Reach.head (reach_seq (Reach.head (reach_await r1))))), r2⟩

theorem answered_others {u v : World D} {m : List Ntp.Call} {ok : Nat → Prop} (h : Answered u m ok) (o1 : v.log = u.log)
    (o3 : v.printed = u.printed) : Answered v m ok := by
  unfold Answered at *
  rw [o1, o3]
  exact h

theorem verdict_others {u v : World D} (h : Verdict u) (o : Others u v) : Verdict v := by
  unfold Verdict Answered at *
  rw [o.1, o.2.2.1, o.2.2.2]
  exact h

theorem next_call {c' : Nat} (h : Inv G first c s) (h1 : c ≤ c') (h2 : c' ≤ c + G) (hG : G + 60000 < 4294967296) {g : World D → World D}
    (hg : Others s.user (g s.user)) : ∃ s', Duff.Call (text api) (c' % 4294967296) { s with user := g s.user } s' ∧ Inv G first c' s' := by
  obtain ⟨hv, hp⟩ := h
  obtain ⟨o1, o2, o3, o4⟩ := hg
  rcases hp with ⟨he, e, hx, hc⟩ | ⟨hx, r, hr1, hr2, hr3, hw⟩
  · refine ⟨⟨s.task.setLastRun (c' % 4294967296), s.entry, g s.user⟩, ⟨0, ?_⟩, verdict_others hv ⟨o1, o2, o3, o4⟩, .inl ⟨he, e, o4.trans hx, by omega⟩⟩
    show ((find s.entry (text api) []).getD [], _) = _
    rw [he, find5]
    rfl
  · have now : c' < r + 4294967296 → Now first c' r ⟨s.task.setLastRun (c' % 4294967296), s.entry, g s.user⟩ := fun q =>
      ⟨o4.trans hx, rfl, hr1, hr2, Nat.le_trans hr3 h1, q⟩
    rcases hw with ⟨he, hl, hq, hc, hb⟩ | ⟨he, hl, hk, hq, hc, hb⟩ | ⟨he, hl, hk, hq, hc, hb⟩ | ⟨he, ha, hc, hb⟩
    · obtain ⟨s', r1, r2⟩ := run1 (api := api) (G := G) (now (by omega)) he (o1.trans hl) (o3.trans hq) hb (by omega)
      exact ⟨s', call_of (he ▸ find1) r1, r2⟩
    · obtain ⟨s', r1, r2⟩ := run2 (api := api) (G := G) (now (by omega)) he (o1.trans hl) (o2.trans hk) (o3.trans hq) hb (by omega)
      exact ⟨s', call_of (he ▸ find2) r1, r2⟩
    · obtain ⟨s', r1, r2⟩ := run3 (api := api) (G := G) (now (by omega)) he (o1.trans hl) (o2.trans hk) (o3.trans hq) hb (by omega)
      exact ⟨s', call_of (he ▸ find3) r1, r2⟩
    · obtain ⟨s', r1, r2⟩ := run4 (api := api) (G := G) (now (by omega)) he (answered_others ha o1 o3) hb
      exact ⟨s', call_of (he ▸ find4) r1, r2⟩

theorem later_calls (hG : G + 60000 < 4294967296) {xs : List (Nat × (World D → World D))} (hx : ∀ x ∈ xs, ∀ w, Others w (x.2 w))
    (hp : Paced G c (xs.map (·.1))) (h : Inv G first c s) :
    ∃ s', Calls (text api) (ticks xs) s s' ∧ Inv G first (final c (xs.map (·.1))) s' := by
  induction xs generalizing c s with
  | nil => exact ⟨s, .nil, h⟩
  | cons x xs ih =>
    obtain ⟨s1, h1, h2⟩ := next_call (api := api) h hp.1 hp.2.1 hG (hx x (List.mem_cons_self ..) s.user)
    obtain ⟨s2, h3, h4⟩ := ih (fun y hy => hx y (List.mem_cons_of_mem _ hy)) hp.2.2 h2
    exact ⟨s2, .cons h1 h3, h4⟩

/-! ### Computing calls -/

/-- Calls of at most `n` steps. -/
def callsN {σ : Type} (n : Nat) (text : Duff.Raw σ) : List (Nat × (σ → σ)) → Duff.St σ → Option (Duff.St σ)
  | [], s => some s
  | (t, g) :: xs, s =>
    let x := Duff.steps n ((Duff.find s.entry text []).getD [], { s with user := g s.user, task := s.task.setLastRun t })
    if x.1.isEmpty then callsN n text xs x.2 else none

theorem callsN_calls {σ : Type} {n : Nat} {text : Duff.Raw σ} {xs : List (Nat × (σ → σ))} {s s' : Duff.St σ}
    (h : callsN n text xs s = some s') : Calls text xs s s' := by
  induction xs generalizing s with
  | nil => cases h; exact .nil
  | cons x xs ih =>
    obtain ⟨t, g⟩ := x
    unfold callsN at h
    dsimp only at h
    split at h <;> rename_i hx
    · exact .cons ⟨n, Prod.ext (List.isEmpty_iff.mp hx) rfl⟩ (ih h)
    · cases h

end Verif.Ntp
