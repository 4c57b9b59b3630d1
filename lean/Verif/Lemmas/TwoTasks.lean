import Verif.Lemmas.Counted
import Verif.Lemmas.Program
import Verif.Spec.TwoTasks

/-!
# The program of the scheduler example
-/

namespace Verif.TwoTasks

open Duff (Test Wait Prog)
open Counted (Into)
open Spec.TwoTasks

/-! ### How a call ends -/

/-- A call of the first task: point, flag, messages, point and delay afterwards. -/
inductive Step1 : Nat → Bool → List Msg → Nat → Nat → Prop
  | one (b) : Step1 0 b [.one1] 1 2000
  | two : Step1 1 false [.one2] 2 0
  | through : Step1 1 true [.one2, .one3, .oneLoop] 3 1500
  | still : Step1 2 false [] 2 0
  | three : Step1 2 true [.one3, .oneLoop] 3 1500
  | loop (b) : Step1 3 b [.oneLoop] 3 1500

/-- A call of the second task: point, message, flag set, point and delay afterwards. -/
inductive Step2 : Nat → Msg → Bool → Nat → Nat → Prop
  | one : Step2 5 .two1 false 6 3000
  | two : Step2 6 .two2 false 7 2000
  | wake : Step2 7 .wake true 8 3000
  | first : Step2 8 .twoLoop false 9 1000
  | loop : Step2 9 .twoLoop false 9 1000

def Done1 (t e : Nat) (u : World) (s : Duff.St World) : Prop :=
  ∃ a, s.user = { u with log := u.log ++ a } ∧ s.task.lastRun = t ∧ Step1 e u.wakeup a s.entry s.task.delay

def Done2 (t e : Nat) (u : World) (s : Duff.St World) : Prop :=
  ∃ m b, s.user = ⟨u.wakeup || b, u.log ++ [m]⟩ ∧ s.task.lastRun = t ∧ Step2 e m b s.entry s.task.delay

theorem into_call {σ : Type} {text : Duff.Raw σ} {Q : Duff.St σ → Prop} {t : Nat} {s s' : Duff.St σ}
    (h : Into Q ((Duff.find s.entry text []).getD []) { s with task := s.task.setLastRun t }) (hc : Duff.Call text t s s') : Q s' := by
  obtain ⟨n, x, h1, h2⟩ := h
  obtain ⟨m, h3⟩ := hc
  rw [Duff.steps_det h3 h1]
  exact h2

theorem call_into {σ : Type} {text : Duff.Raw σ} {Q : Duff.St σ → Prop} {t : Nat} {s : Duff.St σ}
    (h : Into Q ((Duff.find s.entry text []).getD []) { s with task := s.task.setLastRun t }) : ∃ s', Duff.Call text t s s' := by
  obtain ⟨n, x, h1, _⟩ := h
  exact ⟨x, n, h1⟩

/-- The first task. -/
theorem into1 {task : Task} {e t : Nat} {u : World} (he : e ≤ 3) (hz : e = 2 → task.delay = 0) :
    Into (Done1 t e u) ((Duff.find e text1 []).getD []) ⟨task.setLastRun t, e, u⟩ := by
  obtain ⟨wk, log⟩ := u
  have e4 : e = 0 ∨ e = 1 ∨ e = 2 ∨ e = 3 := by omega
  rcases e4 with rfl | rfl | rfl | rfl
  · exact ⟨40, _, rfl, _, rfl, rfl, .one _⟩
  · cases wk
    · exact ⟨40, _, rfl, _, rfl, rfl, .two⟩
    · exact ⟨60, _, rfl, [.one2, .one3, .oneLoop], by simp [Duff.steps, say], rfl, .through⟩
  · cases wk
    · refine ⟨40, _, rfl, [], by simp, rfl, ?_⟩
      show Step1 2 false [] 2 task.delay
      rw [hz rfl]
      exact .still
    · exact ⟨40, _, rfl, [.one3, .oneLoop], by simp [say], rfl, .three⟩
  · exact ⟨40, _, rfl, _, rfl, rfl, .loop _⟩

/-- The second task. -/
theorem into2 {task : Task} {e t : Nat} {u : World} (h5 : 5 ≤ e) (h9 : e ≤ 9) :
    Into (Done2 t e u) ((Duff.find e text2 []).getD []) ⟨task.setLastRun t, e, u⟩ := by
  obtain ⟨wk, log⟩ := u
  have e4 : e = 5 ∨ e = 6 ∨ e = 7 ∨ e = 8 ∨ e = 9 := by omega
  rcases e4 with rfl | rfl | rfl | rfl | rfl
  · exact ⟨40, _, rfl, _, false, by simp [say], rfl, .one⟩
  · exact ⟨40, _, rfl, _, false, by simp [say], rfl, .two⟩
  · exact ⟨40, _, rfl, _, true, by simp [say, wakes], rfl, .wake⟩
  · exact ⟨40, _, rfl, _, false, by simp [say], rfl, .first⟩
  · exact ⟨40, _, rfl, _, false, by simp [say], rfl, .loop⟩

/-! ### What one task has printed -/

/-- The messages of one task: in order, spaced, and the task waits after the last. -/
structure Row (mine : Msg → Bool) (script : Nat → Msg) (h : List (Nat × Msg)) (n : Nat) (delay last : Nat) : Prop where
  msgs : (part mine h).map (·.2) = (List.range n).map script
  spaced : Spaced (part mine h)
  rest : ∀ l x, part mine h = l ++ [x] → delay = pause x.2 ∧ (pause x.2 = 0 ∨ x.1 = last)
  fresh : part mine h = [] → delay = 0

variable {mine : Msg → Bool} {script : Nat → Msg} {h : List (Nat × Msg)} {n delay last : Nat}

theorem part_append (a b : List (Nat × Msg)) : part mine (a ++ b) = part mine a ++ part mine b := List.filter_append ..

theorem Row.skip (r : Row mine script h n delay last) {a : List (Nat × Msg)} (ha : part mine a = []) : Row mine script (h ++ a) n delay last := by
  have e : part mine (h ++ a) = part mine h := by rw [part_append, ha, List.append_nil]
  exact ⟨by rw [e]; exact r.msgs, by rw [e]; exact r.spaced, by rw [e]; exact r.rest, by rw [e]; exact r.fresh⟩

theorem spaced_snoc {h : List (Nat × Msg)} (hs : Spaced h) {y : Nat × Msg} (hy : ∀ l x, h = l ++ [x] → sub32 y.1 x.1 ≥ pause x.2) : Spaced (h ++ [y]) := by
  intro l x z r e
  rcases List.eq_nil_or_concat r with rfl | ⟨r, w, rfl⟩
  · have e2 : h ++ [y] = (l ++ [x]) ++ [z] := by rw [e]; simp
    obtain ⟨h1, h2⟩ := List.append_inj' e2 rfl
    cases h2
    exact hy l x h1
  · have e2 : h ++ [y] = (l ++ x :: z :: r) ++ [w] := by rw [e]; simp
    exact hs l x z r (List.append_inj' e2 rfl).1

theorem Row.snoc (r : Row mine script h n delay last) {tick : Nat} (hd : delay = 0 ∨ sub32 tick last ≥ delay) (hm : mine (script n) = true) :
    Row mine script (h ++ [(tick, script n)]) (n + 1) (pause (script n)) tick := by
  have e : part mine (h ++ [(tick, script n)]) = part mine h ++ [(tick, script n)] := by
    rw [part_append]; simp [part, hm]
  refine ⟨?_, ?_, ?_, fun h => ?_⟩
  · rw [e, List.map_append, r.msgs, List.range_succ, List.map_append]; rfl
  · rw [e]
    refine spaced_snoc r.spaced fun l x hx => ?_
    obtain ⟨h1, h2⟩ := r.rest l x hx
    show sub32 tick x.1 ≥ pause x.2
    rcases h2 with h2 | h2
    · omega
    · rw [h2]; omega
  · intro l x hx
    rw [e] at hx
    obtain ⟨-, h2⟩ := List.append_inj' hx rfl
    cases h2
    exact ⟨rfl, .inr rfl⟩
  · rw [e] at h
    exact absurd h (by simp)

/-- Where the first task is after `n` messages. -/
def Place1 (e n : Nat) : Prop := (e = 0 ∧ n = 0) ∨ (e = 1 ∧ n = 1) ∨ (e = 2 ∧ n = 2) ∨ (e = 3 ∧ 4 ≤ n)
def Place2 (e n : Nat) : Prop := (e = 5 ∧ n = 0) ∨ (e = 6 ∧ n = 1) ∨ (e = 7 ∧ n = 2) ∨ (e = 8 ∧ n = 3) ∨ (e = 9 ∧ 4 ≤ n)

theorem woken_append {l a : List Msg} (h : Woken l) (ha : .one3 ∈ a → .wake ∈ l) : Woken (l ++ a) := by
  intro i hi
  by_cases hl : i < l.length
  · rw [List.getElem?_append_left hl] at hi
    obtain ⟨j, h1, h2⟩ := h i hi
    exact ⟨j, h1, by rw [List.getElem?_append_left (by omega)]; exact h2⟩
  · rw [List.getElem?_append_right (by omega)] at hi
    obtain ⟨j, hj, e⟩ := List.mem_iff_getElem.1 (ha (List.mem_of_getElem? hi))
    exact ⟨j, by omega, by rw [List.getElem?_append_left hj, List.getElem?_eq_getElem hj, e]⟩

/-- The state of the program between two calls of `runTask()`. -/
structure Going (h : List (Nat × Msg)) (s : Sched Main) : Prop where
  cur : s.cur ≤ 1
  ub : s.ub = false
  log : s.world.user.log = h.map (·.2)
  woken : Woken s.world.user.log
  flag : s.world.user.wakeup = true → .wake ∈ s.world.user.log
  flag' : .wake ∈ s.world.user.log → s.world.user.wakeup = true
  state : ∃ t0 t1 n m, s.tasks = [t0, t1] ∧ Place1 s.world.e1 n ∧ Place2 s.world.e2 m ∧
    Row isOne script1 h n t0.delay t0.lastRun ∧ Row isTwo script2 h m t1.delay t1.lastRun

/-- A turn of the first task. -/
theorem row1 {h : List (Nat × Msg)} {n delay last e e' d' tick : Nat} {b : Bool} {a : List Msg} (r : Row isOne script1 h n delay last)
    (hp : Place1 e n) (st : Step1 e b a e' d') (hd : delay = 0 ∨ sub32 tick last ≥ delay) :
    Row isOne script1 (h ++ a.map (tick, ·)) (n + a.length) d' tick ∧ Place1 e' (n + a.length) := by
  have z : ∀ x, sub32 tick x ≥ 0 := fun _ => Nat.zero_le _
  cases st with
  | one =>
    obtain rfl : n = 0 := by unfold Place1 at hp; omega
    exact ⟨r.snoc hd rfl, .inr (.inl ⟨rfl, rfl⟩)⟩
  | two =>
    obtain rfl : n = 1 := by unfold Place1 at hp; omega
    exact ⟨r.snoc hd rfl, .inr (.inr (.inl ⟨rfl, rfl⟩))⟩
  | through =>
    obtain rfl : n = 1 := by unfold Place1 at hp; omega
    have q := ((r.snoc hd rfl).snoc (tick := tick) (.inl rfl) rfl).snoc (tick := tick) (.inl rfl) rfl
    simp only [List.append_assoc] at q
    exact ⟨q, .inr (.inr (.inr ⟨rfl, Nat.le_refl _⟩))⟩
  | still =>
    obtain rfl : n = 2 := by unfold Place1 at hp; omega
    refine ⟨?_, .inr (.inr (.inl ⟨rfl, rfl⟩))⟩
    simp only [List.map_nil, List.append_nil, List.length_nil, Nat.add_zero]
    refine ⟨r.msgs, r.spaced, fun l x hx => ?_, fun _ => rfl⟩
    have e2 := r.msgs
    rw [hx, List.map_append, show (List.range 2).map script1 = [Msg.one1] ++ [Msg.one2] from rfl] at e2
    have e3 : x.2 = .one2 := by simpa using (List.append_inj' e2 rfl).2
    rw [e3]
    exact ⟨rfl, .inl rfl⟩
  | three =>
    obtain rfl : n = 2 := by unfold Place1 at hp; omega
    have q := (r.snoc hd rfl).snoc (tick := tick) (.inl rfl) rfl
    simp only [List.append_assoc] at q
    exact ⟨q, .inr (.inr (.inr ⟨rfl, Nat.le_refl _⟩))⟩
  | loop =>
    have hn : 4 ≤ n := by unfold Place1 at hp; omega
    obtain ⟨k, rfl⟩ := Nat.exists_eq_add_of_le' hn
    exact ⟨r.snoc hd rfl, .inr (.inr (.inr ⟨rfl, by show 4 ≤ k + 4 + 1; omega⟩))⟩

/-- A turn of the second task. -/
theorem row2 {h : List (Nat × Msg)} {n delay last e e' d' tick : Nat} {b : Bool} {a : Msg} (r : Row isTwo script2 h n delay last)
    (hp : Place2 e n) (st : Step2 e a b e' d') (hd : delay = 0 ∨ sub32 tick last ≥ delay) :
    Row isTwo script2 (h ++ [(tick, a)]) (n + 1) d' tick ∧ Place2 e' (n + 1) := by
  cases st with
  | one =>
    obtain rfl : n = 0 := by unfold Place2 at hp; omega
    exact ⟨r.snoc hd rfl, .inr (.inl ⟨rfl, rfl⟩)⟩
  | two =>
    obtain rfl : n = 1 := by unfold Place2 at hp; omega
    exact ⟨r.snoc hd rfl, .inr (.inr (.inl ⟨rfl, rfl⟩))⟩
  | wake =>
    obtain rfl : n = 2 := by unfold Place2 at hp; omega
    exact ⟨r.snoc hd rfl, .inr (.inr (.inr (.inl ⟨rfl, rfl⟩)))⟩
  | first =>
    obtain rfl : n = 3 := by unfold Place2 at hp; omega
    exact ⟨r.snoc hd rfl, .inr (.inr (.inr (.inr ⟨rfl, Nat.le_refl _⟩)))⟩
  | loop =>
    have hn : 4 ≤ n := by unfold Place2 at hp; omega
    obtain ⟨k, rfl⟩ := Nat.exists_eq_add_of_le' hn
    exact ⟨r.snoc hd rfl, .inr (.inr (.inr (.inr ⟨rfl, by show 4 ≤ k + 4 + 1; omega⟩)))⟩

theorem part_none {mine : Msg → Bool} {tick : Nat} {a : List Msg} (ha : ∀ m ∈ a, mine m = false) : part mine (a.map (tick, ·)) = [] := by
  simp only [part, List.filter_eq_nil_iff, List.mem_map, Bool.not_eq_true]
  rintro x ⟨m, hm, rfl⟩
  exact ha m hm

theorem step1_one {e e' d' : Nat} {b : Bool} {a : List Msg} (st : Step1 e b a e' d') : ∀ m ∈ a, isTwo m = false := by
  cases st <;> decide

theorem step2_two {e e' d' : Nat} {b : Bool} {m : Msg} (st : Step2 e m b e' d') : isOne m = false := by
  cases st <;> rfl

theorem step1_flag {e e' d' : Nat} {b : Bool} {a : List Msg} (st : Step1 e b a e' d') (h : Msg.one3 ∈ a) : b = true := by
  cases st <;> first | rfl | simp at h

theorem step2_flag {e e' d' : Nat} {b : Bool} {m : Msg} (st : Step2 e m b e' d') : (b = true → m = .wake) ∧ (m = .wake → b = true) := by
  cases st <;> decide

theorem due_of {t : Task} {tick : Nat} (h : Sched.due t tick = true) : t.delay = 0 ∨ sub32 tick t.lastRun ≥ t.delay := by
  simpa [Sched.due] using h

/-- The delay at the second wait of the first task. -/
theorem Row.zero {h : List (Nat × Msg)} {delay last : Nat} (r : Row isOne script1 h 2 delay last) : delay = 0 := by
  have e := r.msgs
  rcases List.eq_nil_or_concat (part isOne h) with h0 | ⟨l, x, h0⟩
  · rw [h0] at e; cases e
  · rw [List.concat_eq_append] at h0
    rw [h0, List.map_append, show (List.range 2).map script1 = [Msg.one1] ++ [Msg.one2] from rfl] at e
    have e3 : x.2 = .one2 := by simpa using (List.append_inj' e rfl).2
    have := (r.rest l x h0).1
    rw [e3] at this
    exact this

/-- A call of `runTask()`: the messages it prints, and the state afterwards. Also, what happens if it is the turn of a task that is due. -/
theorem Going.next {body : Bodies Main} (hb : Bodied body) {h : List (Nat × Msg)} {s : Sched Main} (g : Going h s) (tick : Nat) :
    ∃ a, (Sched.runTask body s tick).1.world.user.log = s.world.user.log ++ a ∧ Going (h ++ a.map (tick, ·)) (Sched.runTask body s tick).1 ∧
      (∀ t0 t1, s.tasks = [t0, t1] → s.cur = 0 → Sched.due t0 tick = true → ∃ e' d', Step1 s.world.e1 s.world.user.wakeup a e' d') ∧
      (∀ t0 t1, s.tasks = [t0, t1] → s.cur = 1 → Sched.due t1 tick = true → ∃ m, a = [m] ∧ isTwo m = true) := by
  obtain ⟨tasks, cur, world, ub⟩ := s
  obtain ⟨hc, hu, hl, hw, hf, hf', t0, t1, n, m, ht, p1, p2, r1, r2⟩ := g
  simp only at ht hc hu hl hw hf hf' p1 p2
  subst ht hu
  match cur, hc with
  | 0, _ =>
    by_cases hdue : Sched.due t0 tick = true
    · obtain ⟨s', h1, h2⟩ := hb.one world (t0.setLastRun tick) [t1]
      have e : (Sched.runTask body ⟨[t0, t1], 0, world, false⟩ tick).1 =
          ⟨[s'.task, t1], 1, { world with e1 := s'.entry, user := s'.user }, false⟩ := by
        simp only [Sched.runTask, List.getElem?_cons_zero, hdue, if_true, List.set_cons_zero, h2]
        rfl
      rw [e]
      have he : world.e1 ≤ 3 := by unfold Place1 at p1; omega
      have hz : world.e1 = 2 → t0.delay = 0 := fun he2 => by
        obtain rfl : n = 2 := by unfold Place1 at p1; omega
        exact r1.zero
      obtain ⟨a, k1, k2, k3⟩ := into_call (into1 (task := t0.setLastRun tick) (t := tick) (u := world.user) he hz) h1
      obtain ⟨q1, q2⟩ := row1 (tick := tick) r1 p1 k3 (due_of hdue)
      refine ⟨a, by rw [k1], ⟨Nat.le_refl _, rfl, ?_, ?_, ?_, ?_, s'.task, t1, _, m, rfl, q2, p2, ?_, r2.skip (part_none (step1_one k3))⟩, ?_, ?_⟩
      · show s'.user.log = _
        rw [k1]; simp [hl, List.map_map, Function.comp_def]
      · show Woken s'.user.log
        rw [k1]
        exact woken_append hw fun h3 => hf (step1_flag k3 h3)
      · show s'.user.wakeup = true → _ ∈ s'.user.log
        rw [k1]
        exact fun h => List.mem_append_left _ (hf h)
      · show _ ∈ s'.user.log → s'.user.wakeup = true
        rw [k1]
        intro h
        rcases List.mem_append.1 h with h | h
        · exact hf' h
        · exfalso
          have := step1_one k3 _ h
          cases this
      · show Row isOne script1 _ _ s'.task.delay s'.task.lastRun
        rw [k2]; exact q1
      · exact fun _ _ _ _ _ => ⟨_, _, k3⟩
      · intro _ _ _ h; cases h
    · simp only [Bool.not_eq_true] at hdue
      have e : (Sched.runTask body ⟨[t0, t1], 0, world, false⟩ tick).1 = ⟨[t0, t1], 1, world, false⟩ := by
        simp only [Sched.runTask, List.getElem?_cons_zero, hdue]
        rfl
      rw [e]
      refine ⟨[], by simp, ⟨Nat.le_refl _, rfl, by simpa using hl, hw, hf, hf', t0, t1, n, m, rfl, p1, p2, by simpa using r1, by simpa using r2⟩, ?_, ?_⟩
      · intro x y hxy _ h
        simp only [List.cons.injEq] at hxy
        rw [← hxy.1, hdue] at h
        cases h
      · intro _ _ _ h; cases h
  | 1, _ =>
    by_cases hdue : Sched.due t1 tick = true
    · obtain ⟨s', h1, h2⟩ := hb.two world t0 (t1.setLastRun tick) []
      have e : (Sched.runTask body ⟨[t0, t1], 1, world, false⟩ tick).1 =
          ⟨[t0, s'.task], 0, { world with e2 := s'.entry, user := s'.user }, false⟩ := by
        simp only [Sched.runTask, List.getElem?_cons_succ, List.getElem?_cons_zero, hdue, if_true, List.set_cons_succ, List.set_cons_zero, h2]
        rfl
      rw [e]
      have h5 : 5 ≤ world.e2 := by unfold Place2 at p2; omega
      have h9 : world.e2 ≤ 9 := by unfold Place2 at p2; omega
      obtain ⟨x, b, k1, k2, k3⟩ := into_call (into2 (task := t1.setLastRun tick) (t := tick) (u := world.user) h5 h9) h1
      obtain ⟨q1, q2⟩ := row2 (tick := tick) r2 p2 k3 (due_of hdue)
      have hx : isOne x = false := step2_two k3
      refine ⟨[x], by rw [k1], ⟨Nat.zero_le _, rfl, ?_, ?_, ?_, ?_, t0, s'.task, n, _, rfl, p1, q2, r1.skip (part_none ?_), ?_⟩, ?_, ?_⟩
      · show s'.user.log = _
        rw [k1]; simp [hl]
      · show Woken s'.user.log
        rw [k1]
        refine woken_append hw fun h3 => ?_
        rw [List.mem_singleton] at h3
        rw [← h3] at hx
        cases hx
      · show s'.user.wakeup = true → _ ∈ s'.user.log
        rw [k1]
        intro h
        rcases (Bool.or_eq_true _ _).mp h with h | h
        · exact List.mem_append_left _ (hf h)
        · exact List.mem_append_right _ (List.mem_singleton.2 ((step2_flag k3).1 h).symm)
      · show _ ∈ s'.user.log → s'.user.wakeup = true
        rw [k1]
        intro h
        rcases List.mem_append.1 h with h | h
        · show (world.user.wakeup || b) = true
          rw [hf' h]; rfl
        · show (world.user.wakeup || b) = true
          rw [(step2_flag k3).2 (List.mem_singleton.1 h).symm]
          exact Bool.or_true _
      · intro m hm
        rw [List.mem_singleton] at hm
        rw [hm]; exact hx
      · show Row isTwo script2 _ _ s'.task.delay s'.task.lastRun
        rw [k2]; exact q1
      · intro _ _ _ h; cases h
      · exact fun _ _ _ _ _ => ⟨x, rfl, by unfold isTwo; rw [hx]; rfl⟩
    · simp only [Bool.not_eq_true] at hdue
      have e : (Sched.runTask body ⟨[t0, t1], 1, world, false⟩ tick).1 = ⟨[t0, t1], 0, world, false⟩ := by
        simp only [Sched.runTask, List.getElem?_cons_succ, List.getElem?_cons_zero, hdue]
        rfl
      rw [e]
      refine ⟨[], by simp, ⟨Nat.zero_le _, rfl, by simpa using hl, hw, hf, hf', t0, t1, n, m, rfl, p1, p2, by simpa using r1, by simpa using r2⟩, ?_, ?_⟩
      · intro _ _ _ h; cases h
      · intro x y hxy _ h
        simp only [List.cons.injEq, and_true] at hxy
        rw [← hxy.2, hdue] at h
        cases h

theorem Going.all {body : Bodies Main} (hb : Bodied body) {h : List (Nat × Msg)} {s : Sched Main} (g : Going h s) (ticks : List Nat) :
    Going (h ++ history body s ticks) (Sched.runTasks body s ticks).1 := by
  induction ticks generalizing h s with
  | nil => simpa [history, Sched.runTasks] using g
  | cons tick ticks ih =>
    obtain ⟨a, e, g', _⟩ := g.next hb tick
    have := ih g'
    have e2 : history body s (tick :: ticks) = a.map (tick, ·) ++ history body (Sched.runTask body s tick).1 ticks := by
      simp only [history]
      rw [e, List.drop_left]
    rw [e2, ← List.append_assoc]
    exact this

theorem Going.init (junk : Nat) : Going [] (main junk) := by
  have e : ∀ mine, part mine [] = [] := fun _ => rfl
  have row : ∀ mine script, Row mine script [] 0 0 0 := fun mine script => by
    refine ⟨rfl, fun l x y r h => ?_, fun l x h => ?_, fun _ => rfl⟩
    · rw [e] at h
      cases l <;> cases h
    · rw [e] at h
      cases l <;> cases h
  refine ⟨Nat.zero_le _, rfl, rfl, fun i h => ?_, fun h => (by cases h), fun h => (by cases h), _, _, 0, 0, rfl, .inl ⟨rfl, rfl⟩, .inl ⟨rfl, rfl⟩, row _ _, row _ _⟩
  simp [main, Sched.init] at h

/-- A task whose pause is over is due. -/
theorem Row.due {mine : Msg → Bool} {script : Nat → Msg} {h : List (Nat × Msg)} {n : Nat} {t : Task} (r : Row mine script h n t.delay t.lastRun)
    {tick : Nat} (hp : ∀ l x, part mine h = l ++ [x] → sub32 tick x.1 ≥ pause x.2) : Sched.due t tick = true := by
  have : t.delay = 0 ∨ sub32 tick t.lastRun ≥ t.delay := by
    rcases List.eq_nil_or_concat (part mine h) with h0 | ⟨l, x, h0⟩
    · exact .inl (r.fresh h0)
    · rw [List.concat_eq_append] at h0
      obtain ⟨h1, h2⟩ := r.rest l x h0
      have h3 := hp l x h0
      rcases h2 with h2 | h2
      · left; omega
      · right; rw [h1, ← h2]; exact h3
  simpa [Sched.due] using this

/-! ### Computing -/

/-- The bodies, making 60 steps at most, which is enough. -/
def run (i : Nat) (w : Main) (ts : List Task) : Main × List Task :=
  match i, ts with
  | 0, t :: ts =>
    let x := (Duff.steps 60 ((Duff.find w.e1 text1 []).getD [], ⟨t.setLastRun t.lastRun, w.e1, w.user⟩)).2
    ({ w with e1 := x.entry, user := x.user }, x.task :: ts)
  | 1, t0 :: t :: ts =>
    let x := (Duff.steps 60 ((Duff.find w.e2 text2 []).getD [], ⟨t.setLastRun t.lastRun, w.e2, w.user⟩)).2
    ({ w with e2 := x.entry, user := x.user }, t0 :: x.task :: ts)
  | _, _ => (w, ts)

theorem find1 {e : Nat} (h : 3 < e) : Duff.find e text1 [] = none := by
  have h0 : e ≠ 0 := by omega
  have h1 : e ≠ 1 := by omega
  have h2 : e ≠ 2 := by omega
  have h3 : e ≠ 3 := by omega
  simp [text1, Duff.whole, first, Prog.expand, Wait.expand, Duff.find, Duff.Raw.unless, Duff.Raw.skip, h0.symm, h1.symm, h2.symm, h3.symm]

theorem find2 {e : Nat} (h : e < 5 ∨ 9 < e) : Duff.find e text2 [] = none := by
  have h0 : e ≠ 5 := by omega
  have h1 : e ≠ 6 := by omega
  have h2 : e ≠ 7 := by omega
  have h3 : e ≠ 8 := by omega
  have h4 : e ≠ 9 := by omega
  simp [text2, Duff.whole, second, Prog.expand, Wait.expand, Duff.find, h0.symm, h1.symm, h2.symm, h3.symm, h4.symm]

theorem steps1 (e : Nat) (t : Task) (u : World) : (Duff.steps 60 ((Duff.find e text1 []).getD [], ⟨t, e, u⟩)).1 = [] := by
  by_cases he : 3 < e
  · rw [find1 he]; rfl
  · have e4 : e = 0 ∨ e = 1 ∨ e = 2 ∨ e = 3 := by omega
    obtain ⟨wk, log⟩ := u
    rcases e4 with rfl | rfl | rfl | rfl <;> cases wk <;> rfl

theorem steps2 (e : Nat) (t : Task) (u : World) : (Duff.steps 60 ((Duff.find e text2 []).getD [], ⟨t, e, u⟩)).1 = [] := by
  by_cases he : e < 5 ∨ 9 < e
  · rw [find2 he]; rfl
  · have e4 : e = 5 ∨ e = 6 ∨ e = 7 ∨ e = 8 ∨ e = 9 := by omega
    obtain ⟨wk, log⟩ := u
    rcases e4 with rfl | rfl | rfl | rfl | rfl <;> rfl

theorem pair_eq {α β : Type} {x : List α × β} (h : x.1 = []) : x = ([], x.2) := Prod.ext h rfl

theorem run_bodied : Bodied run := by
  constructor
  · intro w t ts
    exact ⟨(Duff.steps 60 ((Duff.find w.e1 text1 []).getD [], ⟨t.setLastRun t.lastRun, w.e1, w.user⟩)).2, ⟨60, pair_eq (steps1 w.e1 _ w.user)⟩, rfl⟩
  · intro w t0 t ts
    exact ⟨(Duff.steps 60 ((Duff.find w.e2 text2 []).getD [], ⟨t.setLastRun t.lastRun, w.e2, w.user⟩)).2, ⟨60, pair_eq (steps2 w.e2 _ w.user)⟩, rfl⟩

end Verif.TwoTasks
