import Verif.Lemmas.Duff

/-!
# C83: a reentrant task is a thread

C20 is about bodies without loops and branches. Here the body has any structure.
-/

namespace Verif.Props.Thread

open Verif Duff Spec.Threads

variable {σ : Type}

/-- C83: any number of calls of `run()`, at any ticks and with anything happening in between, has exactly the effects that as
many turns of the thread have, with the same delays for the scheduler; and either both end or neither does. -/
theorem C83_thread {first last : Nat} {p : Prog σ} (hg : Good first last p) {t : Task} (ht : t.timeoutRunning = false)
    (xs : List (Nat × (σ → σ))) (u u' : σ) (d : Nat) :
    (∃ s, Calls (whole first last p.expand) xs (init first t u) s ∧ s.user = u' ∧ s.task.delay = d) ↔
    (∃ h, Thread.Turns xs (Thread.fresh p t.delay u) h ∧ h.user = u' ∧ h.delay = d) := by
  cases xs with
  | nil =>
    constructor
    · rintro ⟨s, h, h1, h2⟩; cases h; exact ⟨_, .nil, h1, h2⟩
    · rintro ⟨s, h, h1, h2⟩; cases h; exact ⟨_, .nil, h1, h2⟩
  | cons x xs =>
    obtain ⟨now, g⟩ := x
    obtain ⟨hW, x, hw, hc⟩ := first_call hg ht now (g u)
    have hb : last < 256 := hg.byte last (by simp)
    obtain ⟨f1, f2⟩ := working hb hW hw
    have user : ∀ {h s}, Between (whole first last p.expand) last h s → s.user = h.user ∧ s.task.delay = h.delay := by
      rintro h s (⟨w, since, i⟩ | i)
      · exact ⟨i.user, i.delay⟩
      · exact ⟨i.user, i.delay⟩
    constructor
    · rintro ⟨s, h, h1, h2⟩
      cases h with
      | cons c cs =>
        obtain ⟨n, h', e, hr, j⟩ := f2 _ ((hc _).1 c)
        obtain ⟨h'', t2, j2⟩ := (calls_turns hb hW xs j).2 _ cs
        obtain ⟨e1, e2⟩ := user j2
        exact ⟨h'', .cons ⟨n, e, hr⟩ t2, e1 ▸ h1, e2 ▸ h2⟩
    · rintro ⟨h, ht, h1, h2⟩
      cases ht with
      | cons c cs =>
        obtain ⟨m, s', e, j⟩ := f1 _ c
        obtain ⟨s'', t2, j2⟩ := (calls_turns hb hW xs j).1 _ cs
        obtain ⟨e1, e2⟩ := user j2
        exact ⟨s'', .cons ((hc _).2 ⟨m, e⟩) t2, e1.trans h1, e2.trans h2⟩

/-- C83: the effects of the calls are determined. -/
theorem C83_determined {text : Raw σ} {xs : List (Nat × (σ → σ))} {s a b : St σ} (h1 : Calls text xs s a) (h2 : Calls text xs s b) :
    a = b := calls_det h1 h2

theorem turns_over (ys : List (Nat × (σ → σ))) : ∀ h : Thread σ, h.stack = [] → h.waits = none →
    Thread.Turns ys h { h with user := ys.foldl (fun u y => y.2 u) h.user } := by
  induction ys with
  | nil => intro h _ _; exact .nil
  | cons y ys ih =>
    intro h hs hw
    have e : Thread.wake y.1 { h with user := y.2 h.user } = { h with user := y.2 h.user } := by
      simp only [Thread.wake, hw]
    exact .cons (h1 := { h with user := y.2 h.user }) ⟨0, e, .inr hs⟩ (ih { h with user := y.2 h.user } hs hw)

theorem turns_append {xs ys : List (Nat × (σ → σ))} {h h1 h2 : Thread σ} (t1 : Thread.Turns xs h h1) (t2 : Thread.Turns ys h1 h2) :
    Thread.Turns (xs ++ ys) h h2 := by
  induction t1 with
  | nil => exact t2
  | cons t _ ih => exact .cons t (ih t2)

/-- C83: when the thread has come to its end, further calls of `run()` do nothing: only the rest of the world does. -/
theorem C83_end {first last : Nat} {p : Prog σ} (hg : Good first last p) {t : Task} (ht : t.timeoutRunning = false)
    {xs : List (Nat × (σ → σ))} {u : σ} {h : Thread σ} (hx : Thread.Turns xs (Thread.fresh p t.delay u) h) (hs : h.stack = [])
    (hw : h.waits = none) (ys : List (Nat × (σ → σ))) (s : St σ) (hc : Calls (whole first last p.expand) (xs ++ ys) (init first t u) s) :
    s.user = ys.foldl (fun u y => y.2 u) h.user ∧ s.task.delay = h.delay := by
  obtain ⟨s', c', h1, h2⟩ := (C83_thread hg ht (xs ++ ys) u _ _).2 ⟨_, turns_append hx (turns_over ys h hs hw), rfl, rfl⟩
  rw [C83_determined hc c']
  exact ⟨h1, h2⟩

/-! ### An example: a task that sends ten times, waiting for an answer each time -/

structure Demo where
  i : Nat
  answer : Bool
  out : List Nat
deriving DecidableEq

/-- ```
for (m_i = 0; m_i < 10; m_i++) {
    send(m_i);
    E_REENTER_COND_TIMEOUT(answer, 100);
    if (!answer) break;
    E_REENTER_DELAY(500);
}
finish();
``` -/
def demo : Prog Demo :=
  .seq (.act fun u => { u with i := 0 })
  (.seq (.loop (fun u => (decide (u.i < 10), u)) (fun u => { u with i := u.i + 1 })
    (.seq (.act fun u => { u with out := u.out ++ [u.i] })
    (.seq (.wait 1 (.condTimeout (fun u => (u.answer, u)) fun _ => 100))
    (.seq (.ite (fun u => (!u.answer, u)) .brk (.act id))
    (.wait 2 (.delay fun _ => 500))))))
  (.act fun u => { u with out := u.out ++ [99] }))

theorem demo_good : Good 0 3 demo := by
  refine ⟨by simp [demo, labels], by simp [demo, labels], ?_⟩
  simp [demo, Closed]

/-- An answer, a pause, no answer for 101 ticks: the loop is left. -/
example : ∃ s, Calls (whole 0 3 demo.expand)
    [(1000, id), (1050, fun u => { u with answer := true }), (1550, fun u => { u with answer := false }), (1651, id)]
      (init 0 (Task.init 7 0) ⟨5, false, []⟩) s ∧ s.user = ⟨1, false, [0, 1, 99]⟩ ∧ s.task.delay = 0 := by
  refine (C83_thread demo_good rfl _ _ _ _).2 ⟨_, .cons ⟨8, rfl, .inl (by decide)⟩ (.cons ⟨4, rfl, .inl (by decide)⟩ (.cons ⟨6, rfl, .inl (by decide)⟩
    (.cons ⟨4, rfl, .inr rfl⟩ .nil))), ?_, ?_⟩
  all_goals decide

/-! ### Where a task is not a thread -/

/-- Calls with nothing happening in between. -/
def quiet (ts : List Nat) : List (Nat × (σ → σ)) := ts.map fun t => (t, id)

/-- `A; E_REENTER_YIELD(); B; X` with label `l`. -/
def twoParts (l : Nat) (A B : σ → σ) (X : Raw σ) : Raw σ := .seq (.act A) (.seq (Wait.yield.expand l) (.seq (.act B) X))

theorem repeats {first last l : Nat} (hn : [first, last, l].Nodup) (hb : ∀ m ∈ [first, last, l], m < 256) (A B : σ → σ) (X : Raw σ)
    (hX : ∀ s : St σ, ∃ n, steps n ([.run X, .run (.setEntry last)], s) = ([], s)) (t : Task) (u : σ) (t0 : Nat) (ts : List Nat) :
    ∃ s, Calls (whole first last (twoParts l A B X)) (quiet (t0 :: ts)) (init first t u) s ∧ s.user = Nat.repeat B ts.length (A u) := by
  simp only [List.nodup_cons, List.mem_cons, List.not_mem_nil, or_false, not_or] at hn
  have e1 : first % 256 = first := Nat.mod_eq_of_lt (hb _ (by simp))
  have e2 : l % 256 = l := Nat.mod_eq_of_lt (hb _ (by simp))
  have key : ∀ ts : List Nat, ∀ s : St σ, s.entry = l →
      ∃ s', Calls (whole first last (twoParts l A B X)) (quiet ts) s s' ∧ s'.user = Nat.repeat B ts.length s.user := by
    intro ts
    induction ts with
    | nil => intro s hs; exact ⟨s, .nil, rfl⟩
    | cons t ts ih =>
      intro s hs
      obtain ⟨task, entry, user⟩ := s
      simp only at hs
      subst hs
      obtain ⟨n, hn'⟩ := hX ⟨task.setLastRun t, entry, B user⟩
      obtain ⟨s', h1, h2⟩ := ih ⟨task.setLastRun t, entry, B user⟩ rfl
      refine ⟨s', .cons ⟨2 + n, ?_⟩ h1, h2.trans ?_⟩
      · have e : find entry (whole first last (twoParts entry A B X)) [] = some [.run (.seq (.act B) X), .run (.setEntry last)] := by
          simp [whole, twoParts, Wait.expand, find, hn.1.2]
        show steps (2 + n) ((find entry _ []).getD [], _) = _
        rw [e, steps_add]
        exact hn'
      · show Nat.repeat B ts.length (B user) = Nat.repeat B (ts.length + 1) user
        have : ∀ n x, Nat.repeat B n (B x) = B (Nat.repeat B n x) := by
          intro n; induction n with
          | zero => intro x; rfl
          | succ n ih => intro x; show B (Nat.repeat B n (B x)) = B (B (Nat.repeat B n x)); rw [ih]
        rw [this]; rfl
  obtain ⟨s, h1, h2⟩ := key ts ⟨t.setLastRun t0, l % 256, A u⟩ e2
  refine ⟨s, .cons ⟨8, ?_⟩ h1, h2⟩
  have e : find first (whole first last (twoParts l A B X)) [] = some [.run (.seq (twoParts l A B X) (.setEntry last))] := by
    simp [whole, find]
  show steps 8 ((find (first % 256) _ []).getD [], _) = _
  rw [e1, e]
  rfl

/-- C83: a `return` of the user's own does not remember where it was: with the body `A; E_REENTER_YIELD(); B; return; C` every call
from the second on does `B` again. -/
theorem C83_return {first last l : Nat} (hn : [first, last, l].Nodup) (hb : ∀ m ∈ [first, last, l], m < 256) (A B C : σ → σ) (t : Task) (u : σ)
    (t0 : Nat) (ts : List Nat) :
    ∃ s, Calls (whole first last (twoParts l A B (.seq .ret (.act C)))) (quiet (t0 :: ts)) (init first t u) s ∧
      s.user = Nat.repeat B ts.length (A u) :=
  repeats hn hb A B _ (fun _ => ⟨2, rfl⟩) t u t0 ts

/-- C83: neither does a `break` that is not inside a loop: it leaves the `switch` of the macros. -/
theorem C83_break {first last l : Nat} (hn : [first, last, l].Nodup) (hb : ∀ m ∈ [first, last, l], m < 256) (A B C : σ → σ) (t : Task) (u : σ)
    (t0 : Nat) (ts : List Nat) :
    ∃ s, Calls (whole first last (twoParts l A B (.seq .brk (.act C)))) (quiet (t0 :: ts)) (init first t u) s ∧
      s.user = Nat.repeat B ts.length (A u) :=
  repeats hn hb A B _ (fun _ => ⟨2, rfl⟩) t u t0 ts

/-- `if (c) E_REENTER_YIELD();` without braces: only the first statement of the macro is conditional. -/
def unbraced (l : Nat) (c : Test σ) : Raw σ := .seq (.ite (fun _ => c) (.setEntry l) .skip) (.seq .ret (.label l))

/-- C83: the macros are several statements. With the body `A; if (c) E_REENTER_YIELD(); B` and a false condition, every call does
`A` and returns; `B` is never reached. -/
theorem C83_unbraced {first last l : Nat} (hb : first < 256) (A B : σ → σ) (c : Test σ) (hc : ∀ u, c u = (false, u))
    (t : Task) (u : σ) (ts : List Nat) :
    ∃ s, Calls (whole first last (.seq (.act A) (.seq (unbraced l c) (.act B)))) (quiet ts) (init first t u) s ∧
      s.user = Nat.repeat A ts.length u := by
  have e1 : first % 256 = first := Nat.mod_eq_of_lt hb
  induction ts generalizing t u with
  | nil => exact ⟨_, .nil, rfl⟩
  | cons t0 ts ih =>
    obtain ⟨s', h1, h2⟩ := ih (t.setLastRun t0) (A u)
    refine ⟨s', .cons ⟨9, ?_⟩ h1, h2.trans ?_⟩
    · have e : find first (whole first last (.seq (.act A) (.seq (unbraced l c) (.act B)))) [] =
          some [.run (.seq (.seq (.act A) (.seq (unbraced l c) (.act B))) (.setEntry last))] := by
        simp [whole, find]
      show steps 9 ((find (first % 256) _ []).getD [], _) = _
      rw [e1, e]
      simp only [Option.getD_some, steps, step, unbraced, hc, id, Bool.false_eq_true, if_false, Raw.skip]
      simp [init, e1]
    · have : ∀ n x, Nat.repeat A n (A x) = A (Nat.repeat A n x) := by
        intro n; induction n with
        | zero => intro x; rfl
        | succ n ih => intro x; show A (Nat.repeat A n (A x)) = A (A (Nat.repeat A n x)); rw [ih]
      show Nat.repeat A ts.length (A u) = A (Nat.repeat A ts.length u)
      exact this _ _

example : [0, 1, 2].Nodup ∧ ∀ m ∈ [0, 1, 2], m < 256 := by decide

end Verif.Props.Thread
