import Verif.Lemmas.Duff

/-!
# A logic for threads

`Tri G R P p Q`: if `P` holds and the thread executes `p`, then `Q` holds afterwards; whenever it rests in between `G` holds. While
the thread rests the world may change according to `R`. There are no rules for `break` and `continue`.
-/

namespace Verif.Spec.Threads

open Duff (Test Wait Prog)

variable {σ : Type}

inductive Tri (G : σ → Prop) (R : σ → σ → Prop) : (σ → Prop) → Prog σ → (σ → Prop) → Prop
  | act {P Q : σ → Prop} {f} (h : ∀ u, P u → Q (f u)) : Tri G R P (.act f) Q
  | setDelay {P : σ → Prop} {d} : Tri G R P (.setDelay d) P
  | seq {P Q T : σ → Prop} {a b} (h1 : Tri G R P a Q) (h2 : Tri G R Q b T) : Tri G R P (.seq a b) T
  | ite {P A B Q : σ → Prop} {c : Test σ} {a b} (ha : ∀ u, P u → (c u).1 = true → A (c u).2)
      (hb : ∀ u, P u → (c u).1 = false → B (c u).2) (h1 : Tri G R A a Q) (h2 : Tri G R B b Q) : Tri G R P (.ite c a b) Q
  | loop {P A B Q : σ → Prop} {c : Test σ} {inc b} (ha : ∀ u, P u → (c u).1 = true → A (c u).2)
      (hb : ∀ u, P u → (c u).1 = false → Q (c u).2) (h1 : Tri G R A b B) (hi : ∀ u, B u → P (inc u)) : Tri G R P (.loop c inc b) Q
  /-- `W` holds while the thread waits, `P` whenever it looks at the condition. -/
  | cond {P W Q : σ → Prop} {l} {c : Test σ} (hg : ∀ u, W u → G u) (hf : ∀ u, P u → (c u).1 = false → W (c u).2)
      (ht : ∀ u, P u → (c u).1 = true → Q (c u).2) (hr : ∀ u v, W u → R u v → P v) : Tri G R P (.wait l (.cond c)) Q
  /-- A wait of any kind; the condition may be ignored. -/
  | any {P W Q : σ → Prop} {l} {w : Wait σ} (hg : ∀ u, W u → G u) (hp : ∀ u, P u → W u) (hw : ∀ since now u, P u → W (Go w since now u).2)
      (ht : ∀ since now u, P u → (Go w since now u).1 = true → Q (Go w since now u).2) (hr : ∀ u v, W u → R u v → P v) :
      Tri G R P (.wait l w) Q

/-- The stack leads from `P` to `E`. -/
inductive Stk (G : σ → Prop) (R : σ → σ → Prop) (E : σ → Prop) : (σ → Prop) → List (Todo σ) → Prop
  | nil : Stk G R E E []
  | run {P Q : σ → Prop} {p k} (h : Tri G R P p Q) (hk : Stk G R E Q k) : Stk G R E P (.run p :: k)
  | again {P A B Q : σ → Prop} {c : Test σ} {inc b k} (ha : ∀ u, P u → (c u).1 = true → A (c u).2)
      (hb : ∀ u, P u → (c u).1 = false → Q (c u).2) (h1 : Tri G R A b B) (hi : ∀ u, B u → P (inc u)) (hk : Stk G R E Q k) :
      Stk G R E B (.again c inc b :: k)

/-- What is known of a thread: working, or waiting. -/
inductive Known (G : σ → Prop) (R : σ → σ → Prop) (E : σ → Prop) (h : Thread σ) : Prop
  | works (P : σ → Prop) (hw : h.waits = none) (hp : P h.user) (hk : Stk G R E P h.stack)
  | waits (P W Q : σ → Prop) (w : Wait σ) (since : Nat) (hw : h.waits = some (w, since)) (hu : W h.user)
      (hg : ∀ u, W u → G u) (hf : ∀ now u, P u → (Go w since now u).1 = false → W (Go w since now u).2)
      (ht : ∀ now u, P u → (Go w since now u).1 = true → Q (Go w since now u).2) (hr : ∀ u v, W u → R u v → P v)
      (hk : Stk G R E Q h.stack)

variable {G : σ → Prop} {R : σ → σ → Prop} {E : σ → Prop}

theorem Known.step (now : Nat) {h : Thread σ} (hk : Known G R E h) : Known G R E (h.step now) := by
  obtain ⟨stack, waits, delay, user⟩ := h
  cases hk with
  | waits P W Q w since hw hu hg hf ht hr hk =>
    simp only at hw; subst hw
    exact .waits P W Q w since rfl hu hg hf ht hr hk
  | works P hw hp hk =>
    simp only at hw hp hk; subst hw
    cases hk with
    | nil => exact .works E rfl hp .nil
    | again ha hb h1 hi hk =>
      exact .works _ rfl (hi _ hp) (.run (.loop ha hb h1 hi) hk)
    | run h hk =>
      cases h with
      | act h => exact .works _ rfl (h _ hp) hk
      | setDelay => exact .works _ rfl hp hk
      | seq h1 h2 => exact .works _ rfl hp (.run h1 (.run h2 hk))
      | ite ha hb h1 h2 =>
        rename_i c a b
        cases hc : (c user).1 with
        | true =>
          have := ha _ hp hc
          exact .works _ rfl this (by simp only [Thread.step, hc, if_true]; exact .run h1 hk)
        | false =>
          have := hb _ hp hc
          exact .works _ rfl this (by simp only [Thread.step, hc, Bool.false_eq_true, if_false]; exact .run h2 hk)
      | loop ha hb h1 hi =>
        rename_i c inc b
        cases hc : (c user).1 with
        | true =>
          have := ha _ hp hc
          exact .works _ rfl this (by simp only [Thread.step, hc, if_true]; exact .run h1 (.again ha hb h1 hi hk))
        | false =>
          have := hb _ hp hc
          exact .works _ rfl this (by simp only [Thread.step, hc, Bool.false_eq_true, if_false]; exact hk)
      | cond hg hf ht hr =>
        rename_i W l c
        cases hc : (c user).1 with
        | true =>
          have := ht _ hp hc
          refine .works _ ?_ this hk
          simp [Thread.step, pauses, Go, hc]
        | false =>
          have := hf _ hp hc
          refine .waits _ W _ (.cond c) now ?_ this hg (fun _ => hf) (fun _ => ht) hr hk
          simp [Thread.step, pauses, Go, hc]
      | any hg hp' hw ht hr =>
        rename_i Q k W l w
        cases hps : pauses w with
        | true =>
          refine .waits _ W _ w now ?_ ?_ hg (fun n u hu _ => hw now n u hu) (fun n => ht now n) hr ?_
          · simp [Thread.step, hps]
          · simp only [Thread.step, hps, if_true]; exact hp' _ hp
          · simp only [Thread.step, hps, if_true]; exact hk
        | false =>
          cases hc : (Go w now now user).1 with
          | true =>
            have := ht _ _ _ hp hc
            refine .works Q ?_ ?_ ?_
            rotate_left 2
            · simp only [Thread.step, hps, Bool.false_eq_true, if_false]; exact hk
            · simp [Thread.step, hps, hc]
            · simp only [Thread.step, hps, Bool.false_eq_true, if_false]; exact this
          | false =>
            refine .waits _ W _ w now ?_ ?_ hg (fun n u hu _ => hw now n u hu) (fun n => ht now n) hr ?_
            · simp [Thread.step, hps, hc]
            · simp only [Thread.step, hps, Bool.false_eq_true, if_false]; exact hw _ _ _ hp
            · simp only [Thread.step, hps, Bool.false_eq_true, if_false]; exact hk

theorem Known.steps (now : Nat) (n : Nat) {h : Thread σ} (hk : Known G R E h) : Known G R E (Thread.steps now n h) := by
  induction n generalizing h with
  | zero => exact hk
  | succ n ih => exact ih (hk.step now)

/-- A thread that rests, the world changes, the thread wakes up. -/
theorem Known.wake (now : Nat) {h : Thread σ} (hk : Known G R E h) (hr : h.Rests) (hE : ∀ u v, E u → R u v → E v)
    {g : σ → σ} (hg : R h.user (g h.user)) : Known G R E (Thread.wake now { h with user := g h.user }) := by
  obtain ⟨stack, waits, delay, user⟩ := h
  cases hk with
  | works P hw hp hk =>
    simp only at hw hp hk; subst hw
    rcases hr with hr | hr
    · exact absurd rfl hr
    · simp only at hr; subst hr
      cases hk
      exact .works E rfl (hE _ _ hp hg) .nil
  | waits P W Q w since hw hu hgW hf ht hr' hk =>
    simp only at hw hu hk; subst hw
    have hP := hr' _ _ hu hg
    cases hc : (Go w since now (g user)).1 with
    | true =>
      refine .works Q ?_ (ht now _ hP hc) hk
      simp [Thread.wake, hc]
    | false =>
      refine .waits P W Q w since ?_ (hf now _ hP hc) hgW hf ht hr' hk
      simp [Thread.wake, hc]

theorem Known.rest {h : Thread σ} (hk : Known G R E h) (hr : h.Rests) (hG : ∀ u, E u → G u) : G h.user := by
  cases hk with
  | waits P W Q w since hw hu hg hf ht hr' hk => exact hg _ hu
  | works P hw hp hk =>
    rcases hr with hr | hr
    · exact absurd hw hr
    · rw [hr] at hk
      cases hk
      exact hG _ hp

theorem turns_known (hE : ∀ u v, E u → R u v → E v) {xs : List (Nat × (σ → σ))} {h h' : Thread σ}
    (ht : Thread.Turns xs h h') (hk : Known G R E h) (hr : h.Rests) (hx : ∀ x ∈ xs, ∀ u, R u (x.2 u)) :
    Known G R E h' ∧ h'.Rests := by
  induction ht with
  | nil => exact ⟨hk, hr⟩
  | cons t ts ih =>
    obtain ⟨n, e, hr1⟩ := t
    refine ih ?_ hr1 fun x hx' => hx x (List.mem_cons_of_mem _ hx')
    rw [← e]
    exact (hk.wake _ hr hE (hx _ (List.mem_cons_self ..) _)).steps _ _

/-- Soundness of the logic, for threads. -/
theorem turns_sound {P : σ → Prop} {p : Prog σ} (h : Tri G R P p E) (hE : ∀ u v, E u → R u v → E v) (hG : ∀ u, E u → G u)
    {xs : List (Nat × (σ → σ))} {u : σ} {d : Nat} {h' : Thread σ} (ht : Thread.Turns xs (Thread.fresh p d u) h')
    (hx : ∀ x ∈ xs, ∀ u, R u (x.2 u)) (h0 : G u) (hP : ∀ v, R u v → P v) : G h'.user := by
  cases ht with
  | nil => exact h0
  | @cons now g xs _ _ _ t ts =>
    obtain ⟨n, e, hr1⟩ := t
    have h1 : Known G R E (Thread.wake now { Thread.fresh p d u with user := g u }) :=
      .works P rfl (hP _ (hx _ (List.mem_cons_self ..) u)) (.run h .nil)
    have hk := h1.steps now n
    rw [show Thread.steps now n (Thread.wake now { Thread.fresh p d u with user := g u }) = _ from e] at hk
    obtain ⟨h1, h2⟩ := turns_known hE ts hk hr1 fun x hx' => hx x (List.mem_cons_of_mem _ hx')
    exact h1.rest h2 hG

end Verif.Spec.Threads
