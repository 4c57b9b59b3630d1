import Verif.Model.Dev

/-!
# Observers of the ghost trace

Small automata that read the trace of a driver from its beginning. They know nothing about the state of
the driver, only about what went over the serial line and what the application called.
-/

namespace Verif.Spec

/-- An observer: a state and what an event does to it. -/
structure Observer (σ : Type) where
  init : σ
  step : σ → Ev → σ

/-- State of the observer after a trace. -/
def Observer.after {σ : Type} (m : Observer σ) (t : List Ev) : σ := t.foldl m.step m.init

@[simp] theorem Observer.after_nil {σ : Type} (m : Observer σ) : m.after [] = m.init := rfl

@[simp] theorem Observer.after_snoc {σ : Type} (m : Observer σ) (t : List Ev) (e : Ev) :
    m.after (t ++ [e]) = m.step (m.after t) e := by
  simp [Observer.after]

@[simp] theorem Observer.after_append {σ : Type} (m : Observer σ) (t u : List Ev) :
    m.after (t ++ u) = u.foldl m.step (m.after t) := by
  simp [Observer.after]

/-- Induction from the end of a list. -/
theorem snocInd {α : Type} {P : List α → Prop} (nil : P []) (snoc : ∀ l a, P l → P (l ++ [a]))
    (l : List α) : P l := by
  rw [← List.reverse_reverse l]
  induction l.reverse with
  | nil => exact nil
  | cons a l ih => rw [List.reverse_cons]; exact snoc _ a ih

/-- Events that do not change the observer's state. -/
theorem Observer.after_neutral {σ : Type} (m : Observer σ) (t new : List Ev)
    (h : ∀ e ∈ new, ∀ s, m.step s e = s) : m.after (t ++ new) = m.after t := by
  unfold Observer.after
  rw [List.foldl_append]
  generalize List.foldl m.step m.init t = s
  induction new with
  | nil => rfl
  | cons e es ih =>
    rw [List.foldl_cons, h e (by simp)]
    exact ih fun e he => h e (by simp [he])

/-- Every event of the trace is related by `P` to the events before it. -/
def Always (P : List Ev → Ev → Prop) (t : List Ev) : Prop :=
  ∀ pre e post, t = pre ++ e :: post → P pre e

theorem always_nil (P : List Ev → Ev → Prop) : Always P [] := by
  intro pre e post h; simp at h

theorem always_snoc {P : List Ev → Ev → Prop} {t : List Ev} {e : Ev} :
    Always P (t ++ [e]) ↔ Always P t ∧ P t e := by
  constructor
  · intro h
    refine ⟨fun pre x post hx => h pre x (post ++ [e]) (by rw [hx]; simp), h t e [] rfl⟩
  · rintro ⟨h, he⟩ pre x post hx
    rcases List.eq_nil_or_concat post with rfl | ⟨post', y, rfl⟩
    · have := List.append_inj' hx (by simp)
      obtain ⟨rfl, h2⟩ := this
      simp at h2
      subst h2
      exact he
    · have hx' : t ++ [e] = (pre ++ x :: post') ++ [y] := by rw [hx]; simp
      have := List.append_inj' hx' (by simp)
      exact h pre x post' this.1

/-- What the modem was asked to do about the connection and what it answered. -/
inductive Link
  /-- Nothing asked since the start, the last reset or the last close. -/
  | down
  /-- The open command was sent completely, no answer yet. -/
  | asked
  /-- The modem confirmed. -/
  | up
deriving Repr, DecidableEq

/-- `open_`: first string of the open command; `success`: beginning of the line that confirms;
`clear`: commands that begin a connection from scratch, reset the modem or close the connection. -/
def link (open_ success : List Byte) (clear : List (List Byte)) : Observer Link where
  init := .down
  step := fun s e =>
    match e with
    | .cmd w g => if w ∈ clear then .down else if w = open_ ∧ g = open_ then .asked else s
    | .line l => if s = .asked ∧ success <+: l then .up else s
    | .apiReset => .down
    | _ => s

end Verif.Spec
