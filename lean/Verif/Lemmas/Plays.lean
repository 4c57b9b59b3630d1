import Verif.Lemmas.ClientDrv
import Verif.Spec.ClientSessions

/-!
# Computing the turns of a thread
-/

namespace Verif.Client

open Spec.Threads Spec.Client

variable {σ : Type}

/-- Turns of at most `n` steps each. -/
def plays (n : Nat) : List (Nat × (σ → σ)) → Thread σ → Option (Thread σ)
  | [], h => some h
  | x :: xs, h =>
    let h' := Thread.steps x.1 n (Thread.wake x.1 { h with user := x.2 h.user })
    if h'.waits.isSome || h'.stack.isEmpty then plays n xs h' else none

theorem plays_turns {n : Nat} {xs : List (Nat × (σ → σ))} {h h' : Thread σ} (e : plays n xs h = some h') : Thread.Turns xs h h' := by
  induction xs generalizing h with
  | nil => cases e; exact .nil
  | cons x xs ih =>
    unfold plays at e
    dsimp only at e
    split at e <;> rename_i hr
    · refine .cons ⟨n, rfl, ?_⟩ (ih e)
      rcases (Bool.or_eq_true _ _).mp hr with q | q
      · exact Or.inl fun z => by rw [z] at q; cases q
      · exact Or.inr (List.isEmpty_iff.mp q)
    · cases e

/-- The task itself makes the calls and prints what its thread does. -/
theorem plays_calls {D : Type} (api : Api D) {n : Nat} {xs : List (Nat × (World D → World D))} {d : D} {P : World D → Prop}
    (h : ∃ th, plays n xs (Thread.fresh (body api) 0 (start d)) = some th ∧ P th.user) :
    ∃ st, Duff.Calls (text api) xs (Duff.init 0 (Task.init 0 0) (start d)) st ∧ P st.user := by
  obtain ⟨th, e, hp⟩ := h
  obtain ⟨st, hc, hu, _⟩ := (Props.Thread.C83_thread (body_good api) (t := Task.init 0 0) rfl xs (start d) th.user th.delay).2
    ⟨th, plays_turns e, rfl, rfl⟩
  exact ⟨st, hc, by rw [hu]; exact hp⟩

/-- As computed: calls, output, bytes left. -/
theorem plays_result {D : Type} (api : Api D) {n : Nat} {xs : List (Nat × (World D → World D))} {d : D} {l : List Call} {s : List Byte}
    (h : (plays n xs (Thread.fresh (body api) 0 (start d))).map (fun th => (th.user.log, th.user.shown)) = some (l, s)) :
    ∃ st, Duff.Calls (text api) xs (Duff.init 0 (Task.init 0 0) (start d)) st ∧ st.user.log = l ∧ st.user.shown = s := by
  refine plays_calls api (n := n) ?_ (P := fun w => w.log = l ∧ w.shown = s)
  cases e : plays n xs (Thread.fresh (body api) 0 (start d)) with
  | none => rw [e] at h; cases h
  | some th =>
    rw [e] at h
    injection h with h
    exact ⟨th, rfl, (Prod.mk.inj h).1, (Prod.mk.inj h).2⟩

theorem once_oneByOne {S R X : Type} (step : Dev S R X → Op → Dev S R X) (ops : List Op) :
    ∀ x ∈ oneByOne step ops, ∀ w, OnceRun step w (x.2 w) := by
  intro x hx w
  obtain ⟨op, _, rfl⟩ := List.mem_map.mp hx
  refine ⟨⟨rfl, rfl, rfl⟩, [op], ?_, rfl⟩
  rw [List.countP_cons]
  simp only [List.countP_nil]
  split <;> omega

end Verif.Client
