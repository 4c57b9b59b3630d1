import Verif.Model.Client

/-!
# Every call of the task's `run()` returns
-/

namespace Verif.Duff

variable {σ : Type}

/-- What is left to do comes to an end. -/
def Ends (k : List (Frame σ)) (s : St σ) : Prop := ∃ n s', steps n (k, s) = ([], s')

theorem Ends.nil (s : St σ) : Ends [] s := ⟨0, s, rfl⟩

theorem Ends.back {k k' : List (Frame σ)} {s s' : St σ} (e : step (k, s) = (k', s')) (h : Ends k' s') : Ends k s := by
  obtain ⟨n, t, h⟩ := h
  exact ⟨n + 1, t, by show steps n (step (k, s)) = _; rw [e]; exact h⟩

/-- The statement comes to an end if what follows does. -/
def Finite (r : Raw σ) : Prop := ∀ k, (∀ s, Ends k s) → ∀ s, Ends (.run r :: k) s

/-- So do all statements in it. -/
inductive Finitely : Raw σ → Prop
  | simple {r} (h : Finite r) (hf : ∀ l k, find l r k = none) : Finitely r
  | label (l) : Finitely (.label l)
  | seq {a b} : Finitely a → Finitely b → Finitely (.seq a b)
  | ite {c a b} : Finitely a → Finitely b → Finitely (.ite c a b)
  | loop {c inc b} (h : Finite (.loop c inc b)) (hb : Finitely b) : Finitely (.loop c inc b)

theorem Finitely.act (f : σ → σ) : Finitely (.act f) := .simple (fun _ h _ => .back rfl (h _)) fun _ _ => rfl
theorem Finitely.setDelay (d : σ → Nat) : Finitely (.setDelay d) := .simple (fun _ h _ => .back rfl (h _)) fun _ _ => rfl
theorem Finitely.setEntry (l : Nat) : Finitely (.setEntry l : Raw σ) := .simple (fun _ h _ => .back rfl (h _)) fun _ _ => rfl
theorem Finitely.ret : Finitely (.ret : Raw σ) := .simple (fun _ _ s => .back rfl (.nil s)) fun _ _ => rfl

theorem Finitely.finite {r : Raw σ} (h : Finitely r) : Finite r := by
  induction h with
  | simple h => exact h
  | label l => exact fun _ h _ => .back rfl (h _)
  | seq _ _ ha hb => exact fun k h s => .back rfl (ha _ (fun s => hb k h s) s)
  | @ite c a b _ _ ha hb =>
    intro k h s
    refine .back rfl ?_
    cases (c s.task s.user).1
    · exact hb k h _
    · exact ha k h _
  | loop h => exact h

theorem Finitely.find {r : Raw σ} (h : Finitely r) (l : Nat) (k : List (Frame σ)) (hk : ∀ s, Ends k s) {k' : List (Frame σ)}
    (e : Duff.find l r k = some k') : ∀ s, Ends k' s := by
  induction h generalizing k with
  | simple h hf => rw [hf] at e; cases e
  | label m =>
    simp only [Duff.find] at e
    split at e
    · cases e; exact hk
    · cases e
  | @seq a b _ hb iha ihb =>
    simp only [Duff.find, Option.or_eq_some_iff] at e
    rcases e with e | ⟨_, e⟩
    · exact iha _ (fun s => hb.finite k hk s) e
    · exact ihb _ hk e
  | ite _ _ iha ihb =>
    simp only [Duff.find, Option.or_eq_some_iff] at e
    rcases e with e | ⟨_, e⟩
    · exact iha _ hk e
    · exact ihb _ hk e
  | loop h _ ih =>
    simp only [Duff.find] at e
    exact ih _ (fun s => .back (s' := { s with user := _ }) rfl (h k hk _)) e

/-- A call returns. -/
theorem Finitely.call {r : Raw σ} (h : Finitely r) (t : Nat) (s : St σ) : ∃ s', Call r t s s' := by
  cases e : Duff.find s.entry r [] with
  | none => exact ⟨_, 0, by simp only [e]; rfl⟩
  | some k =>
    obtain ⟨n, s', hn⟩ := h.find s.entry [] .nil e { s with task := s.task.setLastRun t }
    exact ⟨s', n, by simp only [e]; exact hn⟩

theorem Finitely.cond (l : Nat) (c : Test σ) : Finitely (Wait.expand l (.cond c)) :=
  .seq (.setDelay _) (.seq (.setEntry l) (.seq (.label l) (.ite .ret (.act id))))

theorem Ends.ite {c : Task → Test σ} {a b : Raw σ} {k : List (Frame σ)} {s : St σ}
    (h1 : (c s.task s.user).1 = true → Ends (.run a :: k) { s with user := (c s.task s.user).2 })
    (h2 : (c s.task s.user).1 = false → Ends (.run b :: k) { s with user := (c s.task s.user).2 }) : Ends (.run (.ite c a b) :: k) s := by
  refine .back (k' := .run (if (c s.task s.user).1 then a else b) :: k) (s' := { s with user := (c s.task s.user).2 }) rfl ?_
  cases hc : (c s.task s.user).1
  · exact h2 hc
  · exact h1 hc

theorem Ends.loop {c : Test σ} {inc : σ → σ} {b : Raw σ} {k : List (Frame σ)} {s : St σ}
    (h1 : (c s.user).1 = true → Ends (.run b :: .again c inc b :: k) { s with user := (c s.user).2 })
    (h2 : (c s.user).1 = false → Ends k { s with user := (c s.user).2 }) : Ends (.run (.loop c inc b) :: k) s := by
  refine .back (k' := if (c s.user).1 then .run b :: .again c inc b :: k else k) (s' := { s with user := (c s.user).2 }) rfl ?_
  cases hc : (c s.user).1
  · exact h2 hc
  · exact h1 hc

theorem Ends.cond {l : Nat} {c : Test σ} {k : List (Frame σ)} {s : St σ}
    (h : (c s.user).1 = true → ∀ s', s'.user = (c s.user).2 → Ends k s') : Ends (.run (Wait.expand l (.cond c)) :: k) s := by
  refine .back (s' := s) rfl (.back (s' := { s with task := s.task.setDelay 0 }) rfl (.back rfl (.back rfl (.back rfl (.back rfl ?_)))))
  refine .ite (fun _ => .back rfl (.nil _)) fun hc => .back rfl (h (by simpa using hc) _ rfl)

end Verif.Duff

namespace Verif.Client

open Duff

variable {D : Type}

/-- The loop at lines 60-69: each round reads something or waits. -/
theorem loop_finite (api : Api D) (h : ∀ d, api.bytesAvailable d ≠ 0 → api.bytesAvailable (api.read d 40).1 < api.bytesAvailable d) :
    Finite (Prog.expand (.loop (ask api.isConnected) id (.ite (ask fun d => api.bytesAvailable d != 0) (.act (readSome api))
      (.wait 4 (.cond (ask fun d => api.bytesAvailable d != 0 || !api.isConnected d)))))) := by
  intro k hk s
  generalize hn : api.bytesAvailable s.user.dev = n
  induction n using Nat.strongRecOn generalizing s with
  | ind n ih =>
    refine .loop (fun hc => .ite (fun ha => ?_) fun ha => .cond fun hw => ?_) fun _ => hk _
    · have ha : api.bytesAvailable s.user.dev ≠ 0 := by simpa [ask] using ha
      refine .back (s' := { s with user := readSome api s.user }) rfl (.back (s' := { s with user := readSome api s.user }) rfl ?_)
      exact ih _ (by rw [← hn]; exact h _ ha) _ rfl
    · simp only [ask] at ha hw hc
      rw [ha, hc] at hw
      cases hw

theorem text_finitely (api : Api D) (h : ∀ d, api.bytesAvailable d ≠ 0 → api.bytesAvailable (api.read d 40).1 < api.bytesAvailable d) :
    Finitely (text api) := by
  refine .seq (.label 0) (.seq ?_ (.setEntry 6))
  refine .seq (.act _) (.seq (.cond _ _) (.seq (.act _) (.seq (.act _) (.seq (.act _) (.seq (.act _) (.seq (.cond _ _) (.seq (.act _)
    (.seq (.cond _ _) (.seq (.loop (loop_finite api h) (.ite (.act _) (.cond _ _))) (.seq (.act _) (.seq (.cond _ _) (.act _))))))))))))

end Verif.Client
