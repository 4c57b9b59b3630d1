import Verif.Lemmas.PaceSched
import Verif.Spec.Linux

/-!
# The history of a driver under a scheduler
-/

namespace Verif

open Spec

variable {S R X W : Type}

theorem set_delay {ts : List Task} {c : Nat} {t : Task} (h : ts[c]? = some t) (n i : Nat) :
    (ts.set c (t.setLastRun n))[i]?.map Task.delay = ts[i]?.map Task.delay := by
  by_cases e : c = i
  · subst e
    have hc : c < ts.length := (List.getElem?_eq_some_iff.mp h).1
    rw [List.getElem?_set_self hc, h]
    rfl
  · rw [List.getElem?_set_ne e]

/-- One call of `runTask()`. -/
theorem system_call (step : Dev S R X → Op → Dev S R X) {i j : Nat}
    {turn : Nat → Dev S R X × W → List Task → Turn W} (hL : Linux i j turn) {s : Sched (Dev S R X × W)}
    (h : Set i j s) (tick : Nat) :
    (Sched.runTask (system step i turn) s tick).1.world.1 = exec step s.world.1 (opsAt i turn s tick) ∧
    Set i j (Sched.runTask (system step i turn) s tick).1 ∧
    (Sched.runTask (system step i turn) s tick).1.tasks.length = s.tasks.length ∧
    (Sched.runTask (system step i turn) s tick).1.cur = (if s.cur + 1 ≥ s.tasks.length then 0 else s.cur + 1) := by
  have hc := h.cur
  obtain ⟨t, h1⟩ : ∃ t, s.tasks[s.cur]? = some t := ⟨_, List.getElem?_eq_getElem hc⟩
  have hnx : (if s.cur + 1 ≥ s.tasks.length then 0 else s.cur + 1) < s.tasks.length := by
    split <;> omega
  simp only [Sched.runTask, opsAt, h1]
  by_cases hd : Sched.due t tick = true
  · simp only [hd, if_true]
    have hl := hL.count s.cur s.world (s.tasks.set s.cur (t.setLastRun tick))
    have hj := hL.delay s.cur s.world (s.tasks.set s.cur (t.setLastRun tick))
    rw [List.length_set] at hl
    rw [set_delay h1, h.serial] at hj
    have hi : i < s.tasks.length := by
      have := h.driver
      cases hx : s.tasks[i]? with
      | none => rw [hx] at this; simp at this
      | some a => exact (List.getElem?_eq_some_iff.mp hx).1
    generalize s.tasks.set s.cur (t.setLastRun tick) = T at *
    refine ⟨?_, ⟨?_, ?_, ?_⟩, ?_, trivial⟩
    · unfold system
      dsimp only
      split <;> simp [exec]
    · simp only [system, List.length_modify, hl]
      exact hnx
    · show (List.modify _ _ _)[i]?.map Task.delay = _
      rw [getElem?_modify_delay, List.getElem?_eq_getElem (by rw [hl]; exact hi)]
      rfl
    · show (List.modify _ _ _)[j]?.map Task.delay = _
      rw [List.getElem?_modify_ne _ _ hL.apart]
      exact hj
    · simp only [system, List.length_modify, hl]
  · simp only [hd, Bool.false_eq_true, if_false]
    exact ⟨rfl, ⟨hnx, h.driver, h.serial⟩, trivial, trivial⟩

/-- The driver is where its history leads. -/
theorem system_history (step : Dev S R X → Op → Dev S R X) {i j : Nat}
    {turn : Nat → Dev S R X × W → List Task → Turn W} (hL : Linux i j turn) {s : Sched (Dev S R X × W)}
    (h : Set i j s) (tm : Nat → Nat) (k : Nat) :
    (stAt (system step i turn) s tm k).world.1 = exec step s.world.1 (history step i turn s tm k) ∧
    Set i j (stAt (system step i turn) s tm k) ∧
    (stAt (system step i turn) s tm k).tasks.length = s.tasks.length := by
  induction k with
  | zero => exact ⟨rfl, h, rfl⟩
  | succ k ih =>
    obtain ⟨e1, e2, e3⟩ := ih
    obtain ⟨f1, f2, f3, _⟩ := system_call step hL e2 (tm k % 4294967296)
    refine ⟨?_, f2, f3.trans e3⟩
    simp only [stAt]
    rw [f1, e1]
    simp [exec, history]

/-! ## At most one byte per run -/

def pending (n : Nat) : Op → Nat
  | .run _ => 0
  | .irq hs => n + (arriving hs).length
  | _ => n

theorem sinceRun_eq (a : List Op) : sinceRun a = a.foldl pending 0 := by
  have : (fun (n : Nat) (op : Op) => match op with
    | .run _ => 0
    | .irq hs => n + (arriving hs).length
    | _ => n) = pending := by
    funext n op
    cases op <;> rfl
  rw [← this]
  rfl

theorem sinceRun_append (a b : List Op) : sinceRun (a ++ b) = b.foldl pending (sinceRun a) := by
  simp [sinceRun_eq, List.foldl_append]

theorem sinceRun_quiet {a b : List Op} (h : ∀ op ∈ b, (∀ ok, op ≠ .run ok) ∧ ∀ hs, op ≠ .irq hs) :
    sinceRun (a ++ b) = sinceRun a := by
  rw [sinceRun_append]
  generalize sinceRun a = n
  induction b with
  | nil => rfl
  | cons op b ih =>
    have h1 := h op (List.mem_cons_self ..)
    rw [List.foldl_cons]
    have : pending n op = n := by
      cases op <;> first | rfl | exact absurd rfl (h1.1 _) | exact absurd rfl (h1.2 _)
    rw [this]
    exact ih fun op hop => h op (List.mem_cons_of_mem _ hop)

theorem arriving_one (h : Hw) : (arriving [h]).length ≤ 1 := by
  unfold arriving
  rw [List.filterMap_cons]
  split <;> simp

theorem polled_append {k : Nat} {a b : List Op} (ha : Polled k a) (hb : ∀ pre, pre <+: b → sinceRun (a ++ pre) ≤ k) :
    Polled k (a ++ b) := by
  intro pre hp
  rcases Nat.le_total pre.length a.length with h | h
  · exact ha pre (List.prefix_of_prefix_length_le hp (List.prefix_append a b) h)
  · obtain ⟨c, rfl⟩ := List.prefix_of_prefix_length_le (List.prefix_append a b) hp h
    exact hb c ((List.prefix_append_right_inj a).mp hp)

/-- Way around the circle of `n` tasks from `c` to `i`. -/
def way (n c i : Nat) : Nat := if c ≤ i then i - c else n + i - c

theorem way_next {n c i : Nat} (hc : c < n) (hi : i < n) (h : c ≠ i) :
    way n (if c + 1 ≥ n then 0 else c + 1) i + 1 = way n c i := by
  unfold way
  split <;> split <;> (try split) <;> omega

/-- If the driver is never asleep, at most one byte arrives between two calls of `run()`. -/
theorem system_polled (step : Dev S R X → Op → Dev S R X) {i j : Nat}
    {turn : Nat → Dev S R X × W → List Task → Turn W} (hL : Linux i j turn) {s : Sched (Dev S R X × W)}
    (h : Set i j s) (tm : Nat → Nat) (K : Nat)
    (haw : ∀ k, k < K → (stAt (system step i turn) s tm k).world.1.delay = 0) :
    Polled 1 (history step i turn s tm K) ∧ Steady (history step i turn s tm K) ∧
      (sinceRun (history step i turn s tm K) = 0 ∨
        way s.tasks.length (stAt (system step i turn) s tm K).cur i <
          way s.tasks.length (stAt (system step i turn) s tm K).cur j) := by
  induction K with
  | zero =>
    refine ⟨?_, ?_, .inl rfl⟩
    · intro pre hp
      rw [List.prefix_nil.mp hp]
      exact Nat.zero_le _
    · intro op hop
      cases hop
  | succ k ih =>
    obtain ⟨ip, is, iw⟩ := ih fun m hm => haw m (by omega)
    obtain ⟨_, e2, e3⟩ := system_history step hL h tm k
    obtain ⟨_, _, _, f4⟩ := system_call step hL e2 (tm k % 4294967296)
    have haw := haw k (by omega)
    simp only [history, stAt]
    rw [f4, e3]
    rw [← e3] at iw ⊢
    generalize history step i turn s tm k = H at *
    generalize stAt (system step i turn) s tm k = c at *
    have hlt := e2.cur
    obtain ⟨t, h1⟩ : ∃ t, c.tasks[c.cur]? = some t := ⟨_, List.getElem?_eq_getElem hlt⟩
    have hi : i < c.tasks.length := by
      have := e2.driver
      cases hx : c.tasks[i]? with
      | none => rw [hx] at this; simp at this
      | some a => exact (List.getElem?_eq_some_iff.mp hx).1
    have hj : j < c.tasks.length := by
      have := e2.serial
      cases hx : c.tasks[j]? with
      | none => rw [hx] at this; simp at this
      | some a => exact (List.getElem?_eq_some_iff.mp hx).1
    by_cases hcj : c.cur = j
    · -- the serial device
      have hs0 : sinceRun H = 0 := by
        rcases iw with h | h
        · exact h
        · rw [hcj] at h
          have : way c.tasks.length j j = 0 := by simp [way]
          omega
      have hdue : Sched.due t (tm k % 4294967296) = true := by
        have := e2.serial
        rw [← hcj, h1] at this
        simp only [Option.map_some, Option.some.injEq] at this
        simp [Sched.due, this]
      obtain ⟨hw, eh⟩ := hL.serial c.world (c.tasks.set c.cur (t.setLastRun (tm k % 4294967296)))
      have eo : opsAt i turn c (tm k % 4294967296) = [.irq [hw]] := by
        simp only [opsAt, h1, hdue, if_true]
        rw [if_neg (by rw [hcj]; exact fun e => hL.apart e.symm)]
        rw [show turn c.cur = turn j by rw [hcj], eh]
        rfl
      have hn : sinceRun (H ++ [.irq [hw]]) ≤ 1 := by
        rw [sinceRun_append, hs0]
        have := arriving_one hw
        simpa [pending] using this
      rw [eo]
      refine ⟨polled_append ip ?_, ?_, .inr ?_⟩
      · intro pre hp
        rcases pre with _ | ⟨a, pre⟩
        · rw [List.append_nil, hs0]; exact Nat.zero_le _
        · have hl := hp.length_le
          simp only [List.length_cons, List.length_nil] at hl
          have : pre = [] := List.length_eq_zero_iff.mp (by omega)
          subst this
          have := List.cons_prefix_cons.mp hp
          rw [this.1]
          exact hn
      · intro op hop
        rcases List.mem_append.mp hop with hop | hop
        · exact is op hop
        · rw [List.mem_singleton.mp hop]
          simp
      · have hne := hL.apart
        rw [hcj]
        unfold way
        split <;> split <;> split <;> omega
    · -- any other task
      have hq := hL.others c.cur c.world (c.tasks.set c.cur (t.setLastRun (tm k % 4294967296))) hcj
      by_cases hci : c.cur = i
      · have hdue : Sched.due t (tm k % 4294967296) = true := by
          have := e2.driver
          rw [← hci, h1, haw] at this
          simp only [Option.map_some, Option.some.injEq] at this
          have : t.delay = 0 := this
          simp [Sched.due, this]
        have eo : opsAt i turn c (tm k % 4294967296) = [.run true] := by
          simp only [opsAt, h1, hdue, if_true]
          rw [if_pos hci]
          have hd := hL.driver c.world (c.tasks.set c.cur (t.setLastRun (tm k % 4294967296)))
          rw [show turn c.cur = turn i by rw [hci], hd.1, hd.2]
          rfl
        rw [eo]
        refine ⟨polled_append ip ?_, ?_, .inl ?_⟩
        · intro pre hp
          rcases pre with _ | ⟨a, pre⟩
          · rw [List.append_nil]; exact ip H (List.prefix_refl _)
          · have hl := hp.length_le
            simp only [List.length_cons, List.length_nil] at hl
            have : pre = [] := List.length_eq_zero_iff.mp (by omega)
            subst this
            have := List.cons_prefix_cons.mp hp
            rw [this.1, sinceRun_append]
            simp [pending]
        · intro op hop
          rcases List.mem_append.mp hop with hop | hop
          · exact is op hop
          · rw [List.mem_singleton.mp hop]
            simp
        · rw [sinceRun_append]
          simp [pending]
      · have hall : ∀ op ∈ opsAt i turn c (tm k % 4294967296),
            op ≠ .closePort ∧ op ≠ .serialLock ∧ (∀ ok, op ≠ .run ok) ∧ ∀ hs, op ≠ .irq hs := by
          intro op hop
          simp only [opsAt, h1] at hop
          split at hop
          · rw [List.append_nil] at hop
            exact hq op hop
          · cases hop
        have hsr : sinceRun (H ++ opsAt i turn c (tm k % 4294967296)) = sinceRun H :=
          sinceRun_quiet fun op hop => (hall op hop).2.2
        refine ⟨polled_append ip ?_, ?_, ?_⟩
        · intro pre hp
          rw [sinceRun_quiet fun op hop => (hall op (hp.subset hop)).2.2]
          exact ip H (List.prefix_refl _)
        · intro op hop
          rcases List.mem_append.mp hop with hop | hop
          · exact is op hop
          · exact ⟨(hall op hop).1, (hall op hop).2.1, (hall op hop).2.2.1 _⟩
        · rw [hsr]
          rcases iw with h | h
          · exact .inl h
          · right
            have a1 := way_next hlt hi hci
            have a2 := way_next hlt hj hcj
            omega

end Verif
