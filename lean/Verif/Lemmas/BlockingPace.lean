import Verif.Lemmas.BlockingDriver

/-!
# The program examples/linux/blocking.cpp: when the driver is run
-/

namespace Verif.BlockingProgram

open Spec.BlockingProgram

variable {p : Platform}

/-- What the scheduler knows of the driver. -/
structure Paced (s : Prog) : Prop where
  tasks : ∃ t0 t1, s.tasks = [t0, t1] ∧ (s.world.runs = [] → t0.delay = 0) ∧
    ∀ l a d, s.world.runs = l ++ [(a, d)] → t0.lastRun = a ∧ t0.delay = d % 65536
  cur : s.cur ≤ 1
  waited : Waited s.world.runs

theorem Paced.same {s t : Prog} (h : Paced s) (ht : t.tasks = s.tasks) (hc : t.cur = s.cur) (hr : t.world.runs = s.world.runs) : Paced t := by
  refine ⟨?_, by rw [hc]; exact h.cur, by rw [hr]; exact h.waited⟩
  rw [ht, hr]
  exact h.tasks

theorem due_iff_over {runs : List (Nat × Nat)} {t0 : Task} (h0 : runs = [] → t0.delay = 0)
    (h : ∀ l a d, runs = l ++ [(a, d)] → t0.lastRun = a ∧ t0.delay = d % 65536) (tick : Nat) : Sched.due t0 tick = true ↔ Over runs tick := by
  unfold Sched.due sub32
  rw [Bool.or_eq_true, beq_iff_eq, decide_eq_true_iff]
  rcases List.eq_nil_or_concat runs with rfl | ⟨l, ⟨a, d⟩, rfl⟩
  · refine ⟨fun _ l a d e => ?_, fun _ => .inl (h0 rfl)⟩
    exact absurd (congrArg List.length e) (by simp)
  · rw [List.concat_eq_append] at *
    obtain ⟨rfl, e⟩ := h l a d rfl
    rw [e]
    refine ⟨fun x l' a' d' e' => ?_, fun x => x l _ d rfl⟩
    have := (List.append_inj' e' rfl).2
    obtain ⟨rfl, rfl⟩ := Prod.mk.inj (List.cons.inj this).1
    exact x

theorem waited_snoc {runs : List (Nat × Nat)} (h : Waited runs) {b d : Nat} (ho : Over runs b) : Waited (runs ++ [(b, d)]) := by
  intro l b' d' post e
  rcases List.eq_nil_or_concat post with rfl | ⟨q, y, rfl⟩
  · obtain ⟨rfl, e2⟩ := List.append_inj' e rfl
    obtain ⟨rfl, rfl⟩ := Prod.mk.inj (List.cons.inj e2).1
    exact ho
  · rw [List.concat_eq_append, ← List.cons_append, ← List.append_assoc] at e
    exact h _ _ _ _ (List.append_inj' e rfl).1

/-- A call of the scheduler. -/
theorem paced_yield {s : Prog} (h : Paced s) : Paced (yield p s) ∧ (yield p s).cur = 1 - s.cur ∧
    (s.cur = 0 → Over s.world.runs (s.world.clock s.world.c) → (yield p s).world.runs =
      s.world.runs ++ [(s.world.clock s.world.c, (yield p s).world.dev.delay)] ∧
      (yield p s).world.dev = Sim7x00.step p s.world.dev (.run (s.world.opens s.world.n))) ∧
    ((s.cur = 1 ∨ ¬ Over s.world.runs (s.world.clock s.world.c)) → (yield p s).world.runs = s.world.runs) := by
  obtain ⟨⟨t0, t1, ht, h0, hl⟩, hc, hw⟩ := h
  have hd := due_iff_over h0 hl (s.world.clock s.world.c)
  obtain ⟨tasks, cur, world, ub⟩ := s
  dsimp only at *
  subst ht
  have : cur = 0 ∨ cur = 1 := by omega
  rcases this with rfl | rfl
  · cases hdue : Sched.due t0 (world.clock world.c) with
    | true =>
      have ho := hd.1 hdue
      have e : yield p ⟨[t0, t1], 0, world, ub⟩ =
          ⟨[(t0.setLastRun (world.clock world.c)).setDelay (Sim7x00.step p world.dev (.run (world.opens world.n))).delay, t1], 1,
            { world with
              c := world.c + 1, dev := Sim7x00.step p world.dev (.run (world.opens world.n)), n := world.n + 1,
              runs := world.runs ++ [(world.clock world.c, (Sim7x00.step p world.dev (.run (world.opens world.n))).delay)] }, ub⟩ := by
        simp only [yield, upd, Sched.runTask, List.getElem?_cons_zero, hdue]
        rfl
      rw [e]
      refine ⟨⟨⟨_, _, rfl, fun x => ?_, fun l a d x => ?_⟩, Nat.le_refl 1, waited_snoc hw ho⟩, rfl, fun _ _ => ⟨rfl, rfl⟩, fun x => ?_⟩
      · exact absurd (congrArg List.length x) (by simp)
      · have := (List.append_inj' x rfl).2
        obtain ⟨rfl, rfl⟩ := Prod.mk.inj (List.cons.inj this).1
        exact ⟨rfl, rfl⟩
      · rcases x with x | x
        · cases x
        · exact absurd ho x
    | false =>
      have ho : ¬ Over world.runs (world.clock world.c) := fun x => by rw [hd.2 x] at hdue; cases hdue
      have e : yield p ⟨[t0, t1], 0, world, ub⟩ = ⟨[t0, t1], 1, { world with c := world.c + 1 }, ub⟩ := by
        simp only [yield, upd, Sched.runTask, List.getElem?_cons_zero, hdue]
        rfl
      rw [e]
      exact ⟨⟨⟨_, _, rfl, h0, hl⟩, Nat.le_refl 1, hw⟩, rfl, fun _ x => absurd x ho, fun _ => rfl⟩
  · have e : ∃ t1' w, yield p ⟨[t0, t1], 1, world, ub⟩ = ⟨[t0, t1'], 0, w, ub⟩ ∧ w.runs = world.runs := by
      cases hdue : Sched.due t1 (world.clock world.c) with
      | true =>
        refine ⟨t1.setLastRun (world.clock world.c), (bodies p 1 { world with c := world.c + 1 } []).1, ?_, rfl⟩
        simp only [yield, upd, Sched.runTask, List.getElem?_cons_succ, List.getElem?_cons_zero, hdue]
        rfl
      | false =>
        refine ⟨t1, { world with c := world.c + 1 }, ?_, rfl⟩
        simp only [yield, upd, Sched.runTask, List.getElem?_cons_succ, List.getElem?_cons_zero, hdue]
        rfl
    obtain ⟨t1', w, e, hr⟩ := e
    rw [e]
    refine ⟨⟨⟨_, _, rfl, ?_, ?_⟩, Nat.zero_le _, ?_⟩, rfl, fun x => absurd x (by decide), fun _ => hr⟩
    · rw [hr]; exact h0
    · rw [hr]; exact hl
    · rw [hr]; exact hw

theorem paced_start (dev : Sim7x00.D) (junk : Nat) (feed : Nat → Hw) (opens : Nat → Bool) (clock : Nat → Nat) :
    Paced (start p dev junk feed opens clock) := by
  refine ⟨⟨_, _, rfl, fun _ => rfl, fun l a d e => ?_⟩, Nat.zero_le _, fun l b d post e => ?_⟩
  · exact absurd (congrArg List.length e) (by simp [start, upd, Env.call, Sched.init])
  · exact absurd (congrArg List.length e) (by simp [start, upd, Env.call, Sched.init])

theorem paced_reached {s0 s : Prog} (h0 : Paced s0) (h : Reached p s0 s) : Paced s := by
  induction h with
  | start => exact h0
  | yield _ ih => exact (paced_yield ih).1
  | tick _ ih => exact ih.same rfl rfl rfl
  | call op x _ ih => exact ih.same rfl rfl rfl
  | print bs _ ih => exact ih.same rfl rfl rfl

/-! ## The states of the program are the reached ones -/

theorem reached_closed (s0 : Prog) : Blocking.Closed (bld p) (Reached p s0) where
  tick _ h := h.tick
  read _ n h := h.call (.read n) _
  space _ h := h
  write _ bs h := h.call (.write bs) _
  processed _ h := h
  yield _ h := h.yield

theorem reached_await {s0 : Prog} {cond : Sim7x00.D → Bool} {s' : Prog} : ∀ (fuel : Nat) (s : Prog), Reached p s0 s →
    await p cond fuel s = some s' → Reached p s0 s' := by
  intro fuel
  induction fuel with
  | zero => intro s _ h; cases h
  | succ fuel ih =>
    intro s hs h
    unfold await at h
    split at h
    · obtain rfl := Option.some.inj h
      exact hs
    · exact ih _ hs.yield h

theorem reached_readAll {s0 : Prog} {fuel : Nat} {s' : Prog} : ∀ (k : Nat) (s : Prog), Reached p s0 s → readAll p fuel k s = some s' →
    Reached p s0 s' := by
  intro k
  induction k with
  | zero => intro s _ h; cases h
  | succ k ih =>
    intro s hs h
    unfold readAll at h
    split at h
    · cases h
    · rename_i bs u hu
      have h1 : Reached p s0 (print u bs) := ((reached_closed s0).readCall hs hu).print bs
      split at h
      · obtain rfl := Option.some.inj h
        exact h1
      · exact ih _ h1 h

theorem reached_main {fuel : Nat} {dev : Sim7x00.D} {junk : Nat} {feed : Nat → Hw} {opens : Nat → Bool} {clock : Nat → Nat} {s : Prog}
    (h : main p fuel dev junk feed opens clock = some s) : Reached p (start p dev junk feed opens clock) s := by
  unfold main at h
  split at h
  · cases h
  · rename_i s1 hs1
    have h1 := reached_await _ _ .start hs1
    split at h
    · cases h
    · rename_i n s2 hs2
      have h2 := (reached_closed _).writeCall h1 hs2
      split at h
      · cases h
      · rename_i s3 hs3
        exact reached_await _ _ ((reached_readAll _ _ h2 hs3).call .disconnect .disconnect) h

end Verif.BlockingProgram
