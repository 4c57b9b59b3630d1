import Verif.Lemmas.TwoTasks

/-!
# Property C93: the scheduler example
-/

namespace Verif.Props.TwoTasks

open Verif.TwoTasks Spec.TwoTasks

/-- C93, with any clock: each task prints its messages in their order, and the first one goes on to step 3 only after the second has woken
it up. -/
theorem C93_order {body : Bodies Main} (hb : Bodied body) (junk : Nat) (ticks : List Nat) :
    let s := (Sched.runTasks body (main junk) ticks).1
    (∃ n, s.world.user.log.filter isOne = (List.range n).map script1) ∧ (∃ n, s.world.user.log.filter isTwo = (List.range n).map script2) ∧
    Woken s.world.user.log ∧ s.ub = false := by
  intro s
  have g := (Going.init junk).all hb ticks
  rw [List.nil_append] at g
  obtain ⟨t0, t1, n, m, -, -, -, r1, r2⟩ := g.state
  have e : ∀ mine : Msg → Bool, s.world.user.log.filter mine = (part mine (history body (main junk) ticks)).map (·.2) := by
    intro mine
    rw [show s.world.user.log = _ from g.log, List.filter_map]
    rfl
  exact ⟨⟨n, by rw [e]; exact r1.msgs⟩, ⟨m, by rw [e]; exact r2.msgs⟩, g.woken, g.ub⟩

/-- The times at which the messages appear: after each message of a task the pause is kept, also when the tick counter wraps around. The
history contains exactly the messages printed. -/
theorem C93_spaced {body : Bodies Main} (hb : Bodied body) (junk : Nat) (ticks : List Nat) :
    let h := history body (main junk) ticks
    Spaced (part isOne h) ∧ Spaced (part isTwo h) ∧ h.map (·.2) = (Sched.runTasks body (main junk) ticks).1.world.user.log ∧
      ∀ x ∈ h, x.1 ∈ ticks := by
  intro h
  have g := (Going.init junk).all hb ticks
  rw [List.nil_append] at g
  obtain ⟨t0, t1, n, m, -, -, -, r1, r2⟩ := g.state
  refine ⟨r1.spaced, r2.spaced, g.log.symm, ?_⟩
  have key : ∀ (ticks : List Nat) (s : Sched Main), ∀ x ∈ history body s ticks, x.1 ∈ ticks := by
    intro ticks
    induction ticks with
    | nil => intro s x hx; cases hx
    | cons t ts ih =>
      intro s x hx
      rcases List.mem_append.1 hx with hx | hx
      · obtain ⟨m, _, rfl⟩ := List.mem_map.1 hx
        exact List.mem_cons_self ..
      · exact List.mem_cons_of_mem _ (ih _ x hx)
  exact key ticks _

/-- The first task does not wait longer: when its turn comes after the pause, it prints the next message; only at step 2 it waits for the
wakeup. -/
theorem C93_prompt_one {body : Bodies Main} (hb : Bodied body) (junk : Nat) (ticks : List Nat) (tick : Nat) :
    let s := (Sched.runTasks body (main junk) ticks).1
    let h := history body (main junk) ticks
    s.cur = 0 → (∀ l x, part isOne h = l ++ [x] → sub32 tick x.1 ≥ pause x.2) →
    (s.world.user.log.filter isOne = [.one1, .one2] → .wake ∈ s.world.user.log) →
    ∃ m a, isOne m = true ∧ (Sched.runTask body s tick).1.world.user.log = s.world.user.log ++ m :: a := by
  intro s h hcur hp hw
  have g := (Going.init junk).all hb ticks
  rw [List.nil_append] at g
  have hlog : s.world.user.log.filter isOne = (part isOne h).map (·.2) := by
    rw [show s.world.user.log = _ from g.log, List.filter_map]; rfl
  obtain ⟨t0, t1, n, m, ht, p1, p2, r1, r2⟩ := g.state
  obtain ⟨a, e, _, h1, _⟩ := g.next hb tick
  obtain ⟨e', d', st⟩ := h1 t0 t1 ht hcur (r1.due hp)
  rw [e]
  have hs := step1_one st
  cases a with
  | cons x a =>
    have := hs x (List.mem_cons_self ..)
    exact ⟨x, a, by simpa [isTwo] using this, rfl⟩
  | nil =>
    exfalso
    generalize he : (Sched.runTasks body (main junk) ticks).1.world.e1 = e1 at st p1
    generalize hb' : (Sched.runTasks body (main junk) ticks).1.world.user.wakeup = b at st
    cases st
    obtain rfl : n = 2 := by unfold Place1 at p1; omega
    have := g.flag' (hw (hlog.trans r1.msgs))
    rw [hb'] at this
    cases this

/-- The second task. -/
theorem C93_prompt_two {body : Bodies Main} (hb : Bodied body) (junk : Nat) (ticks : List Nat) (tick : Nat) :
    let s := (Sched.runTasks body (main junk) ticks).1
    let h := history body (main junk) ticks
    s.cur = 1 → (∀ l x, part isTwo h = l ++ [x] → sub32 tick x.1 ≥ pause x.2) →
    ∃ m, isTwo m = true ∧ (Sched.runTask body s tick).1.world.user.log = s.world.user.log ++ [m] := by
  intro s h hcur hp
  have g := (Going.init junk).all hb ticks
  rw [List.nil_append] at g
  obtain ⟨t0, t1, n, m, ht, p1, p2, r1, r2⟩ := g.state
  obtain ⟨a, e, _, _, h2⟩ := g.next hb tick
  obtain ⟨x, rfl, hx⟩ := h2 t0 t1 ht hcur (r2.due hp)
  exact ⟨x, hx, e⟩

/-- The two functions exist: every call of `run()` returns. -/
theorem C93_bodies : ∃ body, Bodied body := ⟨run, run_bodied⟩

/-- The first ten seconds with a scheduler that runs each task every 500 ms, the tick counter wrapping around on the way. -/
def ticks : List Nat := (List.range 20).flatMap fun i => [(4294965000 + 500 * i) % 4294967296, (4294965000 + 500 * i) % 4294967296]

example : history run (main 0) ticks =
    [(4294965000, .one1), (4294965000, .two1), (4294967000, .one2), (704, .two2), (2704, .wake), (3204, .one3), (3204, .oneLoop), (4704, .oneLoop),
     (5704, .twoLoop), (6204, .oneLoop), (6704, .twoLoop)] := by decide +kernel

end Verif.Props.TwoTasks
