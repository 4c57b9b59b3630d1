import Verif.Lemmas.Reenter

/-!
# Properties C20, C21, C22, C23: reentrant task macros
-/

namespace Verif.Props.Reenter

open Verif Verif.Spec Verif.Reenter

/-- The `__COUNTER__` values of a body are distinct and all fit the 8 bit `entrypoint`. -/
structure GoodLabels (lab : Nat → Nat) (body : List Stmt) : Prop where
  lt : ∀ p, p ≤ body.length + 1 → lab p < 256
  inj : ∀ p q, p ≤ body.length + 1 → q ≤ body.length + 1 → lab p = lab q → p = q

theorem calls_post (lab : Nat → Nat) (body : List Stmt) (d0 : Nat) (hl : GoodLabels lab body)
    (more : Runs) : ∀ (runs : Runs) (s : RTask), Post lab body runs d0 s → s.run = runs.length →
      Post lab body (runs ++ more) d0 (RTask.calls lab body s more) := by
  induction more with
  | nil => intro runs s h _; simpa [RTask.calls] using h
  | cons x more ih =>
    intro runs s h hr
    obtain ⟨h1, h2⟩ := call_post lab body runs x d0 hl.lt hl.inj s h hr
    have := ih (runs ++ [x]) _ h1 h2
    simpa [RTask.calls] using this

theorem first_call_post (lab : Nat → Nat) (body : List Stmt) (t : Task) (x : Nat × (Nat → Bool))
    (hl : GoodLabels lab body) (ht : t.timeoutRunning = false) (hd : t.delay < 65536) :
    Post lab body [x] t.delay (RTask.call lab body (RTask.init lab t) x) ∧
      (RTask.call lab body (RTask.init lab t) x).run = 1 := by
  have h0 : lab 0 % 256 = lab 0 := Nat.mod_eq_of_lt (hl.lt 0 (by omega))
  have hm : Mid body ([] ++ [x]) 0 t.delay
      { RTask.init lab t with task := t.setLastRun x.1 } := by
    refine ⟨?_, by simp [RTask.init], by simp [RTask.init, acts], rfl, rfl, ?_, ht, ?_⟩
    · intro p y hy; simp [RTask.init] at hy
    · simp [tickAt, Task.setLastRun]
    · simp only [RTask.init, List.length_nil, List.take_zero, lastDelay, Task.setLastRun]
      omega
  obtain ⟨h1, h2, _⟩ := exec_post lab body [] x t.delay hl.lt body 0 _ (by simp) rfl hm
  have he : RTask.call lab body (RTask.init lab t) x =
      { RTask.exec lab x.2 0 body { RTask.init lab t with task := t.setLastRun x.1 } with
        run := (RTask.exec lab x.2 0 body
          { RTask.init lab t with task := t.setLastRun x.1 }).run + 1 } := by
    simp [RTask.call, RTask.init, h0]
  rw [he]
  refine ⟨⟨h1.legal, h1.out, h1.entry, h1.le, h1.start, h1.prompt, h1.dl, h1.mac⟩, ?_⟩
  show _ + 1 = 1
  rw [h2]
  rfl

/-- **C20.** For every body, every history of `run()` calls with arbitrary condition values and ticks, if
the labels fit: statements are completed in order, each at most once, each in the first call in which it
may be passed (`Legal`, `Prompt`); the user actions performed are exactly those among the completed
statements; the delay left for the scheduler is the one requested last, modulo 65536. -/
theorem C20_coroutine (lab : Nat → Nat) (body : List Stmt) (t : Task) (runs : Runs)
    (hl : GoodLabels lab body) (ht : t.timeoutRunning = false) (hd : t.delay < 65536)
    (hne : runs ≠ []) :
    let s := RTask.calls lab body (RTask.init lab t) runs
    Legal body runs s.log ∧ Prompt body runs s.log ∧
      s.log.length ≤ body.length ∧ s.out = acts (body.take s.log.length) ∧
      s.task.delay = lastDelay t.delay (body.take (s.log.length + 1)) % 65536 := by
  cases runs with
  | nil => exact absurd rfl hne
  | cons x runs =>
    obtain ⟨h1, h2⟩ := first_call_post lab body t x hl ht hd
    have h := calls_post lab body t.delay hl runs [x] _ h1 (by rw [h2]; rfl)
    exact ⟨h.legal, h.prompt, h.le, h.out, h.dl⟩

/-- **C20**, as stated: the actions performed are a prefix of the straight-line sequence. -/
theorem C20_prefix (lab : Nat → Nat) (body : List Stmt) (t : Task) (runs : Runs)
    (hl : GoodLabels lab body) (ht : t.timeoutRunning = false) (hd : t.delay < 65536) :
    (RTask.calls lab body (RTask.init lab t) runs).out <+: acts body := by
  by_cases hne : runs = []
  · subst hne; simp [RTask.calls, RTask.init]
  · have h := (C20_coroutine lab body t runs hl ht hd hne).2.2.2.1
    rw [h]
    refine ⟨acts (body.drop (RTask.calls lab body (RTask.init lab t) runs).log.length), ?_⟩
    rw [← acts_append, List.take_append_drop]

theorem calls_append (lab : Nat → Nat) (body : List Stmt) (s : RTask) (a b : Runs) :
    RTask.calls lab body s (a ++ b) = RTask.calls lab body (RTask.calls lab body s a) b := by
  induction a generalizing s with
  | nil => rfl
  | cons x a ih => exact ih _

/-- **C20**, end: once all statements are complete, no later call performs an action. -/
theorem C20_end (lab : Nat → Nat) (body : List Stmt) (t : Task) (runs more : Runs)
    (hl : GoodLabels lab body) (ht : t.timeoutRunning = false) (hd : t.delay < 65536)
    (hne : runs ≠ [])
    (hend : (RTask.calls lab body (RTask.init lab t) runs).log.length = body.length) :
    (RTask.calls lab body (RTask.init lab t) (runs ++ more)).out = acts body ∧
      (RTask.calls lab body (RTask.init lab t) (runs ++ more)).log.length = body.length := by
  have hmono : ∀ (more : Runs) (s : RTask) (rs : Runs), Post lab body rs t.delay s →
      s.run = rs.length → s.log.length = body.length →
      (RTask.calls lab body s more).log.length = body.length := by
    intro more
    induction more with
    | nil => intro s rs _ _ h; exact h
    | cons x more ih =>
      intro s rs hp hr he
      obtain ⟨h1, h2⟩ := call_post lab body rs x t.delay hl.lt hl.inj s hp hr
      refine ih _ _ h1 h2 ?_
      have hne : ¬ s.entry = lab 0 := by
        rw [hp.entry]; intro h
        have := hl.inj _ _ (by have := hp.le; omega) (by omega) h
        omega
      have hs : RTask.search lab s.entry 0 body = none := by
        have := search_none lab (body.length + 1) hl.inj body 0 (by omega)
        rw [hp.entry, he]
        simpa using this
      simp only [RTask.call, beq_iff_eq, hne, if_false, hs]
      exact he
  have hlen : (RTask.calls lab body (RTask.init lab t) (runs ++ more)).log.length =
      body.length := by
    cases runs with
    | nil => exact absurd rfl hne
    | cons x runs =>
      obtain ⟨h1, h2⟩ := first_call_post lab body t x hl ht hd
      have hrun : ∀ (more : Runs) (rs : Runs) (s : RTask), Post lab body rs t.delay s →
          s.run = rs.length → (RTask.calls lab body s more).run = (rs ++ more).length := by
        intro more
        induction more with
        | nil => intro rs s _ h; simpa [RTask.calls] using h
        | cons y more ih =>
          intro rs s hp hr
          obtain ⟨h1, h2⟩ := call_post lab body rs y t.delay hl.lt hl.inj s hp hr
          have := ih (rs ++ [y]) _ h1 h2
          simpa [RTask.calls] using this
      rw [calls_append]
      exact hmono more _ _ (calls_post lab body t.delay hl runs [x] _ h1 (by rw [h2]; rfl))
        (hrun runs [x] _ h1 (by rw [h2]; rfl)) hend
  refine ⟨?_, hlen⟩
  have h := (C20_coroutine lab body t (runs ++ more) hl ht hd (by simp [hne])).2.2.2.1
  rw [h, hlen, List.take_length]

/-- Labels and body of a realistic task: it waits for a condition with timeout, then delays. -/
def labEx : Nat → Nat := fun p => 10 + p

def bodyEx : List Stmt := [.act 1, .condTimeout 100, .act 2, .delay 1000, .cond, .act 3]

theorem good_labEx : GoodLabels labEx bodyEx := by
  constructor
  · intro p hp; simp [bodyEx] at hp; simp [labEx]; omega
  · intro p q _ _ h; simpa [labEx] using h

/-- The wait times out in the third call, across a wrap of the counter. -/
example :
    let no : Nat → Bool := fun _ => false
    let yes : Nat → Bool := fun _ => true
    let s := RTask.calls labEx bodyEx (RTask.init labEx (Task.init 0 7))
      [(4294967200, no), (4, no), (5, no), (1005, no), (1006, yes)]
    s.out = [1, 2, 3] ∧ s.log = [(0, 0), (1, 2), (2, 2), (3, 3), (4, 4), (5, 4)] := by
  decide

/-- **C21**, in a task body: a wait with timeout `T` reached at tick `tickAt runs start` may be passed in
call `r` without its condition exactly if more than `T` ticks passed since, modulo 2^32. With true
times instead of ticks (gap below 2^32) this is the plain inequality. -/
theorem C21_wait (runs : Runs) (T p start r t0 t1 : Nat) (hT : T < 4294967296) (h01 : t0 ≤ t1)
    (hgap : t1 < t0 + 4294967296)
    (h0 : tickAt runs start = t0 % 4294967296) (h1 : tickAt runs r = t1 % 4294967296)
    (hc : condAt runs r p = false) :
    passable runs (.condTimeout T) p start r ↔ t0 + T < t1 := by
  simp only [passable, hc, h0, h1, Bool.false_eq_true, false_or]
  omega

example : tickAt [(4294967200, fun _ => false), (5, fun _ => false)] 0 = 4294967200 % 4294967296 ∧
    tickAt [(4294967200, fun _ => false), (5, fun _ => false)] 1 = 4294967301 % 4294967296 ∧
    condAt [(4294967200, fun _ => false), (5, fun _ => false)] 1 3 = false := by decide

/-! ### Labels that do not fit -/

theorem exec_acts (lab : Nat → Nat) (env : Nat → Bool) (l : List Nat) (rest : List Stmt) :
    ∀ (p : Nat) (s : RTask), ∃ log, RTask.exec lab env p (l.map Stmt.act ++ rest) s =
      RTask.exec lab env (p + l.length) rest { s with out := s.out ++ l, log := log } := by
  induction l with
  | nil => intro p s; exact ⟨s.log, by simp⟩
  | cons a l ih =>
    intro p s
    obtain ⟨log, h⟩ := ih (p + 1) ({ s with out := s.out ++ [a] }.note p)
    refine ⟨log, ?_⟩
    rw [List.map_cons, List.cons_append, RTask.exec, h, List.length_cons,
      show p + 1 + l.length = p + (l.length + 1) by omega]
    simp [RTask.note]

theorem search_no_match (lab : Nat → Nat) (e : Nat) (h : ∀ p, lab p ≠ e) (rest : List Stmt) :
    ∀ p, RTask.search lab e p rest = none := by
  induction rest with
  | nil => intro p; rfl
  | cons st rest ih =>
    intro p
    have := h (p + 1)
    simp only [RTask.search, beq_iff_eq, this, Bool.and_eq_true, and_false, if_false]
    exact ih (p + 1)

/-- **C20**, negative side: in a translation unit whose `__COUNTER__` has already reached 256, no action
of the body is ever performed. -/
theorem C20_labels_too_big (lab : Nat → Nat) (hlab : ∀ p, 256 ≤ lab p) (body : List Stmt) (t : Task)
    (runs : Runs) : (RTask.calls lab body (RTask.init lab t) runs).out = [] := by
  have key : ∀ (runs : Runs) (s : RTask), s.entry < 256 → s.out = [] →
      (RTask.calls lab body s runs).out = [] := by
    intro runs
    induction runs with
    | nil => intro s _ h; exact h
    | cons x runs ih =>
      intro s he ho
      have hne : ∀ p, lab p ≠ s.entry := fun p h => by have := hlab p; omega
      have h0 : ¬ s.entry = lab 0 := fun h => hne 0 h.symm
      have hc : RTask.call lab body s x =
          { s with task := s.task.setLastRun x.1, run := s.run + 1 } := by
        simp only [RTask.call, beq_iff_eq, h0, if_false, search_no_match lab s.entry hne body 0]
      refine ih _ ?_ ?_
      · rw [hc]; exact he
      · rw [hc]; exact ho
  exact key runs _ (Nat.mod_lt _ (by decide)) rfl

example : ∀ p, 256 ≤ (fun p => 300 + p) p := by intro p; simp; omega

/-- **C20**, negative side: if the label of a yield is that of the start plus 256, the part before it is
executed again in every call: the labels wrap round in the 8 bit entry point. -/
theorem C20_label_wrap_repeats (lab : Nat → Nat) (as bs : List Nat) (t : Task) (h0 : lab 0 < 256)
    (hw : lab (as.length + 1) = lab 0 + 256) (runs : Runs) :
    (RTask.calls lab (as.map .act ++ .yield :: bs.map .act) (RTask.init lab t) runs).out =
      (List.replicate runs.length as).flatten := by
  have key : ∀ (runs : Runs) (s : RTask), s.entry = lab 0 →
      (RTask.calls lab (as.map .act ++ .yield :: bs.map .act) s runs).out =
        s.out ++ (List.replicate runs.length as).flatten := by
    intro runs
    induction runs with
    | nil => intro s _; simp [RTask.calls]
    | cons x runs ih =>
      intro s he
      obtain ⟨log, hx⟩ := exec_acts lab x.2 as (.yield :: bs.map .act) 0
        { s with task := s.task.setLastRun x.1 }
      have hc : RTask.call lab (as.map .act ++ .yield :: bs.map .act) s x =
          { s with task := s.task.setLastRun x.1, run := s.run + 1, log := log,
                   out := s.out ++ as, entry := lab 0 } := by
        simp only [RTask.call, beq_iff_eq, he, if_true] at hx ⊢
        rw [hx]
        simp only [RTask.exec, RTask.setEntry, Nat.zero_add, hw]
        congr 1
        omega
      simp only [RTask.calls]
      rw [ih _ (by rw [hc]), hc]
      simp [List.replicate_succ]
  have := key runs (RTask.init lab t) (Nat.mod_eq_of_lt h0)
  simpa [RTask.init] using this

/-! ### Two objects of one class -/

/-- Both objects freshly constructed. -/
def pairInit (lab : Nat → Nat) (t u : Task) : RPair :=
  { a := RTask.init lab t, b := RTask.init lab u }

/-- Any number of further calls on either object. -/
def pairCalls (lab : Nat → Nat) (body : List Stmt) (s : RPair) :
    List (Bool × Nat × (Nat → Bool)) → RPair
  | [] => s
  | (f, x) :: r => pairCalls lab body (RPair.call lab body s f x) r

/-- **C23**, refuted. Take any body "actions `as`, yield, actions `bs`" with fitting labels. If the first
object runs once and then the second object runs, the second object performs `bs` without ever having
performed `as`, and from then on neither object performs anything, however often both are run: the
expected independence ("each object performs a prefix of `as ++ bs`") is violated whenever `bs` does not
start like `as`. -/
theorem C23_shared_entrypoint (lab : Nat → Nat) (as bs : List Nat) (t u : Task)
    (hl : GoodLabels lab (as.map .act ++ .yield :: bs.map .act)) (x y : Nat × (Nat → Bool))
    (more : List (Bool × Nat × (Nat → Bool))) :
    let body := as.map Stmt.act ++ Stmt.yield :: bs.map Stmt.act
    let s := pairCalls lab body (RPair.call lab body
      (RPair.call lab body (pairInit lab t u) true x) false y) more
    s.a.out = as ∧ s.b.out = bs := by
  intro body s
  have hlen : body.length = as.length + bs.length + 1 := by simp [body]; omega
  have h0 : lab 0 % 256 = lab 0 := Nat.mod_eq_of_lt (hl.lt 0 (by omega))
  have hy : lab (as.length + 1) % 256 = lab (as.length + 1) :=
    Nat.mod_eq_of_lt (hl.lt _ (by have : body.length = _ := hlen; show _ ≤ body.length + 1; omega))
  have hend : lab (body.length + 1) % 256 = lab (body.length + 1) :=
    Nat.mod_eq_of_lt (hl.lt _ (Nat.le_refl _))
  -- first object
  obtain ⟨log, hx⟩ := exec_acts lab x.2 as (.yield :: bs.map .act) 0
    { RTask.init lab t with task := t.setLastRun x.1 }
  have ha : (RTask.call lab body (RTask.init lab t) x).entry = lab (as.length + 1) ∧
      (RTask.call lab body (RTask.init lab t) x).out = as := by
    have he : RTask.call lab body (RTask.init lab t) x =
        { RTask.exec lab x.2 0 body { RTask.init lab t with task := t.setLastRun x.1 } with
          run := (RTask.exec lab x.2 0 body
            { RTask.init lab t with task := t.setLastRun x.1 }).run + 1 } := by
      simp [RTask.call, RTask.init, h0]
    have hx' : RTask.exec lab x.2 0 body { RTask.init lab t with task := t.setLastRun x.1 } = _ := hx
    rw [he, hx']
    simp [RTask.exec, RTask.setEntry, hy, RTask.init]
  -- second object
  have hsearch : RTask.search lab (lab (as.length + 1)) 0 body =
      some (as.length, .yield, bs.map .act) := by
    have := search_some lab (body.length + 1) hl.inj as.length .yield body 0 (by omega)
      (by simp [body]) rfl
    simp only [Nat.zero_add] at this
    rw [this]
    have hb : body = as.map Stmt.act ++ [Stmt.yield] ++ bs.map Stmt.act := by simp [body]
    rw [hb, List.drop_left' (by simp)]
  have hne : ¬ lab (as.length + 1) = lab 0 := by
    intro h
    have := hl.inj _ _ (by show _ ≤ body.length + 1; omega) (by omega) h
    omega
  have hb : (RTask.call lab body { RTask.init lab u with entry := lab (as.length + 1) } y).entry =
        lab (body.length + 1) ∧
      (RTask.call lab body { RTask.init lab u with entry := lab (as.length + 1) } y).out = bs := by
    obtain ⟨log, hz⟩ := exec_acts lab y.2 bs [] (as.length + 1)
      (({ RTask.init lab u with entry := lab (as.length + 1), task := u.setLastRun y.1 } :
        RTask).note as.length)
    rw [List.append_nil] at hz
    simp only [RTask.init] at hz
    simp only [RTask.call, RTask.init, beq_iff_eq, hne, if_false, hsearch, RTask.enter, hz]
    simp only [RTask.exec, RTask.setEntry]
    refine ⟨?_, by simp [RTask.note]⟩
    rw [show as.length + 1 + bs.length + 1 = body.length + 1 by omega, hend]
  -- afterwards
  have key : ∀ (more : List (Bool × Nat × (Nat → Bool))) (q : RPair),
      q.a.entry = lab (body.length + 1) → q.b.entry = lab (body.length + 1) →
      (pairCalls lab body q more).a.out = q.a.out ∧ (pairCalls lab body q more).b.out = q.b.out := by
    have hcall : ∀ (z : RTask) (v : Nat × (Nat → Bool)), z.entry = lab (body.length + 1) →
        (RTask.call lab body z v).out = z.out ∧
          (RTask.call lab body z v).entry = lab (body.length + 1) := by
      intro z v hz
      have h1 : ¬ z.entry = lab 0 := by
        rw [hz]; intro h
        have := hl.inj _ _ (Nat.le_refl _) (by omega) h
        omega
      have h2 : RTask.search lab z.entry 0 body = none := by
        rw [hz]
        have := search_none lab (body.length + 1) hl.inj body 0 (by omega)
        simpa using this
      simp only [RTask.call, beq_iff_eq, h1, if_false, h2, true_and]
      exact hz
    intro more
    induction more with
    | nil => intro q _ _; exact ⟨rfl, rfl⟩
    | cons v more ih =>
      obtain ⟨f, v⟩ := v
      intro q h1 h2
      simp only [pairCalls]
      cases f with
      | true =>
        obtain ⟨c1, c2⟩ := hcall q.a v h1
        have := ih (RPair.call lab body q true v) (by simp [RPair.call, c2])
          (by simp [RPair.call, c2])
        rw [this.1, this.2]
        simp [RPair.call, c1]
      | false =>
        obtain ⟨c1, c2⟩ := hcall q.b v h2
        have := ih (RPair.call lab body q false v) (by simp [RPair.call, c2])
          (by simp [RPair.call, c2])
        rw [this.1, this.2]
        simp [RPair.call, c1]
  have hq : RPair.call lab body (RPair.call lab body (pairInit lab t u) true x) false y =
      { a := { RTask.call lab body (RTask.init lab t) x with entry := lab (body.length + 1) },
        b := RTask.call lab body { RTask.init lab u with entry := lab (as.length + 1) } y } := by
    simp only [RPair.call, pairInit, if_true, Bool.false_eq_true, if_false, ha.1, hb.1]
  have hk := key more (RPair.call lab body (RPair.call lab body (pairInit lab t u) true x) false y)
    (by rw [hq]) (by rw [hq]; exact hb.1)
  refine ⟨hk.1.trans ?_, hk.2.trans ?_⟩
  · rw [hq]; exact ha.2
  · rw [hq]; exact hb.2

/-- The hypotheses are met, and independence fails: the second object performs action 2 first. -/
example : GoodLabels (fun p => p) ([1].map Stmt.act ++ Stmt.yield :: [2].map Stmt.act) ∧
    ¬ [2] <+: acts ([1].map Stmt.act ++ Stmt.yield :: [2].map Stmt.act) := by
  refine ⟨⟨?_, ?_⟩, by decide⟩
  · intro p hp; simp at hp; omega
  · intro p q _ _ h; exact h

end Verif.Props.Reenter
