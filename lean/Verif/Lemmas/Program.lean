import Verif.Lemmas.Detector
import Verif.Spec.Program

/-!
# The program examples/linux/ipcommdevice.cpp: the tasks under the scheduler
-/

namespace Verif.Duff

variable {σ : Type}

/-- The text sets no delay but 0. -/
def Prompt : Raw σ → Prop
  | .setDelay d => ∀ u, d u = 0
  | .seq a b | .ite _ a b => Prompt a ∧ Prompt b
  | .loop _ _ b => Prompt b
  | _ => True

def Frame.Prompt : Frame σ → Prop
  | .run r => Duff.Prompt r
  | .again _ _ b => Duff.Prompt b

theorem leave_sub (k : List (Frame σ)) : ∀ f ∈ leave k, f ∈ k := by
  induction k with
  | nil => exact fun _ h => h
  | cons a k ih =>
    cases a
    · exact fun f h => List.mem_cons_of_mem _ (ih f h)
    · exact fun f h => List.mem_cons_of_mem _ h

theorem skipTo_sub (k : List (Frame σ)) : ∀ f ∈ skipTo k, f ∈ k := by
  induction k with
  | nil => exact fun _ h => h
  | cons a k ih =>
    cases a
    · exact fun f h => List.mem_cons_of_mem _ (ih f h)
    · exact fun f h => h

theorem step_prompt {k : List (Frame σ)} {s : St σ} (hk : ∀ f ∈ k, f.Prompt) (hs : s.task.delay = 0) :
    (∀ f ∈ (step (k, s)).1, f.Prompt) ∧ (step (k, s)).2.task.delay = 0 := by
  cases k with
  | nil => exact ⟨hk, hs⟩
  | cons a k =>
    have ha := hk a (List.mem_cons_self ..)
    have hk' : ∀ f ∈ k, f.Prompt := fun f hf => hk f (List.mem_cons_of_mem _ hf)
    have put : ∀ {g : Frame σ} {l : List (Frame σ)}, g.Prompt → (∀ f ∈ l, f.Prompt) → ∀ f ∈ g :: l, f.Prompt := by
      intro g l h1 h2 f hf
      rcases List.mem_cons.mp hf with rfl | hf
      · exact h1
      · exact h2 f hf
    cases a with
    | again c inc b => exact ⟨put (show Prompt b from ha) hk', hs⟩
    | run r =>
      have ha : Prompt r := ha
      cases r with
      | setDelay d =>
        refine ⟨hk', ?_⟩
        show (d s.user) % 65536 = 0
        rw [ha s.user]
      | seq a b => exact ⟨put (show Prompt a from ha.1) (put (show Prompt b from ha.2) hk'), hs⟩
      | ite c a b =>
        refine ⟨?_, hs⟩
        show ∀ f ∈ Frame.run (if (c s.task s.user).1 then a else b) :: k, f.Prompt
        split
        · exact put (show Prompt a from ha.1) hk'
        · exact put (show Prompt b from ha.2) hk'
      | loop c inc b =>
        refine ⟨?_, hs⟩
        show ∀ f ∈ (if (c s.user).1 then Frame.run b :: .again c inc b :: k else k), f.Prompt
        split
        · exact put (show Prompt b from ha) (put (show Prompt b from ha) hk')
        · exact hk'
      | ret => exact ⟨fun f hf => (by cases hf), hs⟩
      | startTimeout =>
        refine ⟨hk', ?_⟩
        show (s.task.startTimeout).delay = 0
        unfold Task.startTimeout
        split <;> exact hs
      | brk => exact ⟨fun f hf => hk' f (leave_sub k f hf), hs⟩
      | cont => exact ⟨fun f hf => hk' f (skipTo_sub k f hf), hs⟩
      | _ => exact ⟨hk', hs⟩

theorem steps_prompt (n : Nat) {k : List (Frame σ)} {s : St σ} (hk : ∀ f ∈ k, f.Prompt) (hs : s.task.delay = 0) :
    (steps n (k, s)).2.task.delay = 0 := by
  induction n generalizing k s with
  | zero => exact hs
  | succ n ih =>
    obtain ⟨h1, h2⟩ := step_prompt hk hs
    exact ih h1 h2

theorem find_prompt {r : Raw σ} (hr : Prompt r) {l : Nat} {k k' : List (Frame σ)} (hk : ∀ f ∈ k, f.Prompt) (e : find l r k = some k') :
    ∀ f ∈ k', f.Prompt := by
  induction r generalizing k with
  | label m =>
    simp only [find] at e
    split at e
    · cases e; exact hk
    · cases e
  | seq a b iha ihb =>
    simp only [find, Option.or_eq_some_iff] at e
    rcases e with e | ⟨_, e⟩
    · refine iha hr.1 (fun f hf => ?_) e
      rcases List.mem_cons.mp hf with rfl | hf
      · exact hr.2
      · exact hk f hf
    · exact ihb hr.2 hk e
  | ite c a b iha ihb =>
    simp only [find, Option.or_eq_some_iff] at e
    rcases e with e | ⟨_, e⟩
    · exact iha hr.1 hk e
    · exact ihb hr.2 hk e
  | loop c inc b ih =>
    simp only [find] at e
    refine ih hr (fun f hf => ?_) e
    rcases List.mem_cons.mp hf with rfl | hf
    · exact hr
    · exact hk f hf
  | _ => cases e

theorem Call.prompt {r : Raw σ} (hr : Prompt r) {t : Nat} {s s' : St σ} (h : Call r t s s') (hs : s.task.delay = 0) : s'.task.delay = 0 := by
  obtain ⟨n, h⟩ := h
  have := steps_prompt n (k := (find s.entry r []).getD []) (s := { s with task := s.task.setLastRun t }) ?_ hs
  · rw [h] at this; exact this
  · cases e : find s.entry r [] with
    | none => exact fun f hf => by cases hf
    | some k => exact find_prompt hr (fun f hf => by cases hf) e

theorem Calls.snoc {r : Raw σ} {xs : List (Nat × (σ → σ))} {s s1 s2 : St σ} {t : Nat} {g : σ → σ} (h : Calls r xs s s1)
    (h2 : Call r t { s1 with user := g s1.user } s2) : Calls r (xs ++ [(t, g)]) s s2 := by
  induction h with
  | nil => exact .cons h2 .nil
  | cons h1 _ ih => exact .cons h1 (ih h2)

end Verif.Duff

namespace Verif.Program

open ModemDetect Client Spec.Client Spec.Program

variable {p : Platform} {b : Mems}

theorem text_prompt (api : Verif.Client.Api MD) : Duff.Prompt (text api) := by
  simp [text, Duff.whole, body, Duff.Prog.expand, Duff.Wait.expand, Duff.Prompt, Duff.Raw.unless, Duff.Raw.skip]

/-- Between two turns of the task: `k` runs at most. -/
def Between (p : Platform) (k : Nat) (u v : World MD) : Prop :=
  Others u v ∧ ∃ ops, ops.countP isRunD ≤ k ∧ (∀ op ∈ ops, Tame op) ∧ v.dev = execD p u.dev ops

/-- What holds at all times. -/
structure Steady (w : World MD) : Prop where
  sound : Sound w.dev
  inside : w.oob = false
  reads : ∀ bs, .read bs ∈ w.log → bs ≠ [] ∧ bs.length ≤ 40
  pointer : .getDetectedModem ∈ w.log → w.dev.modem ≠ none

theorem Steady.call {w : World MD} (h : Steady w) {c : Call} {f : MD → MD} (hc : ∀ bs, c ≠ .read bs) (hg : c ≠ .getDetectedModem)
    (hs : Sound (f w.dev)) (hm : w.dev.modem ≠ none → (f w.dev).modem ≠ none) : Steady (Client.call c f w) := by
  refine ⟨hs, h.inside, fun bs hb => ?_, fun hb => ?_⟩
  · simp only [Client.call, List.mem_append, List.mem_singleton] at hb
    rcases hb with hb | hb
    · exact h.reads bs hb
    · exact absurd hb.symm (hc bs)
  · simp only [Client.call, List.mem_append, List.mem_singleton] at hb
    rcases hb with hb | hb
    · exact hm (h.pointer hb)
    · exact absurd hb.symm hg

theorem bytes_length (n : Nat) (d : Driver) : (bytes n d).length = min n (avail d) := by
  cases d <;> exact Ring.length_pullN n _

theorem avail_read (d : Driver) (n : Nat) : avail (d.app p (.read n)) = avail d - n := by
  cases d <;> exact Ring.avail_pullN n _

theorem tame_app (op : Op) : Tame (.app op) := fun _ h => by cases h
theorem tame_run (ok : Bool) : Tame (.run ok) := fun _ h => by cases h
theorem tame_irq (hs : List Hw) : Tame (.irq hs) := fun _ h => by cases h
theorem tame_start : Tame .start := fun _ h => by cases h

theorem side (hl : b.line.length = lineMax + 1) :
    Side (api p b) (Between p 1) Steady (fun w => left w.dev ≠ 0 → up w.dev = true) (fun w => left w.dev ≠ 0 → up w.dev = true)
      True (fun n => n = 0) where
  others _ _ r := ⟨r.1.1, r.1.2.1⟩
  keep u v h r := by
    obtain ⟨ops, _, ht, e⟩ := r.2
    refine ⟨by rw [e]; exact h.sound.execD ht, r.1.2.2.trans h.inside, by rw [r.1.1]; exact h.reads, fun hg => ?_⟩
    rw [r.1.1] at hg
    rw [e]
    exact some_execD (h.pointer hg) ops
  start w h := h.call (by intro bs; simp) (by simp) (h.sound.step tame_start) fun q => some_step q _
  get w h hd := by
    have hs := get_some (p := p) hd b
    refine ⟨h.sound.get (p := p) hl, h.inside, fun bs hb => ?_, fun _ => hs⟩
    simp only [Client.call, List.mem_append, List.mem_singleton] at hb
    rcases hb with hb | hb
    · exact h.reads bs hb
    · cases hb
  conf w h := by
    refine h.call (by intro bs; simp) (by simp) (h.sound.execD fun op ho => ?_) fun q => some_execD q _
    obtain ⟨o, _, rfl⟩ := List.mem_map.mp ho
    exact tame_app o
  host w h := h.call (by intro bs; simp) (by simp) (h.sound.step (tame_app _)) fun q => some_step q _
  conn w h := h.call (by intro bs; simp) (by simp) (h.sound.step (tame_app _)) fun q => some_step q _
  write w h hc := by
    refine ⟨h.call (by intro bs; simp) (by simp) (h.sound.step (tame_app _)) fun q => some_step q _, fun hq => ?_⟩
    exact ((quiet_step (tame_app (.write request)) rfl hq).2).trans hc
  wait u v h _ h0 r hq := by
    obtain ⟨ops, h1, ht, e⟩ := r.2
    rw [e] at hq ⊢
    exact once_execD h.sound ht h1 h0 hq
  enter _ _ h _ := h
  entered _ _ := trivial
  read w h _ hc ha := by
    have e : ((api p b).read w.dev 40).2.length = min 40 (left w.dev) := by
      cases hm : w.dev.modem with
      | none => simp [api, left, hm]
      | some d => simp only [api, left, hm, Option.elim]; exact bytes_length 40 d
    refine ⟨⟨h.sound.step (tame_app _), ?_, fun bs hb => ?_, fun hg => ?_⟩, fun hq => ?_⟩
    · simp only [readSome, h.inside, Bool.false_or, decide_eq_false_iff_not]
      rw [e]; omega
    · simp only [readSome, List.mem_append, List.mem_singleton, Call.read.injEq] at hb
      rcases hb with hb | hb
      · exact h.reads bs hb
      · subst hb
        refine ⟨fun q => ?_, by rw [e]; omega⟩
        rw [q] at e
        have : left w.dev ≠ 0 := ha
        simp only [List.length_nil] at e
        omega
    · simp only [readSome, List.mem_append, List.mem_singleton, reduceCtorEq, or_false] at hg
      exact some_step (h.pointer hg) _
    · exact ((quiet_step (tame_app (.read 40)) rfl hq).2).trans hc
  rest u v h _ _ h0 r hq := by
    obtain ⟨ops, h1, ht, e⟩ := r.2
    rw [e] at hq ⊢
    exact once_execD h.sound ht h1 h0 hq
  leave w _ hl hc := by
    refine Classical.byContradiction fun hq => ?_
    have := hl hq
    have hc : up w.dev = false := hc
    rw [hc] at this
    cases this
  disc w n h := h.call (by intro bs; simp) (by simp) (h.sound.step (tame_app _)) fun q => some_step q _
  done w h := h.call (by intro bs; simp) (by simp) h.sound fun q => q

/-- Every call of the task returns. -/
theorem returns (t : Nat) (s : Duff.St (World MD)) : ∃ s', Duff.Call (text (api p b)) t s s' := by
  refine (text_finitely (api p b) fun m h => ?_).call t s
  obtain ⟨ser, isOpen, det, started, modem, delay, ub, trace⟩ := m
  cases modem with
  | none => exact absurd rfl h
  | some d =>
    have h : avail d ≠ 0 := h
    show avail (d.app p (.read 40)) < avail d
    rw [avail_read]
    omega

/-- The state of the whole program between two calls of `runTask()`. -/
structure Going (p : Platform) (b : Mems) (m : MD) (t : Task) (s : Sched Main) : Prop where
  cur : s.cur ≤ 2
  ub : s.ub = false
  state : ∃ t0 t1 t2 xs st, s.tasks = [t0, t1, t2] ∧ t0.delay = 0 ∧ (∀ x ∈ xs, ∀ w, Between p 1 w (x.2 w)) ∧
    Duff.Calls (text (api p b)) xs (Duff.init 0 t (start m)) st ∧ st.task = t0 ∧ st.entry = s.world.entry ∧
    Between p (if s.cur = 1 then 0 else 1) st.user s.world.user

/-- A change of the world as a function. -/
noncomputable def jump {σ : Type} (u v : σ) : σ → σ := fun w => open Classical in if w = u then v else w

theorem jump_at {σ : Type} (u v : σ) : jump u v u = v := by simp [jump]

theorem Between.refl (k : Nat) (u : World MD) : Between p k u u := ⟨⟨rfl, rfl, rfl⟩, [], by simp, by simp, rfl⟩

theorem Between.jump {u v : World MD} (h : Between p 1 u v) (w : World MD) : Between p 1 w (jump u v w) := by
  unfold Program.jump
  split
  · rename_i e; rw [e]; exact h
  · exact .refl 1 w

theorem Between.more {k j : Nat} {u v : World MD} (h : Between p k u v) {op : DOp} (ht : Tame op) (hj : k + (if isRunD op then 1 else 0) ≤ j) :
    Between p j u { v with dev := step p v.dev op } := by
  obtain ⟨⟨h1, h2, h3⟩, ops, h4, h5, h6⟩ := h
  refine ⟨⟨h1, h2, h3⟩, ops ++ [op], ?_, ?_, ?_⟩
  · rw [List.countP_append, List.countP_cons, List.countP_nil]; omega
  · intro o ho
    rcases List.mem_append.mp ho with ho | ho
    · exact h5 o ho
    · rw [List.mem_singleton.mp ho]; exact ht
  · simp only [execD_append, ← h6]; rfl

theorem Between.weaken {k j : Nat} {u v : World MD} (h : Between p k u v) (hj : k ≤ j) : Between p j u v := by
  obtain ⟨h1, ops, h2, h3⟩ := h
  exact ⟨h1, ops, by omega, h3⟩

theorem Going.next {body : Bodies Main} (hb : Bodied p b body) {m : MD} {t : Task} {s : Sched Main} (h : Going p b m t s) (tick : Nat) :
    Going p b m t (Sched.runTask body s tick).1 := by
  obtain ⟨tasks, cur, world, ub⟩ := s
  obtain ⟨hc, hu, t0, t1, t2, xs, st, ht, hd, hx, hcalls, e1, e2, hbt⟩ := h
  simp only at ht hc hu e2 hbt
  subst ht hu
  match cur, hc with
  | 0, _ =>
    obtain ⟨s', h1, h2⟩ := hb.task world (t0.setLastRun tick) [t1, t2]
    have hdue : Sched.due t0 tick = true := by simp [Sched.due, hd]
    have e : Sched.runTask body ⟨[t0, t1, t2], 0, world, false⟩ tick =
        (⟨[s'.task, t1, t2], 1, { world with entry := s'.entry, user := s'.user }, false⟩,
          some { idx := 0, tick := tick, delay := t0.delay, last := t0.lastRun, ran := true }) := by
      simp only [Sched.runTask, List.getElem?_cons_zero, hdue, if_true, List.set_cons_zero, h2]
      rfl
    rw [e]
    refine ⟨by show 1 ≤ 2; omega, rfl, s'.task, t1, t2, xs ++ [(tick, jump st.user world.user)], s', rfl, ?_, ?_, ?_, rfl, rfl, .refl 0 _⟩
    · exact h1.prompt (text_prompt _) hd
    · intro x hx'
      rcases List.mem_append.mp hx' with q | q
      · exact hx x q
      · rw [List.mem_singleton.mp q]; exact fun w => hbt.jump w
    · refine hcalls.snoc ?_
      rw [jump_at]
      obtain ⟨n, h1⟩ := h1
      refine ⟨n, ?_⟩
      obtain ⟨tk, en, us⟩ := st
      simp only at e1 e2
      subst e1 e2
      exact h1
  | 1, _ =>
    simp only [if_true] at hbt
    by_cases hdue : Sched.due t1 tick = true
    · have e : Sched.runTask body ⟨[t0, t1, t2], 1, world, false⟩ tick = 
          (⟨[t0, (t1.setLastRun tick).setDelay (step p world.user.dev (.run (world.opens world.n))).delay, t2], 2,
            { world with user := { world.user with dev := step p world.user.dev (.run (world.opens world.n)) }, n := world.n + 1 }, false⟩,
          some { idx := 1, tick := tick, delay := t1.delay, last := t1.lastRun, ran := true }) := by
        simp only [Sched.runTask, List.getElem?_cons_succ, List.getElem?_cons_zero, hdue, if_true, List.set_cons_succ, List.set_cons_zero,
          hb.detector]
        rfl
      rw [e]
      exact ⟨by show 2 ≤ 2; omega, rfl, t0, _, t2, xs, st, rfl, hd, hx, hcalls, e1, e2, hbt.more (tame_run _) (by simp [isRunD])⟩
    · simp only [Bool.not_eq_true] at hdue
      have e : Sched.runTask body ⟨[t0, t1, t2], 1, world, false⟩ tick = (⟨[t0, t1, t2], 2, world, false⟩,
          some { idx := 1, tick := tick, delay := t1.delay, last := t1.lastRun, ran := false }) := by
        simp only [Sched.runTask, List.getElem?_cons_succ, List.getElem?_cons_zero, hdue]
        rfl
      rw [e]
      exact ⟨by show 2 ≤ 2; omega, rfl, t0, t1, t2, xs, st, rfl, hd, hx, hcalls, e1, e2, hbt.weaken (by simp)⟩
  | 2, _ =>
    have hbt : Between p 1 st.user world.user := hbt
    by_cases hdue : Sched.due t2 tick = true
    · have e : Sched.runTask body ⟨[t0, t1, t2], 2, world, false⟩ tick = 
          (⟨[t0, t1, t2.setLastRun tick], 0,
            { world with user := { world.user with dev := step p world.user.dev (.irq [world.feed world.n]) }, n := world.n + 1 }, false⟩,
          some { idx := 2, tick := tick, delay := t2.delay, last := t2.lastRun, ran := true }) := by
        simp only [Sched.runTask, List.getElem?_cons_succ, List.getElem?_cons_zero, hdue, if_true, List.set_cons_succ, List.set_cons_zero,
          hb.serial]
        rfl
      rw [e]
      exact ⟨by show 0 ≤ 2; omega, rfl, t0, t1, _, xs, st, rfl, hd, hx, hcalls, e1, e2, hbt.more (tame_irq _) (by simp [isRunD])⟩
    · simp only [Bool.not_eq_true] at hdue
      have e : Sched.runTask body ⟨[t0, t1, t2], 2, world, false⟩ tick = (⟨[t0, t1, t2], 0, world, false⟩,
          some { idx := 2, tick := tick, delay := t2.delay, last := t2.lastRun, ran := false }) := by
        simp only [Sched.runTask, List.getElem?_cons_succ, List.getElem?_cons_zero, hdue]
        rfl
      rw [e]
      exact ⟨by show 0 ≤ 2; omega, rfl, t0, t1, t2, xs, st, rfl, hd, hx, hcalls, e1, e2, hbt⟩

theorem Going.all {body : Bodies Main} (hb : Bodied p b body) {m : MD} {t : Task} {s : Sched Main} (h : Going p b m t s) (ticks : List Nat) :
    Going p b m t (Sched.runTasks body s ticks).1 := by
  induction ticks generalizing s with
  | nil => exact h
  | cons tick ticks ih => exact ih (h.next hb tick)

theorem Going.proper (hl : b.line.length = lineMax + 1) {m : MD} {t : Task} {s : Sched Main} (h : Going p b m t s) (hm : Sound m)
    (ht : t.timeoutRunning = false) : Proper s.world.user := by
  obtain ⟨_, _, t0, t1, t2, xs, st, _, _, hx, hcalls, _, _, hbt⟩ := h
  have hr := client_rests (side hl) ht hx ⟨hm, rfl, fun bs hb => (by cases hb), fun hb => (by cases hb)⟩ hcalls
  have hbt : Between p 1 st.user s.world.user := hbt.weaken (by split <;> omega)
  have hk := (side hl).keep _ _ hr.2.2 hbt
  obtain ⟨⟨o1, o2, _⟩, _⟩ := hbt
  exact ⟨by rw [o1]; exact hr.1.orderly, by rw [o1, o2]; exact hr.2.1, hk.inside, hk.reads,
    fun c n hc => by rw [o1] at hc; exact (hr.1.disconnect hc).2, hk.pointer⟩

theorem Going.init (rmem wmem : List Byte) (junk : Nat) (feed : Nat → Hw) (opens : Nat → Bool) :
    Going p b (ModemDetect.init (Ser.init rmem wmem [])) (Task.init 0 junk) (main rmem wmem junk feed opens) :=
  ⟨Nat.zero_le _, rfl, _, _, _, [], _, rfl, rfl, fun x hx => (by cases hx), .nil, rfl, rfl, .refl _ _⟩

end Verif.Program
