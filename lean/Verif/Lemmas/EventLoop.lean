import Verif.Spec.EventLoop
import Verif.Lemmas.Program

/-!
# The event loop: what holds after each turn
-/

namespace Verif.EventLoop

open ModemDetect Client Program Spec.Client Spec.EventLoop

variable {p : Platform} {b : Mems}

/-- The calls before the request. -/
def five : List Call := [.startDetection, .getDetectedModem, .configure, .setHostPort, .connect]

/-- How far the program has come. `q`: there is nothing to be read yet. -/
inductive Phase (q : Loop → Prop) (s : Loop) : Prop
  | asking (hd : s.detected = false) (hc : s.connected = false) (hp : s.ptr = false) (hl : s.w.log = [.startDetection])
      (hm : s.w.dev.modem = none)
  | calling (hd : s.detected = true) (hc : s.connected = false) (hp : s.ptr = true) (hl : s.w.log = five) (hq : q s)
      (hm : s.w.dev.modem ≠ none)
  | talking (hd : s.detected = true) (hc : s.connected = true) (hp : s.ptr = true) (pieces : List (List Byte))
      (hl : s.w.log = opening ++ pieces.map Call.read) (hm : s.w.dev.modem ≠ none)

/-- What holds after every event. -/
structure Holds (q : Loop → Prop) (s : Loop) : Prop where
  steady : Steady s.w
  phase : Phase q s
  shown : s.w.shown = answer s.w.log
  null : s.null = false

theorem left_get (m : MD) (h : modemDetected m = true) : left (ModemDetect.step p m (.get b)) = 0 := by
  obtain ⟨ser, isOpen, det, started, modem, delay, ub, trace⟩ := m
  cases det <;> first | rfl | (exact absurd h Bool.false_ne_true)

theorem quiet_zero {m : MD} (h : left m = 0) {op : DOp} (ht : Tame op) (hr : isRunD op = false) : left (ModemDetect.step p m op) = 0 :=
  Classical.byContradiction fun hq => (quiet_step ht hr hq).1 h

theorem quiet_zeros {m : MD} (h : left m = 0) {ops : List DOp} (ht : ∀ op ∈ ops, Tame op) (hn : ops.countP isRunD = 0) :
    left (execD p m ops) = 0 :=
  Classical.byContradiction fun hq => (still_execD ht hn hq).1 h

theorem conf_quiet (m : MD) : ((conf m.modem).map DOp.app).countP isRunD = 0 := by
  unfold conf
  split <;> rfl

theorem pass_tame {ops : List DOp} (h : Pass ops) : ∀ op ∈ ops, Tame op := by
  intro op ho b hb
  rcases h.1 op ho with ⟨_, e⟩ | e | ⟨_, e⟩ <;> rw [e] at hb <;> cases hb

theorem pass_once {ops : List DOp} (h : Pass ops) : ops.countP isRunD ≤ 1 := by
  refine Nat.le_trans (List.countP_mono_left ?_) h.2
  intro op ho hr
  rcases h.1 op ho with ⟨_, e⟩ | e | ⟨_, e⟩ <;> subst e <;> first | rfl | (exact absurd hr (by simp [isRunD]))

/-- Data only if the driver is connected. -/
def Fresh (s : Loop) : Prop := left s.w.dev ≠ 0 → up s.w.dev = true

/-- `runTask()`. -/
theorem Holds.pass {s : Loop} (h : Holds (fun s => left s.w.dev = 0) s) {ops : List DOp} (ho : Pass ops) :
    Holds Fresh { s with w := { s.w with dev := execD p s.w.dev ops } } := by
  have ht := pass_tame ho
  refine ⟨⟨h.steady.sound.execD ht, h.steady.inside, h.steady.reads, fun hg => some_execD (h.steady.pointer hg) ops⟩, ?_, h.shown, h.null⟩
  rcases h.phase with ⟨hd, hc, hp, hl, hm⟩ | ⟨hd, hc, hp, hl, hq, hm⟩ | ⟨hd, hc, hp, pieces, hl, hm⟩
  · refine .asking hd hc hp hl ?_
    have : ∀ (ops : List DOp) (m : MD), m.modem = none → (∀ op ∈ ops, Tame op) → (execD p m ops).modem = none := by
      intro ops
      induction ops with
      | nil => intro m hm _; exact hm
      | cons op ops ih =>
        intro m hm ht
        exact ih _ (none_step hm (ht op (List.mem_cons_self ..))) fun o ho => ht o (List.mem_cons_of_mem _ ho)
    exact this ops _ hm ht
  · exact .calling hd hc hp hl (fun hq' => once_execD h.steady.sound ht (pass_once ho) hq hq') (some_execD hm ops)
  · exact .talking hd hc hp pieces hl (some_execD hm ops)

theorem Holds.detect (hl : b.line.length = lineMax + 1) {s : Loop} (h : Holds Fresh s) : Holds Fresh (detectEvent p b s) := by
  unfold detectEvent
  split
  · rename_i hc
    simp only [Bool.and_eq_true, Bool.not_eq_true'] at hc
    have h1 := (side (p := p) hl).get s.w h.steady hc.2
    have h2 := (side (p := p) hl).conf _ h1
    have h3 := (side (p := p) hl).host _ h2
    have h4 := (side (p := p) hl).conn _ h3
    have hs := get_some (p := p) hc.2 b
    have hz : (call .getDetectedModem (api p b).getDetectedModem s.w).dev.modem.isSome = true := by
      rw [Option.isSome_iff_ne_none]; exact hs
    have z1 := left_get (p := p) (b := b) s.w.dev hc.2
    have z2 : left (call .configure (api p b).configure (call .getDetectedModem (api p b).getDetectedModem s.w)).dev = 0 :=
      quiet_zeros z1 (fun op ho => by obtain ⟨o, _, rfl⟩ := List.mem_map.mp ho; exact tame_app o) (conf_quiet _)
    have z3 := quiet_zero (p := p) z2 (tame_app (.setHostPort (some b!"wttr.in") 80 .tcp)) rfl
    have z4 := quiet_zero (p := p) z3 (tame_app .connect) rfl
    have m2 := some_execD (p := p) hs ((conf (ModemDetect.step p s.w.dev (.get b)).modem).map .app)
    have m3 := some_step (p := p) m2 (.app (.setHostPort (some b!"wttr.in") 80 .tcp))
    have m4 := some_step (p := p) m3 (.app .connect)
    rcases h.phase with ⟨hd, hn, hp, hlg, hm⟩ | ⟨hd, _⟩ | ⟨hd, _⟩
    · refine ⟨h4, .calling rfl hn hz ?_ (fun hq => absurd z4 hq) m4, ?_, ?_⟩
      · simp only [call, hlg]; rfl
      · have := h.shown
        rw [hlg] at this
        simp only [call, hlg, this]; rfl
      · simp only [hz, h.null]; rfl
    · rw [hd] at hc; cases hc.1
    · rw [hd] at hc; cases hc.1
  · exact h

theorem Holds.connect (hl : b.line.length = lineMax + 1) {s : Loop} (h : Holds Fresh s) :
    Holds (fun s => left s.w.dev = 0) (connectEvent p b s) := by
  unfold connectEvent
  split
  · rename_i hc
    simp only [Bool.and_eq_true, Bool.not_eq_true'] at hc
    obtain ⟨⟨hc1, hc2⟩, hc3⟩ := hc
    have h1 := ((side (p := p) hl).write s.w h.steady hc3).1
    rcases h.phase with ⟨_, _, hp, _⟩ | ⟨hd, hn, hp, hlg, hq, hm⟩ | ⟨_, hn, _⟩
    · rw [hp] at hc2; cases hc2
    · refine ⟨by rw [hc3]; exact h1, .talking hd rfl hp [] ?_ (some_step hm _), ?_, h.null⟩
      · simp only [call, hlg, hc3]; rfl
      · have := h.shown
        rw [hlg] at this
        simp only [call, hlg, hc3, this]; rfl
    · rw [hn] at hc1; cases hc1
  · rename_i hc
    refine ⟨h.steady, ?_, h.shown, h.null⟩
    rcases h.phase with ⟨hd, hn, hp, hlg, hm⟩ | ⟨hd, hn, hp, hlg, hq, hm⟩ | ⟨hd, hn, hp, pieces, hlg, hm⟩
    · exact .asking hd hn hp hlg hm
    · refine .calling hd hn hp hlg (Classical.byContradiction fun hz => hc ?_) hm
      have : (api p b).isConnected s.w.dev = true := hq hz
      simp [hn, hp, this]
    · exact .talking hd hn hp pieces hlg hm

theorem answer_append (l m : List Call) : answer (l ++ m) = answer l ++ answer m := by
  induction l with
  | nil => rfl
  | cons c l ih => cases c <;> simp [answer, ih]

theorem read_bytes (m : MD) : ((api p b).read m 40).2.length = min 40 (left m) := by
  cases hm : m.modem with
  | none => simp [api, left, hm]
  | some d => simp only [api, left, hm, Option.elim]; exact bytes_length 40 d

theorem left_read (m : MD) : left ((api p b).read m 40).1 = left m - 40 := by
  cases hm : m.modem with
  | none => simp [api, ModemDetect.step, left, hm]
  | some d => simp only [api, ModemDetect.step, left, hm, Option.elim]; exact avail_read d 40

theorem Holds.data {s : Loop} (h : Holds (fun s => left s.w.dev = 0) s) :
    Holds (fun s => left s.w.dev = 0) (dataEvent p b s) := by
  unfold dataEvent
  split
  · rename_i hc
    simp only [Bool.and_eq_true, bne_iff_ne] at hc
    have hc2 : left s.w.dev ≠ 0 := hc.2
    have e := read_bytes (p := p) (b := b) s.w.dev
    rcases h.phase with ⟨_, _, hp, _⟩ | ⟨hd, hn, hp, hlg, hq, hm⟩ | ⟨hd, hn, hp, pieces, hlg, hm⟩
    · rw [hp] at hc; cases hc.1
    · exact absurd hq hc2
    · refine ⟨⟨h.steady.sound.step (tame_app _), ?_, fun bs hb => ?_, fun _ => some_step hm _⟩,
        .talking hd hn hp (pieces ++ [((api p b).read s.w.dev 40).2]) ?_ (some_step hm _), ?_, h.null⟩
      · simp only [readSome, h.steady.inside, Bool.false_or, decide_eq_false_iff_not]
        rw [e]; omega
      · simp only [readSome, List.mem_append, List.mem_singleton, Call.read.injEq] at hb
        rcases hb with hb | hb
        · exact h.steady.reads bs hb
        · subst hb
          refine ⟨fun q => ?_, by rw [e]; omega⟩
          rw [q] at e
          simp only [List.length_nil] at e
          omega
      · simp only [readSome, hlg, List.map_append, List.append_assoc]; rfl
      · simp only [readSome, answer_append, h.shown, answer, List.append_nil]
  · exact h

theorem Holds.fin {q : Loop → Prop} (hq : ∀ s e, q s → q { s with ended := e }) {s : Loop} (h : Holds q s) : Holds q (endEvent p b s) := by
  unfold endEvent
  split
  · refine ⟨h.steady, ?_, h.shown, h.null⟩
    rcases h.phase with ⟨hd, hn, hp, hlg, hm⟩ | ⟨hd, hn, hp, hlg, hq', hm⟩ | ⟨hd, hn, hp, pieces, hlg, hm⟩
    · exact .asking hd hn hp hlg hm
    · exact .calling hd hn hp hlg (hq _ _ hq') hm
    · exact .talking hd hn hp pieces hlg hm
  · exact h

/-- What holds after every turn. -/
structure Inv (s : Loop) : Prop where
  holds : Holds (fun s => left s.w.dev = 0) s
  ended : ∀ i n, s.ended = some (i, n) → i = true ∧ s.connected = true ∧ n = left s.w.dev
  goes : s.ended = none → s.connected = true → s.w.dev.modem.elim true Program.idle = false

theorem detect_ended (s : Loop) : (detectEvent p b s).ended = s.ended := by unfold detectEvent; split <;> rfl
theorem connect_ended (s : Loop) : (connectEvent p b s).ended = s.ended := by unfold connectEvent; split <;> rfl
theorem data_ended (s : Loop) : (dataEvent p b s).ended = s.ended := by unfold dataEvent; split <;> rfl

theorem Inv.turn (hl : b.line.length = lineMax + 1) {s : Loop} (h : Inv s) {ops : List DOp} (ho : Pass ops) : Inv (turn p b s ops) := by
  unfold EventLoop.turn EventLoop.events
  split
  · exact h
  · rename_i he
    have he : s.ended = none := by
      cases hs : s.ended with
      | none => rfl
      | some _ => rw [hs] at he; exact absurd rfl he
    have h4 := (((h.holds.pass (p := p) ho).detect (p := p) hl).connect (p := p) hl).data (p := p) (b := b)
    refine ⟨h4.fin fun s e h => h, ?_, ?_⟩
    all_goals
      generalize hs : dataEvent p b _ = t at h4
      have ht : t.ended = none := by rw [← hs, data_ended, connect_ended, detect_ended]; exact he
    · intro i n hi
      unfold endEvent at hi ⊢
      split at hi
      · rename_i hc
        simp only [Bool.and_eq_true] at hc
        simp only [Option.some.injEq, Prod.mk.injEq] at hi
        rw [if_pos (by simp only [Bool.and_eq_true]; exact hc)]
        exact ⟨hi.1.symm.trans hc.2, hc.1.1, hi.2.symm⟩
      · rw [ht] at hi; cases hi
    · intro hn hc
      unfold endEvent at hn hc ⊢
      split at hn
      · cases hn
      · rename_i hz
        rw [if_neg hz] at hc ⊢
        rcases h4.phase with ⟨_, hc', _⟩ | ⟨_, hc', _⟩ | ⟨_, _, hp, _, _, hm⟩
        · rw [hc] at hc'; cases hc'
        · rw [hc] at hc'; cases hc'
        · cases hm' : t.w.dev.modem with
          | none => exact absurd hm' hm
          | some d =>
            have : (api p b).isIdle t.w.dev = Program.idle d := by simp only [api, hm', Option.elim]
            cases hi : Program.idle d with
            | false => simp only [Option.elim]; exact hi
            | true =>
              rw [hi] at this
              exact absurd (by simp [hc, hp, this]) hz

theorem inv_start (rmem wmem : List Byte) : Inv (start p b (ModemDetect.init (Ser.init rmem wmem []))) := by
  have hs : Steady ⟨ModemDetect.init (Ser.init rmem wmem []), [], [], false⟩ :=
    ⟨⟨[], Ser.rxRep_init _ _ _⟩, rfl, fun bs hb => (by cases hb), fun hb => (by cases hb)⟩
  refine ⟨⟨?_, .asking rfl rfl rfl rfl rfl, rfl, rfl⟩, fun i n h => (by cases h), fun _ h => (by cases h)⟩
  exact hs.call (by intro bs; simp) (by simp) (hs.sound.step (p := p) tame_start) fun q => some_step (p := p) q _

theorem inv_loop (hl : b.line.length = lineMax + 1) (rmem wmem : List Byte) {passes : List (List DOp)} (hp : ∀ ops ∈ passes, Pass ops) :
    Inv (loop p b (ModemDetect.init (Ser.init rmem wmem [])) passes) := by
  have : ∀ (passes : List (List DOp)) (s : Loop), Inv s → (∀ ops ∈ passes, Pass ops) → Inv (passes.foldl (EventLoop.turn p b) s) := by
    intro passes
    induction passes with
    | nil => intro s h _; exact h
    | cons ops passes ih =>
      intro s h hp
      exact ih _ (h.turn hl (hp ops (List.mem_cons_self ..))) fun o ho => hp o (List.mem_cons_of_mem _ ho)
  exact this passes _ (inv_start rmem wmem) hp

theorem avail_write (d : Driver) (bs : List Byte) : avail (d.app p (.write bs)) = avail d := by
  cases d <;> exact congrArg Ring.bytesAvailable (Dev.write_rbuf _ bs)

theorem left_write (m : MD) (bs : List Byte) : left ((api p b).write m bs) = left m := by
  cases hm : m.modem with
  | none => simp [api, ModemDetect.step, left, hm]
  | some d => simp only [api, ModemDetect.step, left, hm, Option.elim]; exact avail_write d bs

theorem left_detect {s : Loop} (h : Holds Fresh s) :
    left (detectEvent p b s).w.dev = left s.w.dev := by
  rcases h.phase with ⟨_, _, _, _, hm⟩ | ⟨hd, _⟩ | ⟨hd, _⟩
  · have z : left s.w.dev = 0 := by unfold left; rw [hm]; rfl
    rw [z]
    unfold detectEvent
    split
    · rename_i hc
      simp only [Bool.and_eq_true, Bool.not_eq_true'] at hc
      have z1 := left_get (p := p) (b := b) s.w.dev hc.2
      have z2 : left (call .configure (api p b).configure (call .getDetectedModem (api p b).getDetectedModem s.w)).dev = 0 :=
        quiet_zeros z1 (fun op ho => by obtain ⟨o, _, rfl⟩ := List.mem_map.mp ho; exact tame_app o) (conf_quiet _)
      exact quiet_zero (p := p) (quiet_zero (p := p) z2 (tame_app (.setHostPort (some b!"wttr.in") 80 .tcp)) rfl) (tame_app .connect) rfl
    · exact z
  · unfold detectEvent; rw [hd]; rfl
  · unfold detectEvent; rw [hd]; rfl

theorem left_connect (s : Loop) : left (connectEvent p b s).w.dev = left s.w.dev := by
  unfold connectEvent
  split
  · exact left_write (b := b) _ _
  · rfl

theorem left_data {q : Loop → Prop} {s : Loop} (h : Holds q s) : left (dataEvent p b s).w.dev = left s.w.dev - 40 := by
  unfold dataEvent
  split
  · exact left_read (b := b) _
  · rename_i hc
    rcases h.phase with ⟨_, _, hp, _, hm⟩ | ⟨_, _, hp, _⟩ | ⟨_, _, hp, _⟩
    · unfold left; rw [hm]; rfl
    all_goals
      have : left s.w.dev = 0 := by
        refine Classical.byContradiction fun hz => hc ?_
        have : (api p b).bytesAvailable s.w.dev ≠ 0 := hz
        simp [hp, this]
      rw [this]

theorem turn_left (hl : b.line.length = lineMax + 1) {s : Loop} (h : Inv s) (he : s.ended = none) {ops : List DOp} (ho : Pass ops) :
    left (turn p b s ops).w.dev = left (execD p s.w.dev ops) - 40 := by
  have h1 := h.holds.pass (p := p) ho
  have h2 := h1.detect (p := p) hl
  have h3 := h2.connect (p := p) hl
  have e : ∀ t : Loop, left (endEvent p b t).w.dev = left t.w.dev := by
    intro t; unfold endEvent; split <;> rfl
  unfold EventLoop.turn EventLoop.events
  rw [if_neg (by rw [he]; simp), e, left_data (p := p) (b := b) h3, left_connect, left_detect h1]

/-! ## With the scheduler -/

/-- Two tasks, the first without a delay. -/
structure Ready (feed : Nat → Hw) (opens : Nat → Bool) (k : Nat) (s : Sched Env) : Prop where
  tasks : ∃ t0 t1, s.tasks = [t0, t1] ∧ t0.delay = 0
  cur : s.world.loop.ended = none → s.cur = k % 2
  range : s.cur < 2
  ub : s.ub = false
  feed : s.world.feed = feed
  opens : s.world.opens = opens

theorem ready_round {feed : Nat → Hw} {opens : Nat → Bool} {k : Nat} {s : Sched Env} (h : Ready feed opens k s) (tick : Nat) :
    Ready feed opens (k + 1) (round p b s tick) ∧ ∃ ops, (round p b s tick).world.loop = turn p b s.world.loop ops ∧
      (k % 2 = 0 → ∃ n, ops = [.irq [feed n]]) ∧ (k % 2 = 1 → ops = [] ∨ ∃ n, ops = [.run (opens n)]) := by
  obtain ⟨⟨t0, t1, ht, hd⟩, hc, hr, hu, hf, ho⟩ := h
  cases he : s.world.loop.ended with
  | some x =>
    have e : round p b s tick = s := by unfold round; rw [he]; rfl
    rw [e]
    refine ⟨⟨⟨t0, t1, ht, hd⟩, fun h => (by rw [he] at h; cases h), hr, hu, hf, ho⟩, ?_⟩
    have tu : ∀ ops, turn p b s.world.loop ops = s.world.loop := by intro ops; unfold turn; rw [he]; rfl
    by_cases hk : k % 2 = 0
    · exact ⟨[.irq [feed 0]], (tu _).symm, fun _ => ⟨0, rfl⟩, fun h => (by omega)⟩
    · exact ⟨[], (tu _).symm, fun h => (by omega), fun _ => .inl rfl⟩
  | none =>
    replace hc := hc he
    have er : round p b s tick =
        { (Sched.runTask (bodies p) s tick).1 with
          world := { (Sched.runTask (bodies p) s tick).1.world with loop := events p b (Sched.runTask (bodies p) s tick).1.world.loop } } := by
      unfold round; rw [he]; rfl
    have et : ∀ ops, turn p b s.world.loop ops =
        events p b { s.world.loop with w := { s.world.loop.w with dev := execD p s.world.loop.w.dev ops } } := by
      intro ops; unfold turn; exact if_neg (by rw [he]; simp)
    rw [er]
    obtain ⟨tasks, cur, ⟨lp, fd, os, n⟩, ub⟩ := s
    dsimp only at ht hc hr hu hf ho he et ⊢
    subst ht hu hf ho
    by_cases hk : k % 2 = 0
    · rw [hk] at hc
      subst hc
      have hdue : Sched.due t0 tick = true := by unfold Sched.due; rw [hd]; rfl
      refine ⟨⟨⟨t0.setLastRun tick, t1, ?_, hd⟩, fun _ => ?_, ?_, ?_, ?_, ?_⟩, [.irq [fd n]], ?_, fun _ => ⟨n, rfl⟩, fun h => (by omega)⟩
      all_goals simp only [Sched.runTask, List.getElem?_cons_zero, hdue, if_true]
      · rfl
      · show 1 = (k + 1) % 2; omega
      · show 1 < 2; omega
      · rfl
      · rfl
      · rw [et]; rfl
    · have hk1 : k % 2 = 1 := by omega
      rw [hk1] at hc
      subst hc
      by_cases hdue : Sched.due t1 tick = true
      · refine ⟨⟨⟨t0, (t1.setLastRun tick).setDelay (step p lp.w.dev (.run (os n))).delay, ?_, hd⟩, fun _ => ?_, ?_, ?_, ?_, ?_⟩,
          [.run (os n)], ?_, fun h => (by omega), fun _ => .inr ⟨n, rfl⟩⟩
        all_goals simp only [Sched.runTask, List.getElem?_cons_succ, List.getElem?_cons_zero, hdue, if_true]
        · rfl
        · show 0 = (k + 1) % 2; omega
        · show 0 < 2; omega
        · rfl
        · rfl
        · rw [et]; rfl
      · refine ⟨⟨⟨t0, t1, ?_, hd⟩, fun _ => ?_, ?_, ?_, ?_, ?_⟩, [], ?_, fun h => (by omega), fun _ => .inl rfl⟩
        all_goals simp only [Sched.runTask, List.getElem?_cons_succ, List.getElem?_cons_zero, hdue, Bool.false_eq_true, if_false]
        · show 0 = (k + 1) % 2; omega
        · show 0 < 2; omega
        · rw [et]; rfl

theorem program_loop (rmem wmem : List Byte) (junk : Nat) (feed : Nat → Hw) (opens : Nat → Bool) (ticks : List Nat) :
    Ready feed opens ticks.length (program p b rmem wmem junk feed opens ticks) ∧ ∃ passes, passes.length = ticks.length ∧
      Turns feed opens passes ∧
      (program p b rmem wmem junk feed opens ticks).world.loop = loop p b (ModemDetect.init (Ser.init rmem wmem [])) passes := by
  have key : ∀ n, n ≤ ticks.length → Ready feed opens n (program p b rmem wmem junk feed opens (ticks.take n)) ∧
      ∃ passes, passes.length = n ∧ Turns feed opens passes ∧
      (program p b rmem wmem junk feed opens (ticks.take n)).world.loop = loop p b (ModemDetect.init (Ser.init rmem wmem [])) passes := by
    intro n
    induction n with
    | zero =>
      intro _
      exact ⟨⟨⟨_, _, rfl, rfl⟩, fun _ => rfl, Nat.zero_lt_two, rfl, rfl, rfl⟩, [], rfl, fun i ops h => (by simp at h), rfl⟩
    | succ n ih =>
      intro hn
      obtain ⟨hr, passes, hlen, ht, hw⟩ := ih (by omega)
      have e : program p b rmem wmem junk feed opens (ticks.take (n + 1)) =
          round p b (program p b rmem wmem junk feed opens (ticks.take n)) ticks[n] := by
        have : ticks.take (n + 1) = ticks.take n ++ [ticks[n]] := by simp
        rw [this, program, List.foldl_append]; rfl
      rw [e]
      obtain ⟨hr', ops, hops, h0, h1⟩ := ready_round (p := p) (b := b) hr ticks[n]
      refine ⟨hr', passes ++ [ops], by simp [hlen], fun i o hi => ?_, ?_⟩
      · by_cases hlt : i < passes.length
        · rw [List.getElem?_append_left hlt] at hi
          exact ht i o hi
        · rw [List.getElem?_append_right (by omega)] at hi
          have hi0 : i - passes.length = 0 := by
            cases hx : i - passes.length with
            | zero => rfl
            | succ m => rw [hx] at hi; simp at hi
          rw [hi0] at hi
          have : i = n := by omega
          subst this
          cases hi
          exact ⟨h0, h1⟩
      · rw [hops, hw, loop, loop, List.foldl_append]; rfl
  have := key ticks.length (Nat.le_refl _)
  rw [List.take_length] at this
  exact this

theorem turns_pass {feed : Nat → Hw} {opens : Nat → Bool} {passes : List (List DOp)} (h : Turns feed opens passes) :
    ∀ ops ∈ passes, Pass ops := by
  intro ops ho
  obtain ⟨i, hi, e⟩ := List.getElem_of_mem ho
  have hh := h i ops (by rw [List.getElem?_eq_getElem hi, e])
  by_cases hk : i % 2 = 0
  · obtain ⟨n, rfl⟩ := hh.1 hk
    exact ⟨fun op h => .inl ⟨_, List.mem_singleton.mp h⟩, by simp⟩
  · rcases hh.2 (by omega) with rfl | ⟨n, rfl⟩
    · exact ⟨fun op h => (by cases h), by simp⟩
    · exact ⟨fun op h => .inr (.inr ⟨_, List.mem_singleton.mp h⟩), by simp⟩

end Verif.EventLoop
