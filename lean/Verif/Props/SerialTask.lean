import Verif.Lemmas.SerialPlays

/-!
# Property C91: the task of the serial examples
-/

namespace Verif.Props.SerialTask

open Verif.SerialTask Spec.SerialTask

/-- What the task promises at any time, in a world `w` it has got to. -/
def Keeps (checks cfg opn : Bool) (w : World) : Prop :=
  ∃ (st : Stage) (ps : List (List Byte)),
    -- commands and answers alternate; each command is taken as a whole
    Talk checks cfg opn st ps w.log ∧
    -- an answer is not empty, and fits into `buf`
    (∀ bs ∈ ps, bs ≠ [] ∧ bs.length ≤ 31) ∧ w.oob = false ∧
    -- what goes to the port
    w.ser.sent = (List.replicate (commands st ps) command).flatten ∧ w.ser.wire <+: w.ser.sent ∧
    -- what is printed: the bytes received, in their order, each piece up to its first zero
    ps.flatten <+: w.ser.accepted ∧ w.shown = ps.flatMap (fun bs => bs.takeWhile (· != 0)) ∧
    -- each command but the first needs an answer
    commands st ps ≤ w.ser.accepted.length + 1

theorem keeps {checks cfg opn : Bool} {cap : Nat} {w : World} (h : Rests checks cfg opn cap w) : Keeps checks cfg opn w := by
  obtain ⟨st, ps, h⟩ := h
  obtain ⟨rq, tq, hr⟩ := h.rep
  have hp : ps.flatten <+: w.ser.accepted := ⟨rq, by rw [← h.taken]; exact hr.rxs⟩
  refine ⟨st, ps, h.talk, h.pieces, h.oob, h.sent, ⟨tq, hr.txs⟩, hp, h.shown, ?_⟩
  have h1 : ps.length ≤ ps.flatten.length := by
    have : ∀ qs : List (List Byte), (∀ bs ∈ qs, bs ≠ []) → qs.length ≤ qs.flatten.length := by
      intro qs
      induction qs with
      | nil => simp
      | cons q qs ih =>
        intro hq
        have a := ih fun bs hb => hq bs (List.mem_cons_of_mem _ hb)
        have b := List.length_pos_iff.2 (hq q (List.mem_cons_self ..))
        simp only [List.length_cons, List.flatten_cons, List.length_append]
        omega
    exact this ps fun bs hb => (h.pieces bs hb).1
  have h2 := hp.length_le
  unfold commands
  split <;> omega

/-- C91: for any serial device with a write buffer of at least 400 bytes (1504 in the examples), any interrupts in the middle of a call,
and any transfers between the calls. `checks`: the example for Linux; without: the one for the STM32. -/
theorem C91_task (checks cfg opn : Bool) (rmem wmem : List Byte) (sched : List (List Hw)) (hc : 400 ≤ wmem.length) {t : Task}
    (ht : t.timeoutRunning = false) {xs : List (Nat × (World → World))} (hx : ∀ x ∈ xs, ∀ w, Others w (x.2 w)) {s : Duff.St World}
    (h : Duff.Calls (text checks) xs (Duff.init 0 t (start (Ser.init rmem wmem sched) cfg opn)) s) : Keeps checks cfg opn s.user :=
  keeps (rests rmem wmem sched hc ht hx h)

/-- The whole program on Linux, under the scheduler, with any clock. -/
theorem C91_program {body : Bodies Main} (hb : Bodied body) (rmem wmem : List Byte) (hc : 400 ≤ wmem.length) (junk : Nat) (cfg opn : Bool)
    (feed : Nat → Hw) (ticks : List Nat) :
    let s := (Sched.runTasks body (main rmem wmem junk cfg opn feed) ticks).1
    Keeps true cfg opn s.world.user ∧ s.ub = false := by
  have g := (Going.init rmem wmem junk cfg opn feed).all hb ticks
  obtain ⟨_, hu, t0, t1, xs, st, _, hx, hcalls, _, _, hbt⟩ := g
  obtain ⟨stage, ps, h⟩ := rests rmem wmem [] hc rfl hx hcalls
  exact ⟨keeps ⟨stage, ps, h.others hbt⟩, hu⟩

/-- After an answer was read, at tick `a`, the next thing the task does happens at least 500 ticks later. -/
theorem C91_pace {body : Bodies Main} (hb : Bodied body) (rmem wmem : List Byte) (junk : Nat) (cfg opn : Bool) (feed : Nat → Hw)
    (before between : List Nat) (a b : Nat) (l : List Verif.SerialTask.Ev) (bs : List Byte) :
    let s0 := (Sched.runTasks body (main rmem wmem junk cfg opn feed) before).1
    let s1 := (Sched.runTask body s0 a).1
    let s2 := (Sched.runTasks body s1 between).1
    let s3 := (Sched.runTask body s2 b).1
    s1.world.user.log ≠ s0.world.user.log → s1.world.user.log = l ++ [Ev.got bs] → s2.world.user.log = s1.world.user.log →
      s3.world.user.log ≠ s2.world.user.log → sub32 b a ≥ 500 := by
  intro s0 s1 s2 s3 h1 h2 h3 h4
  have g0 : Going _ _ s0 := (Going.init rmem wmem junk cfg opn feed).all hb before
  have p := g0.pause hb a h2 h1
  refine p.lasts hb (g0.next hb a) between b (h3.trans h2) ?_
  rw [← h2, ← h3]
  exact h4

/-- The program with a device that sends `O` when asked. -/
def small : Sched Main := main (List.replicate 8 0) (List.replicate 8 0) 0 true true fun _ => ⟨some 79, true⟩

/-- The hypotheses of `C91_pace` can be met: the answer is read at 200, the next command is sent at 800. -/
example {body : Bodies Main} (hb : Bodied body) :
    let log (ticks : List Nat) := (Sched.runTasks body small ticks).1.world.user.log
    log [0, 100] = [.config true, .opened true, .wrote 4] ∧ log [0, 100, 200] = [.config true, .opened true, .wrote 4] ++ [.got [79]] ∧
    log [0, 100, 200, 300, 400, 500, 600, 700] = log [0, 100, 200] ∧
    log [0, 100, 200, 300, 400, 500, 600, 700, 800] = log [0, 100, 200] ++ [.wrote 4, .got [79, 79, 79]] := by
  have key : ∀ ticks l, ((turns 40 ticks small).map (·.world.user.log) = some l) → (Sched.runTasks body small ticks).1.world.user.log = l := by
    intro ticks l h
    obtain ⟨s, h1, h2⟩ := Option.map_eq_some_iff.mp h
    rw [turns_eq hb h1, h2]
  intro log
  have h0 := key [0, 100] [.config true, .opened true, .wrote 4] (by decide +kernel)
  have h1 := key [0, 100, 200] [.config true, .opened true, .wrote 4, .got [79]] (by decide +kernel)
  have h2 := key [0, 100, 200, 300, 400, 500, 600, 700] [.config true, .opened true, .wrote 4, .got [79]] (by decide +kernel)
  have h3 := key [0, 100, 200, 300, 400, 500, 600, 700, 800] [.config true, .opened true, .wrote 4, .got [79], .wrote 4, .got [79, 79, 79]]
    (by decide +kernel)
  exact ⟨h0, h1, h2.trans h1.symm, h3.trans (by show _ = log [0, 100, 200] ++ _; rw [show log [0, 100, 200] = _ from h1]; rfl)⟩

/-- Every call of the task's `run()` returns, in whatever state; so the two functions exist, and `C91_program` speaks about the program. -/
theorem C91_returns (checks : Bool) (t : Nat) (s : Duff.St World) : ∃ s', Duff.Call (text checks) t s s' := returns checks t s

theorem C91_bodies : ∃ body, Bodied body := by
  refine ⟨fun i w ts => match i, ts with
    | 0, t :: ts =>
      let s := Classical.choose (returns true t.lastRun ⟨t, w.entry, w.user⟩)
      ({ w with entry := s.entry, user := s.user }, s.task :: ts)
    | _, ts => ({ w with user := { w.user with ser := w.user.ser.transfer (w.feed w.n) }, n := w.n + 1 }, ts), ?_, ?_⟩
  · intro w t ts
    exact ⟨_, Classical.choose_spec (returns true t.lastRun ⟨t, w.entry, w.user⟩), rfl⟩
  · exact fun _ _ => rfl

/-! ### The answer to a command is not what is printed after it -/

/-- Some bytes arrive. -/
def arrive (bs : List Byte) (w : World) : World := { w with ser := w.ser.transfers (bs.map fun c => ⟨some c, true⟩) }

theorem arrive_others (bs : List Byte) (w : World) : Others w (arrive bs w) := ⟨_, rfl⟩

/-- Three turns, at 1000, 1100 and 1600 ms. -/
def chops : List (Nat × (World → World)) := [(1000, id), (1100, arrive b!"AT\r"), (1600, arrive b!"\r\nOK\r\n")]

/-- Calls of at most `n` steps each, computed. -/
def compute (n : Nat) : List (Nat × (World → World)) → Duff.St World → Option (Duff.St World)
  | [], s => some s
  | (t, g) :: xs, s =>
    match Duff.steps n ((Duff.find s.entry (text true) []).getD [], ⟨s.task.setLastRun t, s.entry, g s.user⟩) with
    | ([], s') => compute n xs s'
    | _ => none

theorem compute_calls {n : Nat} {xs : List (Nat × (World → World))} {s s' : Duff.St World} (h : compute n xs s = some s') :
    Duff.Calls (text true) xs s s' := by
  induction xs generalizing s with
  | nil => cases h; exact .nil
  | cons x xs ih =>
    obtain ⟨t, g⟩ := x
    simp only [compute] at h
    split at h
    · rename_i s1 e
      exact .cons ⟨n, e⟩ (ih h)
    · cases h

/-- The task looks when three bytes of the answer have come. The rest is taken for the answer to the second command. -/
theorem C91_split : ∃ s : Duff.St World, (∀ x ∈ chops, ∀ w, Others w (x.2 w)) ∧
    Duff.Calls (text true) chops (Duff.init 0 (Task.init 0 0) (start (Ser.init (List.replicate 404 0) (List.replicate 404 0) []) true true)) s ∧
    s.user.log = [.config true, .opened true, .wrote 4, .got b!"AT\r", .wrote 4, .got b!"\r\nOK\r\n"] := by
  have e : (compute 40 chops (Duff.init 0 (Task.init 0 0) (start (Ser.init (List.replicate 404 0) (List.replicate 404 0) []) true true))).map
      (·.user.log) = some [.config true, .opened true, .wrote 4, .got b!"AT\r", .wrote 4, .got b!"\r\nOK\r\n"] := by decide +kernel
  obtain ⟨s, h1, h2⟩ := Option.map_eq_some_iff.mp e
  refine ⟨s, ?_, compute_calls h1, h2⟩
  simp only [chops, List.mem_cons, List.not_mem_nil, or_false]
  rintro x (rfl | rfl | rfl) w
  · exact others_refl w
  · exact arrive_others _ w
  · exact arrive_others _ w

/-- The hypotheses of `C91_task` are met by this history: two exchanges, the task pauses. -/
example : ∃ s : Duff.St World, Keeps true true true s.user ∧ ∃ ps, ps.length = 2 ∧ Talk true true true .pause ps s.user.log := by
  obtain ⟨s, h1, h2, h3⟩ := C91_split
  refine ⟨s, C91_task true true true _ _ [] (by rw [List.length_replicate]; decide) rfl h1 h2, [b!"AT\r", b!"\r\nOK\r\n"], rfl, by decide, ?_⟩
  rw [h3]
  rfl

/-- A device that answers nothing gets one command only, however long the program runs. -/
theorem C91_mute {body : Bodies Main} (hb : Bodied body) (rmem wmem : List Byte) (hc : 400 ≤ wmem.length) (junk : Nat) (cfg opn : Bool)
    (feed : Nat → Hw) (ticks : List Nat) :
    let s := (Sched.runTasks body (main rmem wmem junk cfg opn feed) ticks).1
    s.world.user.ser.accepted = [] → s.world.user.ser.sent <+: command := by
  intro s h
  obtain ⟨⟨st, ps, _, _, _, h1, _, _, _, h2⟩, _⟩ := C91_program hb rmem wmem hc junk cfg opn feed ticks
  show s.world.user.ser.sent <+: command
  rw [h1]
  rw [show (Sched.runTasks body (main rmem wmem junk cfg opn feed) ticks).1 = s from rfl, h] at h2
  have : commands st ps = 0 ∨ commands st ps = 1 := by simp at h2; omega
  rcases this with e | e <;> rw [e] <;> simp

end Verif.Props.SerialTask
