import Verif.Lemmas.Rely
import Verif.Lemmas.Returns
import Verif.Lemmas.Program
import Verif.Lemmas.Serial
import Verif.Props.Thread
import Verif.Spec.SerialTask

/-!
# The task of the serial example as a thread
-/

namespace Verif.SerialTask

open Duff (Test Wait Prog)
open Spec.Threads Spec.SerialTask

theorem body_good (checks : Bool) : Good 0 3 (body checks) := by
  refine ⟨by simp [body, rounds, labels], by simp [body, rounds, labels], ?_⟩
  simp [body, rounds, Closed]

/-- What holds whenever the task rests, with the answers so far. -/
structure Knows (checks cfg opn : Bool) (cap : Nat) (st : Stage) (ps : List (List Byte)) (w : World) : Prop where
  rep : ∃ rq tq, Ser.Rep w.ser rq tq
  size : w.ser.tx.ring.size = cap
  hcfg : w.cfg = cfg
  hopn : w.opn = opn
  talk : Talk checks cfg opn st ps w.log
  sent : w.ser.sent = (List.replicate (commands st ps) command).flatten
  taken : w.ser.taken = ps.flatten
  shown : w.shown = ps.flatMap fun bs => bs.takeWhile (· != 0)
  oob : w.oob = false
  pieces : ∀ bs ∈ ps, bs ≠ [] ∧ bs.length ≤ 31

variable {checks cfg opn : Bool} {cap : Nat}

theorem Knows.others {st : Stage} {ps : List (List Byte)} {u v : World} (h : Knows checks cfg opn cap st ps u) (r : Others u v) :
    Knows checks cfg opn cap st ps v := by
  obtain ⟨hs, rfl⟩ := r
  have f := Ser.frame_transfers u.ser hs
  obtain ⟨rq, tq, hr⟩ := h.rep
  obtain ⟨a, g, t, r1, _⟩ := Ser.ext_transfers hr hs
  exact ⟨⟨_, _, r1⟩, f.txSize.trans h.size, h.hcfg, h.hopn, h.talk, f.sent.trans h.sent, f.taken.trans h.taken, h.shown, h.oob, h.pieces⟩

theorem flatten_length (n : Nat) : ((List.replicate n command).flatten).length = 4 * n := by
  simp [command]; omega

theorem exchanges_snoc (ps : List (List Byte)) (bs : List Byte) : exchanges (ps ++ [bs]) = exchanges ps ++ [.wrote 4, .got bs] := by
  simp [exchanges]

theorem Knows.send (hc : 400 ≤ cap) {ps : List (List Byte)} {w : World} (h : Knows checks cfg opn cap .pause ps w) (hl : ps.length < 100) :
    Knows checks cfg opn cap .wait ps (send w) := by
  obtain ⟨rq, tq, hr⟩ := h.rep
  obtain ⟨a0, g0, t0, r0, e0, o0, -, -, s0, z0, -⟩ := Ser.rep_spaceAvailable hr
  obtain ⟨a, g, t, r1, e1, -, -, k1, s1, z1⟩ := Ser.rep_write hr command
  have hn : (w.ser.write command).2 = 4 := by
    rw [e1, o0, h.size]
    have l1 : w.ser.sent.length = 4 * ps.length := by rw [h.sent, flatten_length]; simp [commands]
    have l2 : t0.length ≤ w.ser.sent.length := by rw [← hr.txs, e0]; simp; omega
    have l3 : command.length = 4 := rfl
    omega
  refine ⟨⟨_, _, r1⟩, z1.2.trans h.size, h.hcfg, h.hopn, ⟨hl, ?_⟩, ?_, k1.trans h.taken, h.shown, h.oob, h.pieces⟩
  · simp only [SerialTask.send]; rw [h.talk.2, hn]
  · simp only [SerialTask.send]
    rw [s1, hn, h.sent]
    have : command.take 4 = command := rfl
    rw [this]
    simp [commands, List.replicate_succ']

/-- There is something to be read. -/
def Ready (w : World) : Prop := ∃ rq tq, Ser.Rep w.ser rq tq ∧ rq ≠ []

theorem Knows.answered {st : Stage} {ps : List (List Byte)} {w : World} (h : Knows checks cfg opn cap st ps w) :
    Knows checks cfg opn cap st ps (answered w).2 ∧ ((answered w).1 = true → Ready (answered w).2) := by
  obtain ⟨rq, tq, hr⟩ := h.rep
  obtain ⟨a0, g0, t0, r0, e0, o0, -, k0, s0, z0, -⟩ := Ser.rep_bytesAvailable hr
  refine ⟨⟨⟨_, _, r0⟩, z0.2.trans h.size, h.hcfg, h.hopn, h.talk, s0.trans h.sent, k0.trans h.taken, h.shown, h.oob, h.pieces⟩, fun hc => ?_⟩
  refine ⟨_, _, r0, fun he => ?_⟩
  rw [he] at o0
  simp [SerialTask.answered, o0] at hc

theorem Knows.receive {ps : List (List Byte)} {w : World} (h : Knows checks cfg opn cap .wait ps w) (hw : Ready w) :
    ∃ bs, Knows checks cfg opn cap .pause (ps ++ [bs]) (receive w) := by
  obtain ⟨rq, tq, hr, hne⟩ := hw
  obtain ⟨a1, a2, g, t, r1, e1, o1, c1, k1, s1, z1⟩ := Ser.rep_read hr 31
  refine ⟨(w.ser.read 31).2, ⟨_, _, r1⟩, z1.2.trans h.size, h.hcfg, h.hopn, ⟨?_, ?_⟩, ?_, ?_, ?_, ?_, ?_⟩
  · have := h.talk.1; simp; omega
  · simp only [SerialTask.receive]; rw [h.talk.2, exchanges_snoc]; simp
  · simp only [SerialTask.receive]; rw [s1, h.sent]; simp [commands]
  · simp only [SerialTask.receive]; rw [k1, ← o1, h.taken]; simp
  · simp only [SerialTask.receive]; rw [h.shown]; simp
  · simp only [SerialTask.receive]; rw [h.oob, o1]; simp
    omega
  · intro bs hb
    rcases List.mem_append.1 hb with hb | hb
    · exact h.pieces _ hb
    · simp only [List.mem_singleton] at hb
      subst hb
      rw [o1]
      constructor
      · intro he
        cases rq with
        | nil => exact hne rfl
        | cons c rq => simp at he
      · simp; omega

/-- The task rests. -/
def Rests (checks cfg opn : Bool) (cap : Nat) (w : World) : Prop := ∃ st ps, Knows checks cfg opn cap st ps w

/-- The task in its loop. -/
def Inner (checks cfg opn : Bool) (cap : Nat) (st : Stage) (k : Nat) (w : World) : Prop :=
  ∃ ps, Knows checks cfg opn cap st ps w ∧ ps.length = w.i + k ∧ w.i < 100

theorem Inner.others {st : Stage} {k : Nat} {u v : World} (h : Inner checks cfg opn cap st k u) (r : Others u v) :
    Inner checks cfg opn cap st k v := by
  obtain ⟨ps, h1, h2, h3⟩ := h
  have := h1.others r
  obtain ⟨hs, rfl⟩ := r
  exact ⟨ps, this, h2, h3⟩

theorem rounds_tri (hc : 400 ≤ cap) : Tri (Rests checks cfg opn cap) Others (fun w => Knows checks cfg opn cap .pause [] w) rounds
    (fun w => ∃ ps, Knows checks cfg opn cap .pause ps w ∧ ps.length = 100) := by
  refine .seq (Q := fun w => ∃ ps, Knows checks cfg opn cap .pause ps w ∧ ps.length = w.i ∧ w.i ≤ 100) (.act fun w h => ?_) ?_
  · exact ⟨[], ⟨h.rep, h.size, h.hcfg, h.hopn, h.talk, h.sent, h.taken, h.shown, h.oob, h.pieces⟩, rfl, Nat.zero_le _⟩
  refine .loop (A := Inner checks cfg opn cap .pause 0) (B := Inner checks cfg opn cap .pause 1) ?_ ?_ ?_ ?_
  · rintro w ⟨ps, h1, h2, h3⟩ hc
    exact ⟨ps, h1, h2, by simpa using hc⟩
  · rintro w ⟨ps, h1, h2, h3⟩ hc
    exact ⟨ps, h1, by have : ¬ w.i < 100 := by simpa using hc
                      omega⟩
  · refine .seq (Q := Inner checks cfg opn cap .wait 0) (.act ?_) ?_
    · rintro w ⟨ps, h1, h2, h3⟩
      exact ⟨ps, h1.send hc (by omega), h2, h3⟩
    refine .seq (Q := fun w => Inner checks cfg opn cap .wait 0 w ∧ Ready w) (.any (W := Inner checks cfg opn cap .wait 0) ?_ (fun _ h => h) ?_ ?_ ?_) ?_
    · rintro w ⟨ps, h1, _⟩; exact ⟨_, _, h1⟩
    · rintro _ _ w ⟨ps, h1, h2, h3⟩; exact ⟨ps, h1.answered.1, h2, h3⟩
    · rintro _ _ w ⟨ps, h1, h2, h3⟩ hg; exact ⟨⟨ps, h1.answered.1, h2, h3⟩, h1.answered.2 hg⟩
    · intro u v h r; exact h.others r
    refine .seq (Q := Inner checks cfg opn cap .pause 1) (.act ?_) ?_
    · rintro w ⟨⟨ps, h1, h2, h3⟩, h4⟩
      obtain ⟨bs, h5⟩ := h1.receive h4
      exact ⟨_, h5, by simp [receive, h2], h3⟩
    refine .any (W := Inner checks cfg opn cap .pause 1) ?_ (fun _ h => h) (fun _ _ _ h => h) (fun _ _ _ h _ => h) fun u v h r => h.others r
    rintro w ⟨ps, h1, _⟩; exact ⟨_, _, h1⟩
  · rintro w ⟨ps, h1, h2, h3⟩
    exact ⟨ps, ⟨h1.rep, h1.size, h1.hcfg, h1.hopn, h1.talk, h1.sent, h1.taken, h1.shown, h1.oob, h1.pieces⟩, h2, h3⟩

/-- The task has come to its end. -/
def Ends (checks cfg opn : Bool) (cap : Nat) (w : World) : Prop :=
  ∃ st ps, Knows checks cfg opn cap st ps w ∧ (st = .over ∨ st = .out)

theorem body_tri (hc : 400 ≤ cap) :
    Tri (Rests checks cfg opn cap) Others (fun w => Knows checks cfg opn cap .out [] w ∧ w.log = []) (body checks) (Ends checks cfg opn cap) := by
  refine .ite (A := fun w => (Knows checks cfg opn cap .out [] { w with log := [] } ∧ w.log = [.config cfg]) ∧ (checks = true → cfg = true))
    (B := fun w => (Knows checks cfg opn cap .out [] { w with log := [] } ∧ w.log = [.config cfg]) ∧ checks = true ∧ cfg = false) ?_ ?_ ?_ (.act ?_)
  · rintro w ⟨h, hl⟩ ht
    refine ⟨⟨⟨h.rep, h.size, h.hcfg, h.hopn, ⟨rfl, .inl rfl⟩, h.sent, h.taken, h.shown, h.oob, h.pieces⟩, by simp [config, hl, h.hcfg]⟩, fun hk => ?_⟩
    simpa [config, h.hcfg, hk] using ht
  · rintro w ⟨h, hl⟩ ht
    refine ⟨⟨⟨h.rep, h.size, h.hcfg, h.hopn, ⟨rfl, .inl rfl⟩, h.sent, h.taken, h.shown, h.oob, h.pieces⟩, by simp [config, hl, h.hcfg]⟩, ?_⟩
    have ht' : cfg = false ∧ checks = true := by simpa [config, h.hcfg] using ht
    exact ⟨ht'.2, ht'.1⟩
  · refine .ite (A := Knows checks cfg opn cap .pause [])
      (B := fun w => (Knows checks cfg opn cap .out [] { w with log := [] } ∧ w.log = [.config cfg, .opened opn]) ∧ checks = true ∧ cfg = true ∧ opn = false)
      ?_ ?_ (.seq (rounds_tri hc) (.act ?_)) (.act ?_)
    · rintro w ⟨⟨h, hl⟩, _⟩ _
      have ho : w.opn = opn := h.hopn
      exact ⟨h.rep, h.size, h.hcfg, h.hopn, ⟨Nat.zero_le _, by simp [opens, hl, ho, exchanges]⟩, h.sent, h.taken, h.shown, h.oob, h.pieces⟩
    · rintro w ⟨⟨h, hl⟩, hk⟩ ht
      have ho : w.opn = opn := h.hopn
      have ht' : opn = false ∧ checks = true := by simpa [opens, ho] using ht
      exact ⟨⟨⟨h.rep, h.size, h.hcfg, h.hopn, ⟨rfl, .inl rfl⟩, h.sent, h.taken, h.shown, h.oob, h.pieces⟩, by simp [opens, hl, ho]⟩,
        ht'.2, hk ht'.2, ht'.1⟩
    · rintro w ⟨ps, h, hl⟩
      exact ⟨.over, ps, ⟨h.rep, h.size, h.hcfg, h.hopn, ⟨hl, by simp only [note]; rw [h.talk.2]⟩, h.sent, h.taken, h.shown, h.oob, h.pieces⟩, .inl rfl⟩
    · rintro w ⟨⟨h, hl⟩, k1, k2, k3⟩
      exact ⟨.out, [], ⟨h.rep, h.size, h.hcfg, h.hopn, ⟨rfl, .inr (.inr ⟨k1, k2, k3, by simp [note, hl]⟩)⟩, h.sent, h.taken, h.shown, h.oob, h.pieces⟩, .inr rfl⟩
  · rintro w ⟨⟨h, hl⟩, k1, k2⟩
    exact ⟨.out, [], ⟨h.rep, h.size, h.hcfg, h.hopn, ⟨rfl, .inr (.inl ⟨k1, k2, by simp [note, hl]⟩)⟩, h.sent, h.taken, h.shown, h.oob, h.pieces⟩, .inr rfl⟩

theorem rests (rmem wmem : List Byte) (sched : List (List Hw)) (hc : 400 ≤ wmem.length) {t : Task} (ht : t.timeoutRunning = false)
    {xs : List (Nat × (World → World))} (hx : ∀ x ∈ xs, ∀ w, Others w (x.2 w)) {s : Duff.St World}
    (h : Duff.Calls (text checks) xs (Duff.init 0 t (start (Ser.init rmem wmem sched) cfg opn)) s) :
    Rests checks cfg opn wmem.length s.user := by
  obtain ⟨h, h1, h2, _⟩ := (Props.Thread.C83_thread (body_good checks) ht xs _ _ _).1 ⟨s, h, rfl, rfl⟩
  rw [← h2]
  have h0 : Knows checks cfg opn wmem.length .out [] (start (Ser.init rmem wmem sched) cfg opn) :=
    ⟨⟨_, _, Ser.rep_init _ _ _⟩, rfl, rfl, rfl, ⟨rfl, .inl rfl⟩, rfl, rfl, rfl, rfl, by simp⟩
  refine turns_sound (body_tri hc) ?_ ?_ h1 hx ⟨_, _, h0⟩ ?_
  · rintro u v ⟨st, ps, h, he⟩ r; exact ⟨st, ps, h.others r, he⟩
  · rintro u ⟨st, ps, h, _⟩; exact ⟨st, ps, h⟩
  · intro v r
    refine ⟨h0.others r, ?_⟩
    obtain ⟨hs, rfl⟩ := r
    rfl

/-! ### Every call returns -/

theorem condDelay_finitely {σ : Type} (l : Nat) (c : Test σ) (d : σ → Nat) : Duff.Finitely (Wait.expand l (.condDelay c d)) :=
  .seq (.setDelay _) (.seq (.setEntry l) (.seq (.label l) (.ite .ret (.act id))))

theorem delay_finitely {σ : Type} (l : Nat) (d : σ → Nat) : Duff.Finitely (Wait.expand l (.delay d)) :=
  .seq (.setDelay _) (.seq (.setEntry l) (.seq .ret (.label l)))

/-- Each round of the loop comes to `E_REENTER_DELAY`, which returns. -/
theorem loop_finite : Duff.Finite (Prog.expand (.loop (fun w : World => (decide (w.i < 100), w)) (fun w => { w with i := w.i + 1 })
    (.seq (.act send) (.seq (.wait 1 (.condDelay answered fun _ => 100)) (.seq (.act receive) (.wait 2 (.delay fun _ => 500))))))) := by
  intro k hk s
  refine .loop (fun _ => ?_) fun _ => hk _
  refine .back rfl (.back rfl (.back rfl (.back rfl (.back rfl (.back rfl (.back rfl (.back rfl ?_)))))))
  refine .back rfl ?_
  refine .ite (fun _ => .back rfl (.nil _)) fun _ => ?_
  exact .back rfl (.back rfl (.back rfl (.back rfl (.back rfl (.back rfl (.back rfl (.back rfl (.back rfl (.nil _)))))))))

theorem text_finitely (checks : Bool) : Duff.Finitely (text checks) := by
  refine .seq (.label 0) (.seq (.ite (.ite (.seq (.seq (.act _) (.loop loop_finite ?_)) (.act _)) (.act _)) (.act _)) (.setEntry 3))
  exact .seq (.act _) (.seq (condDelay_finitely _ _ _) (.seq (.act _) (delay_finitely _ _)))

theorem returns (checks : Bool) (t : Nat) (s : Duff.St World) : ∃ s', Duff.Call (text checks) t s s' := (text_finitely checks).call t s

/-! ### With the scheduler -/

theorem others_refl (u : World) : Others u u := ⟨[], rfl⟩

theorem others_jump {u v : World} (h : Others u v) (w : World) : Others w (Program.jump u v w) := by
  unfold Program.jump
  split
  · rename_i e; rw [e]; exact h
  · exact others_refl w

theorem others_more {u v : World} (h : Others u v) (x : Hw) : Others u { v with ser := v.ser.transfer x } := by
  obtain ⟨hs, rfl⟩ := h
  exact ⟨hs ++ [x], by simp [Ser.transfers]⟩

/-! ### How a call ends -/

/-- What is left to do comes to an end, and then `Q` holds. -/
def Into (Q : Duff.St World → Prop) (k : List (Duff.Frame World)) (s : Duff.St World) : Prop := ∃ n s', Duff.steps n (k, s) = ([], s') ∧ Q s'

theorem Into.nil {Q : Duff.St World → Prop} {s : Duff.St World} (h : Q s) : Into Q [] s := ⟨0, s, rfl, h⟩

theorem Into.back {Q : Duff.St World → Prop} {k k' : List (Duff.Frame World)} {s s' : Duff.St World} (e : Duff.step (k, s) = (k', s'))
    (h : Into Q k' s') : Into Q k s := by
  obtain ⟨n, t, h, q⟩ := h
  exact ⟨n + 1, t, by show Duff.steps n (Duff.step (k, s)) = _; rw [e]; exact h, q⟩

theorem Into.ite {Q : Duff.St World → Prop} {c : Task → Test World} {a b : Duff.Raw World} {k : List (Duff.Frame World)} {s : Duff.St World}
    (h1 : Into Q (.run a :: k) { s with user := (c s.task s.user).2 }) (h2 : Into Q (.run b :: k) { s with user := (c s.task s.user).2 }) :
    Into Q (.run (.ite c a b) :: k) s := by
  refine .back (k' := .run (if (c s.task s.user).1 then a else b) :: k) (s' := { s with user := (c s.task s.user).2 }) rfl ?_
  cases (c s.task s.user).1
  · exact h2
  · exact h1

theorem Into.loop {Q : Duff.St World → Prop} {c : Test World} {inc : World → World} {b : Duff.Raw World} {k : List (Duff.Frame World)}
    {s : Duff.St World} (h1 : Into Q (.run b :: .again c inc b :: k) { s with user := (c s.user).2 })
    (h2 : Into Q k { s with user := (c s.user).2 }) : Into Q (.run (.loop c inc b) :: k) s := by
  refine .back (k' := if (c s.user).1 then .run b :: .again c inc b :: k else k) (s' := { s with user := (c s.user).2 }) rfl ?_
  cases (c s.user).1
  · exact h2
  · exact h1

/-- Where the task rests, with the delay and what it did last. -/
def Phase (s : Duff.St World) : Prop :=
  (s.entry = 2 ∧ s.task.delay = 500 ∧ ∃ l bs, s.user.log = l ++ [.got bs]) ∨
  (s.entry = 1 ∧ s.task.delay = 100 ∧ ∃ l n, s.user.log = l ++ [.wrote n]) ∨
  (s.entry = 3 ∧ ∃ l, s.user.log = l ++ [.closed] ∨ s.user.log = l ++ [.exit])

/-- After a call at tick `t` with the calls `l` before. -/
def After (t : Nat) (l : List Ev) (new : Bool) (s : Duff.St World) : Prop :=
  s.task.lastRun = t ∧ (∃ a, s.user.log = l ++ a ∧ (new = true → a ≠ [])) ∧ Phase s

/-- The loop with what follows it. -/
def again (b : Duff.Raw World) : List (Duff.Frame World) :=
  [.again (fun w => (decide (w.i < 100), w)) (fun w => { w with i := w.i + 1 }) b, .run (.act (note .closed)), .run (.setEntry 3)]

/-- The body of the loop. -/
def inner : Duff.Raw World :=
  Prog.expand (.seq (.act send) (.seq (.wait 1 (.condDelay answered fun _ => 100)) (.seq (.act receive) (.wait 2 (.delay fun _ => 500)))))

theorem read_into {t : Nat} {l : List Ev} {new : Bool} {k : List (Duff.Frame World)} {s : Duff.St World} (ht : s.task.lastRun = t)
    (hl : ∃ a, s.user.log = l ++ a) :
    Into (After t l new) (.run (Prog.expand (.seq (.act receive) (.wait 2 (.delay fun _ => 500)))) :: k) s := by
  refine .back rfl (.back rfl (.back rfl (.back rfl (.back rfl (.back rfl (.back rfl (.back rfl (.nil ?_))))))))
  obtain ⟨a, ha⟩ := hl
  refine ⟨ht, ⟨a ++ [.got (s.user.ser.read 31).2], by simp [receive, ha], by simp⟩, .inl ⟨rfl, rfl, s.user.log, _, rfl⟩⟩

theorem wait_into {t : Nat} {l : List Ev} {new : Bool} {k : List (Duff.Frame World)} {s : Duff.St World} (ht : s.task.lastRun = t)
    (hl : ∃ a, s.user.log = l ++ a ∧ (new = true → a ≠ [])) (he : s.entry = 1) (hd : s.task.delay = 100)
    (hw : ∃ l n, s.user.log = l ++ [.wrote n]) :
    Into (After t l new) (.run (.unless answered) :: .run (Prog.expand (.seq (.act receive) (.wait 2 (.delay fun _ => 500)))) :: k) s := by
  refine .ite (.back rfl (.nil ⟨ht, hl, .inr (.inl ⟨he, hd, hw⟩)⟩)) (.back rfl (read_into ht ?_))
  obtain ⟨a, h, _⟩ := hl
  exact ⟨a, h⟩

theorem loop_into {t : Nat} {l : List Ev} {s : Duff.St World} (ht : s.task.lastRun = t) (hl : ∃ a, s.user.log = l ++ a) :
    Into (After t l true) (.run (.loop (fun w => (decide (w.i < 100), w)) (fun w => { w with i := w.i + 1 }) inner) ::
      [.run (.act (note .closed)), .run (.setEntry 3)]) s := by
  obtain ⟨a, ha⟩ := hl
  refine .loop ?_ (.back rfl (.back rfl (.nil ?_)))
  · refine .back rfl (.back rfl (.back rfl (.back rfl (.back rfl (.back rfl (.back rfl (.back rfl (.back rfl (wait_into ht ?_ rfl rfl ?_)))))))))
    · exact ⟨a ++ [.wrote (s.user.ser.write command).2], by simp [send, ha], by simp⟩
    · exact ⟨s.user.log, _, rfl⟩
  · exact ⟨ht, ⟨a ++ [.closed], by simp [note, ha], by simp⟩, .inr (.inr ⟨rfl, s.user.log, .inl rfl⟩)⟩

theorem Into.call {Q : Duff.St World → Prop} {t : Nat} {s s' : Duff.St World}
    (h : Into Q ((Duff.find s.entry (text checks) []).getD []) { s with task := s.task.setLastRun t }) (hc : Duff.Call (text checks) t s s') :
    Q s' := by
  obtain ⟨n, x, h1, h2⟩ := h
  obtain ⟨m, h3⟩ := hc
  rw [Duff.steps_det h3 h1]
  exact h2

/-- A call, whatever the point at which the task rests. -/
theorem call_after {t : Nat} {s s' : Duff.St World} (hp : s.entry = 0 ∨ Phase s) (hc : Duff.Call (text checks) t s s') :
    After t s.user.log (decide (s.entry = 2)) s' := by
  obtain ⟨task, entry, user⟩ := s
  rcases hp with h | ⟨h, hd, hl⟩ | ⟨h, hd, hl⟩ | ⟨h, hl⟩
  · simp only at h; subst h
    refine Into.call ?_ hc
    refine .back rfl (.ite (.ite (.back rfl (.back rfl (.back rfl ?_))) (.back rfl (.back rfl (.nil ?_)))) (.back rfl (.back rfl (.nil ?_))))
    · obtain ⟨n, x, h1, h2, ⟨a, h3, _⟩, h4⟩ := loop_into (t := t) (l := user.log)
        (s := ⟨task.setLastRun t, 0, { (opens checks (config checks user).2).2 with i := 0 }⟩) rfl ⟨_, List.append_assoc _ _ _⟩
      exact ⟨n, x, h1, h2, ⟨a, h3, fun h => (by cases h)⟩, h4⟩
    · exact ⟨rfl, ⟨[.config user.cfg, .opened user.opn, .exit], by simp [note, opens, config], by simp⟩, .inr (.inr ⟨rfl, _, .inr rfl⟩)⟩
    · exact ⟨rfl, ⟨[.config user.cfg, .exit], by simp [note, config], by simp⟩, .inr (.inr ⟨rfl, _, .inr rfl⟩)⟩
  · simp only at h; subst h
    refine Into.call ?_ hc
    exact .back rfl (loop_into rfl ⟨[], by simp⟩)
  · simp only at h; subst h
    refine Into.call ?_ hc
    exact wait_into rfl ⟨[], by simp, by simp⟩ rfl hd hl
  · simp only at h; subst h
    refine Into.call ?_ hc
    exact .nil ⟨rfl, ⟨[], by simp, by simp⟩, .inr (.inr ⟨rfl, hl⟩)⟩

theorem phase_others {s : Duff.St World} {v : World} (r : Others s.user v) (h : s.entry = 0 ∨ Phase s) :
    s.entry = 0 ∨ Phase { s with user := v } := by
  obtain ⟨hs, rfl⟩ := r
  exact h

theorem calls_phase {xs : List (Nat × (World → World))} {s s' : Duff.St World} (h : s.entry = 0 ∨ Phase s)
    (hx : ∀ x ∈ xs, ∀ w, Others w (x.2 w)) (hc : Duff.Calls (text checks) xs s s') : s'.entry = 0 ∨ Phase s' := by
  induction hc with
  | nil => exact h
  | @cons t g xs s s1 s2 c _ ih =>
    refine ih (.inr (call_after (s := { s with user := g s.user }) (phase_others (s := s) (hx _ (List.mem_cons_self ..) s.user) h) c).2.2) fun x hx' => hx x (List.mem_cons_of_mem _ hx')

/-- The state of the whole program between two calls of `runTask()`. -/
structure Going (w0 : World) (t : Task) (s : Sched Main) : Prop where
  cur : s.cur ≤ 1
  ub : s.ub = false
  state : ∃ t0 t1 xs st, s.tasks = [t0, t1] ∧ (∀ x ∈ xs, ∀ w, Others w (x.2 w)) ∧
    Duff.Calls (text true) xs (Duff.init 0 t w0) st ∧ st.task = t0 ∧ st.entry = s.world.entry ∧ Others st.user s.world.user

theorem Going.next {body : Bodies Main} (hb : Bodied body) {w0 : World} {t : Task} {s : Sched Main} (h : Going w0 t s) (tick : Nat) :
    Going w0 t (Sched.runTask body s tick).1 := by
  obtain ⟨tasks, cur, world, ub⟩ := s
  obtain ⟨hc, hu, t0, t1, xs, st, ht, hx, hcalls, e1, e2, hbt⟩ := h
  simp only at ht hc hu e2 hbt
  subst ht hu
  match cur, hc with
  | 0, _ =>
    by_cases hdue : Sched.due t0 tick = true
    · obtain ⟨s', h1, h2⟩ := hb.task world (t0.setLastRun tick) [t1]
      have e : Sched.runTask body ⟨[t0, t1], 0, world, false⟩ tick =
          (⟨[s'.task, t1], 1, { world with entry := s'.entry, user := s'.user }, false⟩,
            some { idx := 0, tick := tick, delay := t0.delay, last := t0.lastRun, ran := true }) := by
        simp only [Sched.runTask, List.getElem?_cons_zero, hdue, if_true, List.set_cons_zero, h2]
        rfl
      rw [e]
      refine ⟨by show 1 ≤ 1; omega, rfl, s'.task, t1, xs ++ [(tick, Program.jump st.user world.user)], s', rfl, ?_, ?_, rfl, rfl, others_refl _⟩
      · intro x hx'
        rcases List.mem_append.mp hx' with q | q
        · exact hx x q
        · rw [List.mem_singleton.mp q]; exact fun w => others_jump hbt w
      · refine hcalls.snoc ?_
        rw [Program.jump_at]
        obtain ⟨n, h1⟩ := h1
        refine ⟨n, ?_⟩
        obtain ⟨tk, en, us⟩ := st
        simp only at e1 e2
        subst e1 e2
        exact h1
    · simp only [Bool.not_eq_true] at hdue
      have e : Sched.runTask body ⟨[t0, t1], 0, world, false⟩ tick = (⟨[t0, t1], 1, world, false⟩,
          some { idx := 0, tick := tick, delay := t0.delay, last := t0.lastRun, ran := false }) := by
        simp only [Sched.runTask, List.getElem?_cons_zero, hdue]
        rfl
      rw [e]
      exact ⟨by show 1 ≤ 1; omega, rfl, t0, t1, xs, st, rfl, hx, hcalls, e1, e2, hbt⟩
  | 1, _ =>
    by_cases hdue : Sched.due t1 tick = true
    · have e : Sched.runTask body ⟨[t0, t1], 1, world, false⟩ tick =
          (⟨[t0, t1.setLastRun tick], 0,
            { world with user := { world.user with ser := world.user.ser.transfer (world.feed world.n) }, n := world.n + 1 }, false⟩,
          some { idx := 1, tick := tick, delay := t1.delay, last := t1.lastRun, ran := true }) := by
        simp only [Sched.runTask, List.getElem?_cons_succ, List.getElem?_cons_zero, hdue, if_true, List.set_cons_succ, List.set_cons_zero,
          hb.serial]
        rfl
      rw [e]
      exact ⟨by show 0 ≤ 1; omega, rfl, t0, _, xs, st, rfl, hx, hcalls, e1, e2, others_more hbt _⟩
    · simp only [Bool.not_eq_true] at hdue
      have e : Sched.runTask body ⟨[t0, t1], 1, world, false⟩ tick = (⟨[t0, t1], 0, world, false⟩,
          some { idx := 1, tick := tick, delay := t1.delay, last := t1.lastRun, ran := false }) := by
        simp only [Sched.runTask, List.getElem?_cons_succ, List.getElem?_cons_zero, hdue]
        rfl
      rw [e]
      exact ⟨by show 0 ≤ 1; omega, rfl, t0, t1, xs, st, rfl, hx, hcalls, e1, e2, hbt⟩

theorem Going.all {body : Bodies Main} (hb : Bodied body) {w0 : World} {t : Task} {s : Sched Main} (h : Going w0 t s) (ticks : List Nat) :
    Going w0 t (Sched.runTasks body s ticks).1 := by
  induction ticks generalizing s with
  | nil => exact h
  | cons tick ticks ih => exact ih (h.next hb tick)

theorem Going.init (rmem wmem : List Byte) (junk : Nat) (cfg opn : Bool) (feed : Nat → Hw) :
    Going (start (Ser.init rmem wmem []) cfg opn) (Task.init 0 junk) (main rmem wmem junk cfg opn feed) :=
  ⟨Nat.zero_le _, rfl, _, _, [], _, rfl, fun x hx => (by cases hx), .nil, rfl, rfl, others_refl _⟩

/-- The pause: the answer was read at tick `a`, and nothing has happened since. -/
structure Pause (a : Nat) (l : List Ev) (s : Sched Main) : Prop where
  cur : s.cur ≤ 1
  log : s.world.user.log = l
  got : ∃ k bs, l = k ++ [.got bs]
  tasks : ∃ t0 t1, s.tasks = [t0, t1] ∧ t0.lastRun = a ∧ t0.delay = 500 ∧ s.world.entry = 2

/-- A turn of the scheduler in the pause: it goes on, or at least 500 ms have passed. -/
theorem Pause.next {body : Bodies Main} (hb : Bodied body) {a : Nat} {l : List Ev} {s : Sched Main} (h : Pause a l s) (tick : Nat) :
    Pause a l (Sched.runTask body s tick).1 ∨
      (sub32 tick a ≥ 500 ∧ ∃ e, e ≠ [] ∧ (Sched.runTask body s tick).1.world.user.log = l ++ e) := by
  obtain ⟨tasks, cur, world, ub⟩ := s
  obtain ⟨hc, hl, hg, t0, t1, ht, hr, hd, he⟩ := h
  simp only at ht hc hl he
  subst ht
  match cur, hc with
  | 0, _ =>
    by_cases hdue : Sched.due t0 tick = true
    · right
      obtain ⟨s', h1, h2⟩ := hb.task world (t0.setLastRun tick) [t1]
      have e : (Sched.runTask body ⟨[t0, t1], 0, world, ub⟩ tick).1 =
          ⟨[s'.task, t1], 1, { world with entry := s'.entry, user := s'.user }, ub⟩ := by
        simp only [Sched.runTask, List.getElem?_cons_zero, hdue, if_true, List.set_cons_zero, h2]
        rfl
      rw [e]
      obtain ⟨k, bs, hg⟩ := hg
      have := call_after (.inr (.inl ⟨he, hd, k, bs, hl.trans hg⟩)) h1
      obtain ⟨_, ⟨x, hx, hn⟩, _⟩ := this
      refine ⟨?_, x, hn (by simp [he]), by rw [← hl]; exact hx⟩
      simp only [Sched.due, hd, Bool.or_eq_true, beq_iff_eq, decide_eq_true_eq, hr] at hdue
      omega
    · left
      simp only [Bool.not_eq_true] at hdue
      have e : (Sched.runTask body ⟨[t0, t1], 0, world, ub⟩ tick).1 = ⟨[t0, t1], 1, world, ub⟩ := by
        simp only [Sched.runTask, List.getElem?_cons_zero, hdue]
        rfl
      rw [e]
      exact ⟨by show 1 ≤ 1; omega, hl, hg, t0, t1, rfl, hr, hd, he⟩
  | 1, _ =>
    left
    by_cases hdue : Sched.due t1 tick = true
    · have e : (Sched.runTask body ⟨[t0, t1], 1, world, ub⟩ tick).1 =
          ⟨[t0, t1.setLastRun tick], 0,
            { world with user := { world.user with ser := world.user.ser.transfer (world.feed world.n) }, n := world.n + 1 }, ub⟩ := by
        simp only [Sched.runTask, List.getElem?_cons_succ, List.getElem?_cons_zero, hdue, if_true, List.set_cons_succ, List.set_cons_zero,
          hb.serial]
        rfl
      rw [e]
      exact ⟨by show 0 ≤ 1; omega, hl, hg, t0, _, rfl, hr, hd, he⟩
    · simp only [Bool.not_eq_true] at hdue
      have e : (Sched.runTask body ⟨[t0, t1], 1, world, ub⟩ tick).1 = ⟨[t0, t1], 0, world, ub⟩ := by
        simp only [Sched.runTask, List.getElem?_cons_succ, List.getElem?_cons_zero, hdue]
        rfl
      rw [e]
      exact ⟨by show 0 ≤ 1; omega, hl, hg, t0, t1, rfl, hr, hd, he⟩

/-- The turn in which an answer is read begins the pause. -/
theorem Going.pause {body : Bodies Main} (hb : Bodied body) {w0 : World} {t : Task} {s : Sched Main} (h : Going w0 t s) (a : Nat)
    {bs : List Byte} {l : List Ev} (hl : (Sched.runTask body s a).1.world.user.log = l ++ [.got bs])
    (hn : (Sched.runTask body s a).1.world.user.log ≠ s.world.user.log) : Pause a (l ++ [.got bs]) (Sched.runTask body s a).1 := by
  have hc := (h.next hb a).cur
  obtain ⟨tasks, cur, world, ub⟩ := s
  obtain ⟨hcur, hu, t0, t1, xs, st, ht, hx, hcalls, e1, e2, hbt⟩ := h
  simp only at ht hcur hu e2 hbt
  subst ht hu
  match cur, hcur with
  | 0, _ =>
    by_cases hdue : Sched.due t0 a = true
    · obtain ⟨s', h1, h2⟩ := hb.task world (t0.setLastRun a) [t1]
      have e : (Sched.runTask body ⟨[t0, t1], 0, world, false⟩ a).1 =
          ⟨[s'.task, t1], 1, { world with entry := s'.entry, user := s'.user }, false⟩ := by
        simp only [Sched.runTask, List.getElem?_cons_zero, hdue, if_true, List.set_cons_zero, h2]
        rfl
      rw [e] at hl hc ⊢
      have hp := phase_others hbt (calls_phase (.inl rfl) hx hcalls)
      obtain ⟨tk, en, us⟩ := st
      simp only at e1 e2 hp
      subst e1 e2
      obtain ⟨k1, k2, k3⟩ := call_after (s := ⟨tk.setLastRun a, world.entry, world.user⟩) hp h1
      have hl : s'.user.log = l ++ [.got bs] := hl
      rcases k3 with ⟨q1, q2, _⟩ | ⟨_, _, m, n, q⟩ | ⟨_, m, q | q⟩
      · exact ⟨hc, hl, ⟨l, bs, rfl⟩, _, _, rfl, k1, q2, q1⟩
      all_goals
        rw [hl] at q
        have := (List.append_inj' q rfl).2
        simp at this
    · simp only [Bool.not_eq_true] at hdue
      have e : (Sched.runTask body ⟨[t0, t1], 0, world, false⟩ a).1 = ⟨[t0, t1], 1, world, false⟩ := by
        simp only [Sched.runTask, List.getElem?_cons_zero, hdue]
        rfl
      rw [e] at hn
      exact absurd rfl hn
  | 1, _ =>
    refine absurd ?_ hn
    by_cases hdue : Sched.due t1 a = true
    · simp only [Sched.runTask, List.getElem?_cons_succ, List.getElem?_cons_zero, hdue, if_true, List.set_cons_succ, List.set_cons_zero,
        hb.serial]
    · simp only [Bool.not_eq_true] at hdue
      simp only [Sched.runTask, List.getElem?_cons_succ, List.getElem?_cons_zero, hdue]
      rfl

/-- What was done stays done. -/
theorem Going.grows {body : Bodies Main} (hb : Bodied body) {w0 : World} {t : Task} {s : Sched Main} (h : Going w0 t s) (a : Nat) :
    s.world.user.log <+: (Sched.runTask body s a).1.world.user.log := by
  obtain ⟨tasks, cur, world, ub⟩ := s
  obtain ⟨hcur, hu, t0, t1, xs, st, ht, hx, hcalls, e1, e2, hbt⟩ := h
  simp only at ht hcur hu e2 hbt
  subst ht hu
  match cur, hcur with
  | 0, _ =>
    by_cases hdue : Sched.due t0 a = true
    · obtain ⟨s', h1, h2⟩ := hb.task world (t0.setLastRun a) [t1]
      have e : (Sched.runTask body ⟨[t0, t1], 0, world, false⟩ a).1 =
          ⟨[s'.task, t1], 1, { world with entry := s'.entry, user := s'.user }, false⟩ := by
        simp only [Sched.runTask, List.getElem?_cons_zero, hdue, if_true, List.set_cons_zero, h2]
        rfl
      rw [e]
      have hp := phase_others hbt (calls_phase (.inl rfl) hx hcalls)
      obtain ⟨tk, en, us⟩ := st
      simp only at e1 e2 hp
      subst e1 e2
      obtain ⟨k1, ⟨x, k2, _⟩, k3⟩ := call_after (s := ⟨tk.setLastRun a, world.entry, world.user⟩) hp h1
      exact ⟨x, k2.symm⟩
    · simp only [Bool.not_eq_true] at hdue
      have e : (Sched.runTask body ⟨[t0, t1], 0, world, false⟩ a).1 = ⟨[t0, t1], 1, world, false⟩ := by
        simp only [Sched.runTask, List.getElem?_cons_zero, hdue]
        rfl
      rw [e]
      exact List.prefix_refl _
  | 1, _ =>
    by_cases hdue : Sched.due t1 a = true
    · simp only [Sched.runTask, List.getElem?_cons_succ, List.getElem?_cons_zero, hdue, if_true, List.set_cons_succ, List.set_cons_zero,
        hb.serial]
      exact List.prefix_refl _
    · simp only [Bool.not_eq_true] at hdue
      have e : (Sched.runTask body ⟨[t0, t1], 1, world, false⟩ a).1 = ⟨[t0, t1], 0, world, false⟩ := by
        simp only [Sched.runTask, List.getElem?_cons_succ, List.getElem?_cons_zero, hdue]
        rfl
      rw [e]
      exact List.prefix_refl _

theorem Going.grows_all {body : Bodies Main} (hb : Bodied body) {w0 : World} {t : Task} {s : Sched Main} (h : Going w0 t s) (ticks : List Nat) :
    s.world.user.log <+: (Sched.runTasks body s ticks).1.world.user.log := by
  induction ticks generalizing s with
  | nil => exact List.prefix_refl _
  | cons a ticks ih => exact (h.grows hb a).trans (ih (h.next hb a))

/-- The pause lasts at least 500 ms. -/
theorem Pause.lasts {body : Bodies Main} (hb : Bodied body) {w0 : World} {t0 : Task} {a : Nat} {l : List Ev} {s : Sched Main}
    (g : Going w0 t0 s) (h : Pause a l s) (ticks : List Nat) (b : Nat) (h1 : (Sched.runTasks body s ticks).1.world.user.log = l)
    (h2 : (Sched.runTask body (Sched.runTasks body s ticks).1 b).1.world.user.log ≠ l) : sub32 b a ≥ 500 := by
  induction ticks generalizing s with
  | nil =>
    rcases h.next hb b with q | q
    · exact absurd q.log h2
    · exact q.1
  | cons t ts ih =>
    rcases h.next hb t with q | ⟨_, e, he, q⟩
    · exact ih (g.next hb t) q h1 h2
    · have := (g.next hb t).grows_all hb ts
      have h1 : (Sched.runTasks body (Sched.runTask body s t).1 ts).1.world.user.log = l := h1
      rw [h1, q] at this
      have := this.length_le
      cases e with
      | nil => exact absurd rfl he
      | cons x e => simp at this; omega

end Verif.SerialTask
