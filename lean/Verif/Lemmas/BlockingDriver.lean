import Verif.Lemmas.BlockingProgram
import Verif.Lemmas.EarlyInv
import Verif.Spec.Receiving

/-!
# The program examples/linux/blocking.cpp: the driver in it
-/

namespace Verif

/-! ## Invariants of the blocking calls -/

namespace Blocking

variable {σ : Type}

/-- Preserved by all that the blocking calls do. -/
structure Closed (d : BDev σ) (I : σ → Prop) : Prop where
  tick : ∀ s, I s → I (d.tick s).2
  read : ∀ s n, I s → I (d.read s n).2
  space : ∀ s, I s → I (d.space s).2
  write : ∀ s bs, I s → I (d.write s bs).2
  processed : ∀ s, I s → I (d.processed s).2
  yield : ∀ s, I s → I (d.yield s)

variable {d : BDev σ} {I : σ → Prop}

theorem Closed.readLoop (c : Closed d I) {t0 : Nat} {T : Int} {out : List Byte} {s' : σ} : ∀ (fuel : Nat) (len : Int) (got : List Byte) (s : σ),
    I s → Blocking.readLoop d t0 T fuel len got s = some (out, s') → I s' := by
  intro fuel
  induction fuel with
  | zero =>
    intro len got s hs h
    unfold Blocking.readLoop at h
    split at h
    · obtain ⟨_, rfl⟩ := Prod.mk.inj (Option.some.inj h)
      exact hs
    · cases h
  | succ fuel ih =>
    intro len got s hs h
    unfold Blocking.readLoop at h
    split at h
    · obtain ⟨_, rfl⟩ := Prod.mk.inj (Option.some.inj h)
      exact hs
    · dsimp only at h
      split at h
      · obtain ⟨_, rfl⟩ := Prod.mk.inj (Option.some.inj h)
        exact c.tick s hs
      · exact ih _ _ _ (c.yield _ (c.read _ _ (c.tick _ hs))) h

theorem Closed.spaceLoop (c : Closed d I) {t0 : Nat} {T len : Int} {b : Bool} {s' : σ} : ∀ (fuel : Nat) (s : σ),
    I s → Blocking.spaceLoop d t0 T len fuel s = some (b, s') → I s' := by
  intro fuel
  induction fuel with
  | zero => intro s _ h; cases h
  | succ fuel ih =>
    intro s hs h
    unfold Blocking.spaceLoop at h
    dsimp only at h
    split at h
    · split at h
      · obtain ⟨_, rfl⟩ := Prod.mk.inj (Option.some.inj h)
        exact c.tick _ (c.space _ hs)
      · exact ih _ (c.yield _ (c.tick _ (c.space _ hs))) h
    · obtain ⟨_, rfl⟩ := Prod.mk.inj (Option.some.inj h)
      exact c.space _ hs

theorem Closed.doneLoop (c : Closed d I) {t0 : Nat} {T : Int} {b : Bool} {s' : σ} : ∀ (fuel : Nat) (s : σ),
    I s → Blocking.doneLoop d t0 T fuel s = some (b, s') → I s' := by
  intro fuel
  induction fuel with
  | zero => intro s _ h; cases h
  | succ fuel ih =>
    intro s hs h
    unfold Blocking.doneLoop at h
    dsimp only at h
    split at h
    · split at h
      · obtain ⟨_, rfl⟩ := Prod.mk.inj (Option.some.inj h)
        exact c.tick _ (c.processed _ hs)
      · exact ih _ (c.yield _ (c.tick _ (c.processed _ hs))) h
    · obtain ⟨_, rfl⟩ := Prod.mk.inj (Option.some.inj h)
      exact c.processed _ hs

theorem Closed.readCall (c : Closed d I) {T len : Int} {fuel : Nat} {out : List Byte} {s s' : σ} (hs : I s)
    (h : Blocking.read d fuel s len T = some (out, s')) : I s' :=
  c.readLoop _ _ _ _ (c.tick _ hs) h

theorem Closed.writeCall (c : Closed d I) {T : Int} {fuel n : Nat} {bs : List Byte} {s s' : σ} (hs : I s)
    (h : Blocking.write d fuel s bs T = some (n, s')) : I s' := by
  unfold Blocking.write at h
  dsimp only at h
  split at h
  · cases h
  · rename_i u hu
    obtain ⟨_, rfl⟩ := Prod.mk.inj (Option.some.inj h)
    exact c.spaceLoop _ _ (c.tick _ hs) hu
  · rename_i u hu
    have h1 := c.write _ bs (c.spaceLoop _ _ (c.tick _ hs) hu)
    split at h
    · cases h
    · rename_i v hv
      obtain ⟨_, rfl⟩ := Prod.mk.inj (Option.some.inj h)
      exact c.doneLoop _ _ h1 hv
    · rename_i v hv
      obtain ⟨_, rfl⟩ := Prod.mk.inj (Option.some.inj h)
      exact c.doneLoop _ _ h1 hv

end Blocking

open Dev Spec

variable {S R X : Type}

/-! ## What the driver's own code leaves alone -/

/-- Not a call of `read()` or `resetStates()`. -/
def notRead : Ev → Bool
  | .apiRead _ | .apiReset => false
  | _ => true

theorem delivered_notRead {t new : List Ev} (h : new.all notRead = true) : delivered.after (t ++ new) = delivered.after t := by
  refine Observer.after_neutral _ _ _ fun e he s => ?_
  have := List.all_eq_true.mp h e he
  cases e <;> first | rfl | (exact absurd this (by simp [notRead]))

theorem Dev.Eff.notRead {x : List Byte → Byte → Prop} {st : Bool} {d e : Dev S R X} (h : Eff x st d e) :
    ∃ new, e.trace = d.trace ++ new ∧ new.all notRead = true := by
  induction h with
  | ctl h => exact ⟨[], by simp [h.trace], rfl⟩
  | cmd d s => exact ⟨[.cmd s _], rfl, rfl⟩
  | arg d s => exact ⟨[.arg s _], rfl, rfl⟩
  | cmdN d s => exact ⟨[.cmd s _], rfl, rfl⟩
  | argN d s => exact ⟨[.arg s _], rfl, rfl⟩
  | askSpace d => exact ⟨[], by simp, rfl⟩
  | askAvail d => exact ⟨[], by simp, rfl⟩
  | flushSer d => exact ⟨[.flush], rfl, rfl⟩
  | flushReadBuffer d _ => exact ⟨[.drop _], rfl, rfl⟩
  | sendData d => exact ⟨[.pay _], rfl, rfl⟩
  | receive d _ =>
    unfold Dev.receive
    split
    · exact ⟨[.data _], rfl, rfl⟩
    · exact ⟨[], by simp, rfl⟩
  | fillLine d stop _ =>
    unfold Dev.fillLine
    split
    · dsimp only
      split
      · exact ⟨[], by simp, rfl⟩
      · exact ⟨[.line _], rfl, rfl⟩
    · exact ⟨[], by simp, rfl⟩
  | trans _ _ ih1 ih2 =>
    obtain ⟨a, h1, h2⟩ := ih1
    obtain ⟨b, h3, h4⟩ := ih2
    exact ⟨a ++ b, by rw [h3, h1, List.append_assoc], by rw [List.all_append, h2, h4]; rfl⟩

/-! ## A modem that says nothing -/

/-- Nothing was received, and nothing will be received during a call. -/
structure Mute (s : Ser) : Prop where
  rx : s.rx.ring.bytesAvailable = 0
  sched : s.sched = []

namespace Mute

theorem sync {s : Ser} (h : Mute s) : s.sync = s := by
  unfold Ser.sync
  rw [h.sched]
  split <;> rfl

theorem avail {s : Ser} (h : Mute s) : Mute s.bytesAvailable.1 ∧ s.bytesAvailable.2 = 0 := by
  unfold Ser.bytesAvailable
  rw [h.sync]
  exact ⟨⟨h.rx, h.sched⟩, h.rx⟩

theorem space {s : Ser} (h : Mute s) : Mute s.spaceAvailable.1 := by
  unfold Ser.spaceAvailable
  rw [h.sync]
  exact ⟨h.rx, h.sched⟩

theorem copy {s : Ser} (h : Mute s) (c : Byte) : Mute (s.copyToBuffer c) := by
  unfold Ser.copyToBuffer
  rw [h.sync]
  exact ⟨h.rx, h.sched⟩

theorem loop {s : Ser} (h : Mute s) (cs : List Byte) : Mute (s.writeLoop cs) := by
  induction cs generalizing s with
  | nil => exact h
  | cons c cs ih => exact ih (h.copy c)

theorem strLoop {s : Ser} (h : Mute s) (sp n : Nat) (cs : List Byte) : Mute (s.writeStrLoop sp n cs).1 := by
  induction cs generalizing s n with
  | nil => exact h
  | cons c cs ih =>
    unfold Ser.writeStrLoop
    split
    · exact ih (h.copy c) _
    · exact h

theorem writeStr {s : Ser} (h : Mute s) (cs : List Byte) : Mute (s.writeStr cs).1 := h.space.strLoop _ _ _

theorem write {s : Ser} (h : Mute s) (cs : List Byte) : Mute (s.write cs).1 := h.space.loop _

theorem flush {s : Ser} (h : Mute s) : Mute s.flushReceiveBuffers := by
  unfold Ser.flushReceiveBuffers
  rw [h.sync]
  exact ⟨rfl, h.sched⟩

theorem transfer {s : Ser} (h : Mute s) {w : Hw} (hw : w.rx = none) : Mute (s.transfer w) := by
  unfold Ser.transfer
  rw [hw]
  show Mute (s.transferTx w.txOk)
  unfold Ser.transferTx
  split
  · dsimp only
    split <;> exact ⟨h.rx, h.sched⟩
  · exact h

end Mute

/-- The driver has not heard a line. -/
structure Unheard (d : Dev S R X) : Prop where
  mute : Mute d.ser
  lines : ∀ l, Ev.line l ∉ d.trace

theorem Unheard.more {d e : Dev S R X} (h : Unheard d) (hm : Mute e.ser) (new : List Ev) (ht : e.trace = d.trace ++ new)
    (hn : ∀ l, Ev.line l ∉ new) : Unheard e :=
  ⟨hm, fun l hl => by
    rw [ht, List.mem_append] at hl
    exact hl.elim (h.lines l) (hn l)⟩

theorem Dev.Eff.unheard {x : List Byte → Byte → Prop} {st : Bool} {d e : Dev S R X} (h : Eff x st d e) (hd : Unheard d) : Unheard e := by
  induction h with
  | ctl h => exact hd.more (by rw [h.ser]; exact hd.mute) [] (by simp [h.trace]) (by simp)
  | cmd d s => exact hd.more (hd.mute.writeStr _) [.cmd s _] rfl (by simp)
  | arg d s => exact hd.more (hd.mute.writeStr _) [.arg s _] rfl (by simp)
  | cmdN d s => exact hd.more (hd.mute.write _) [.cmd s _] rfl (by simp)
  | argN d s => exact hd.more (hd.mute.write _) [.arg s _] rfl (by simp)
  | askSpace d => exact hd.more hd.mute.space [] (by simp) (by simp)
  | askAvail d => exact hd.more hd.mute.avail.1 [] (by simp) (by simp)
  | flushSer d => exact hd.more hd.mute.flush [.flush] rfl (by simp)
  | flushReadBuffer d _ =>
    refine hd.more ?_ [.drop _] rfl (by simp)
    show Mute (flushLoop d.ser d.bytesToRead).1
    cases d.bytesToRead with
    | zero => exact hd.mute
    | succ n =>
      unfold Dev.flushLoop
      dsimp only
      rw [if_pos hd.mute.avail.2]
      exact hd.mute.avail.1
  | sendData d => exact hd.more (hd.mute.loop _) [.pay _] rfl (by simp)
  | receive d _ =>
    unfold Dev.receive
    split
    · rename_i hb
      have h0 : d.bytesToRead = 0 := by
        have := hd.mute.avail.2
        unfold Dev.serAvail at hb
        omega
      refine hd.more ?_ [.data _] rfl (by simp)
      show Mute (Ser.readLoop d.askAvail.ser d.askAvail.bytesToRead).1
      rw [show d.askAvail.bytesToRead = 0 from h0]
      exact hd.mute.avail.1
    · exact hd.more hd.mute.avail.1 [] (by simp) (by simp)
  | fillLine d stop _ =>
    unfold Dev.fillLine
    split
    · have e : fillLoop stop (lineMax - d.lbFill) d.ser d.line d.lbFill = (d.ser.bytesAvailable.1, d.line, d.lbFill, none) ∨
          fillLoop stop (lineMax - d.lbFill) d.ser d.line d.lbFill = (d.ser, d.line, d.lbFill, none) := by
        cases lineMax - d.lbFill with
        | zero => exact .inr rfl
        | succ n =>
          left
          unfold Dev.fillLoop
          dsimp only
          rw [if_pos hd.mute.avail.2]
      rcases e with e | e
      · rw [e]
        exact hd.more hd.mute.avail.1 [] (by simp) (by simp)
      · rw [e]
        exact hd.more hd.mute [] (by simp) (by simp)
    · exact hd
  | trans _ _ ih1 ih2 => exact ih2 (ih1 hd)

/-! ## The program -/

namespace BlockingProgram

open Spec.BlockingProgram

variable {p : Platform}

/-- What the scheduler makes of the driver: nothing, a run, or a byte moved in each direction. -/
theorem yield_dev (s : Prog) : (yield p s).world.feed = s.world.feed ∧ ((yield p s).world.dev = s.world.dev ∨
    (∃ ok, (yield p s).world.dev = Sim7x00.step p s.world.dev (.run ok)) ∨
      ∃ n, (yield p s).world.dev = Sim7x00.step p s.world.dev (.irq [s.world.feed n])) := by
  unfold yield Sched.runTask
  split
  · exact ⟨rfl, .inl rfl⟩
  · dsimp only
    split
    · dsimp only
      unfold bodies
      split
      · exact ⟨rfl, .inr (.inl ⟨_, rfl⟩)⟩
      · exact ⟨rfl, .inr (.inr ⟨_, rfl⟩)⟩
    · exact ⟨rfl, .inl rfl⟩

/-- The driver is in a state it reaches from `dev`, and its own record of what was read is that of the program. -/
def Reach (p : Platform) (dev : Sim7x00.D) (s : Prog) : Prop :=
  (∃ ops, s.world.dev = exec (Sim7x00.step p) dev ops) ∧ delivered.after s.world.dev.trace = bytes s.world.log

theorem Reach.op {dev : Sim7x00.D} {s t : Prog} (h : Reach p dev s) {op : Op} (hd : t.world.dev = Sim7x00.step p s.world.dev op)
    (hb : delivered.after t.world.dev.trace = bytes t.world.log) : Reach p dev t := by
  obtain ⟨⟨ops, e⟩, _⟩ := h
  exact ⟨⟨ops ++ [op], by rw [hd, e, exec, exec, List.foldl_append]; rfl⟩, hb⟩

theorem Reach.quiet {dev : Sim7x00.D} {s t : Prog} (h : Reach p dev s) {op : Op} (hd : t.world.dev = Sim7x00.step p s.world.dev op)
    (ht : ∃ new, (Sim7x00.step p s.world.dev op).trace = s.world.dev.trace ++ new ∧ new.all notRead = true)
    (hb : bytes t.world.log = bytes s.world.log) : Reach p dev t := by
  obtain ⟨new, h1, h2⟩ := ht
  refine h.op hd ?_
  rw [hd, h1, delivered_notRead h2, hb]
  exact h.2

theorem bytes_append (a b : List Call) : bytes (a ++ b) = bytes a ++ bytes b := by
  unfold bytes
  rw [List.flatMap_append]

theorem reach_yield {dev : Sim7x00.D} {s : Prog} (h : Reach p dev s) : Reach p dev (yield p s) := by
  have hl : bytes (yield p s).world.log = bytes s.world.log := by rw [(keeps_yield s).log]
  obtain ⟨_, e | ⟨ok, e⟩ | ⟨n, e⟩⟩ := yield_dev (p := p) s
  · unfold Reach
    rw [e, hl]
    exact h
  · exact h.quiet e (Dev.Eff.notRead (Sim7x00.eff_run (x := NoHeader) (st := false) p _ ok (by simp))) hl
  · exact h.quiet e ⟨[], by simp [Sim7x00.step, Dev.common], rfl⟩ hl

theorem reach_closed (dev : Sim7x00.D) : Blocking.Closed (bld p) (Reach p dev) where
  tick s h := by
    refine ⟨h.1, ?_⟩
    show delivered.after s.world.dev.trace = bytes (s.world.log ++ [_])
    rw [bytes_append, h.2]
    show _ = _ ++ []
    rw [List.append_nil]
  read s n h := by
    refine h.op (op := .read n) rfl ?_
    show delivered.after (s.world.dev.trace ++ [.apiRead (s.world.dev.read n).2]) = bytes (s.world.log ++ [.read (s.world.dev.read n).2])
    rw [bytes_append, Observer.after_append, show delivered.after s.world.dev.trace = _ from h.2]
    show _ ++ (s.world.dev.read n).2 = _ ++ ((s.world.dev.read n).2 ++ [])
    rw [List.append_nil]
  space _ h := h
  write s bs h := by
    refine h.quiet (op := .write bs) rfl ?_ ?_
    · refine ⟨[.apiWrite (bs.take (s.world.dev.write bs).2)], ?_, rfl⟩
      show (s.world.dev.write bs).1.trace ++ _ = _
      unfold Dev.write
      split <;> rfl
    · show bytes (s.world.log ++ [_]) = _
      rw [bytes_append]
      show _ ++ [] = _
      rw [List.append_nil]
  processed _ h := h
  yield _ h := reach_yield h

theorem reach_await {dev : Sim7x00.D} {cond : Sim7x00.D → Bool} {s' : Prog} : ∀ (fuel : Nat) (s : Prog), Reach p dev s →
    await p cond fuel s = some s' → Reach p dev s' := by
  intro fuel
  induction fuel with
  | zero => intro s _ h; cases h
  | succ fuel ih =>
    intro s hs h
    unfold await at h
    split at h
    · obtain rfl := Option.some.inj h
      exact hs
    · exact ih _ (reach_yield hs) h

theorem reach_readAll {dev : Sim7x00.D} {fuel : Nat} {s' : Prog} : ∀ (k : Nat) (s : Prog), Reach p dev s → readAll p fuel k s = some s' →
    Reach p dev s' := by
  intro k
  induction k with
  | zero => intro s _ h; cases h
  | succ k ih =>
    intro s hs h
    unfold readAll at h
    split at h
    · cases h
    · rename_i bs u hu
      have h0 : Reach p dev u := (reach_closed dev).readCall hs hu
      have h1 : Reach p dev (print u bs) := h0
      split at h
      · obtain rfl := Option.some.inj h
        exact h1
      · exact ih _ h1 h

theorem reach_start {dev : Sim7x00.D} (h0 : delivered.after dev.trace = []) (junk : Nat) (feed : Nat → Hw) (opens : Nat → Bool)
    (clock : Nat → Nat) : Reach p dev (start p dev junk feed opens clock) := by
  refine ⟨⟨[.setApn (some b!"internet"), .setHostPort (some b!"wttr.in") 80 .tcp, .connect], rfl⟩, ?_⟩
  show delivered.after (dev.trace ++ [.apiConnect]) = []
  rw [delivered_notRead rfl, h0]

theorem reach_main {fuel : Nat} {dev : Sim7x00.D} {junk : Nat} {feed : Nat → Hw} {opens : Nat → Bool} {clock : Nat → Nat} {s : Prog}
    (h0 : delivered.after dev.trace = []) (h : main p fuel dev junk feed opens clock = some s) : Reach p dev s := by
  unfold main at h
  split at h
  · cases h
  · rename_i s1 hs1
    have h1 := reach_await _ _ (reach_start h0 junk feed opens clock) hs1
    split at h
    · cases h
    · rename_i n s2 hs2
      have h2 := (reach_closed dev).writeCall h1 hs2
      split at h
      · cases h
      · rename_i s3 hs3
        have h3 := reach_readAll _ _ h2 hs3
        refine reach_await _ _ ?_ h
        refine h3.quiet (op := .disconnect) rfl ⟨[.apiDisconnect], ?_, rfl⟩ ?_
        · show (s3.world.dev.disconnect).trace ++ _ = _
          unfold Dev.disconnect
          split <;> rfl
        · show bytes (s3.world.log ++ [_]) = _
          rw [bytes_append]
          show _ ++ [] = _
          rw [List.append_nil]

/-- The modem has said nothing. -/
def Hush (p : Platform) (dev : Sim7x00.D) (s : Prog) : Prop :=
  (∃ ops, s.world.dev = exec (Sim7x00.step p) dev ops) ∧ Unheard s.world.dev ∧ ∀ n, (s.world.feed n).rx = none

theorem hush_yield {dev : Sim7x00.D} {s : Prog} (h : Hush p dev s) : Hush p dev (yield p s) := by
  obtain ⟨⟨ops, e⟩, hu, hf⟩ := h
  obtain ⟨ef, ed⟩ := yield_dev (p := p) s
  have grow : ∀ op, ∃ ops', Sim7x00.step p s.world.dev op = exec (Sim7x00.step p) dev ops' := fun op =>
    ⟨ops ++ [op], by rw [e, exec, exec, List.foldl_append]; rfl⟩
  unfold Hush
  rw [ef]
  rcases ed with ed | ⟨ok, ed⟩ | ⟨n, ed⟩ <;> rw [ed]
  · exact ⟨⟨ops, e⟩, hu, hf⟩
  · exact ⟨grow _, Dev.Eff.unheard (Sim7x00.eff_run (x := NoHeader) (st := false) p _ ok (by simp)) hu, hf⟩
  · exact ⟨grow _, hu.more (hu.mute.transfer (hf n)) [] (by simp [Sim7x00.step, Dev.common]) (by simp), hf⟩

theorem hush_await {dev : Sim7x00.D} {cond : Sim7x00.D → Bool} (hc : ∀ s, Hush p dev s → cond s.world.dev = false) : ∀ (fuel : Nat) (s : Prog),
    Hush p dev s → await p cond fuel s = none := by
  intro fuel
  induction fuel with
  | zero => intro s _; rfl
  | succ fuel ih =>
    intro s hs
    unfold await
    rw [if_neg (by rw [hc s hs]; simp)]
    exact ih _ (hush_yield hs)

end BlockingProgram
end Verif
