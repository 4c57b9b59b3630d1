import Verif.Spec.BlockingProgram
import Verif.Lemmas.ClientDrv

/-!
# The program examples/linux/blocking.cpp: what its parts do
-/

namespace Verif.BlockingProgram

open Spec.BlockingProgram

variable {p : Platform}

/-- What the program itself recorded is the same. -/
structure Keeps (e f : Env) : Prop where
  log : f.log = e.log
  shown : f.shown = e.shown
  oob : f.oob = e.oob

theorem keeps_body (i : Nat) (e : Env) (ts : List Task) : Keeps e (bodies p i e ts).1 := by
  unfold bodies
  split <;> exact ⟨rfl, rfl, rfl⟩

theorem keeps_yield (s : Prog) : Keeps s.world (yield p s).world := by
  unfold yield Sched.runTask
  split
  · exact ⟨rfl, rfl, rfl⟩
  · dsimp only
    split
    · have h := keeps_body (p := p) (upd s fun e => { e with c := e.c + 1 }).cur (upd s fun e => { e with c := e.c + 1 }).world
        ((upd s fun e => { e with c := e.c + 1 }).tasks.set (upd s fun e => { e with c := e.c + 1 }).cur (Task.setLastRun (by assumption) (s.world.clock s.world.c)))
      exact ⟨h.log, h.shown, h.oob⟩
    · exact ⟨rfl, rfl, rfl⟩

theorem expired_iff (t0 t : Nat) : Blocking.expired t t0 2000 = true ↔ Late t0 t := by
  unfold Blocking.expired Late
  rw [decide_eq_true_iff]
  exact Iff.rfl

theorem expired_false (t0 t : Nat) (h : ¬ Blocking.expired t t0 2000 = true) : ¬ Late t0 t := fun x => h ((expired_iff t0 t).2 x)

theorem read_length (d : Sim7x00.D) (n : Nat) : (d.read n).2.length ≤ n := by
  have h : ((d.read n).2).length = min n d.rbuf.bytesAvailable := Ring.length_pullN n _
  omega

theorem toSize_nat {n : Nat} (h : n ≤ 40) : Blocking.toSize (n : Int) = n := by
  unfold Blocking.toSize
  omega

theorem readLoop_log {t0 : Nat} {out : List Byte} {s' : Prog} : ∀ (fuel n : Nat), n ≤ 40 → ∀ (got : List Byte) (s : Prog),
    Blocking.readLoop (bld p) t0 2000 fuel (n : Int) got s = some (out, s') →
    ∃ bs l, out = got ++ bs ∧ s'.world.log = s.world.log ++ l ∧ Polls t0 n bs l ∧ s'.world.shown = s.world.shown ∧ s'.world.oob = s.world.oob := by
  intro fuel
  induction fuel with
  | zero =>
    intro n hn got s h
    unfold Blocking.readLoop at h
    split at h
    · rename_i h0
      obtain ⟨rfl, rfl⟩ := Prod.mk.inj (Option.some.inj h)
      have : n = 0 := by omega
      subst this
      exact ⟨[], [], by simp, by simp, .full, rfl, rfl⟩
    · cases h
  | succ fuel ih =>
    intro n hn got s h
    unfold Blocking.readLoop at h
    split at h
    · obtain ⟨rfl, rfl⟩ := Prod.mk.inj (Option.some.inj h)
      have : n = 0 := by omega
      subst this
      exact ⟨[], [], by simp, by simp, .full, rfl, rfl⟩
    · rename_i h0
      have hn0 : n ≠ 0 := by omega
      dsimp only at h
      split at h
      · rename_i he
        obtain ⟨rfl, rfl⟩ := Prod.mk.inj (Option.some.inj h)
        exact ⟨[], [.now (s.world.clock s.world.c)], by simp, rfl, .late hn0 ((expired_iff _ _).1 he), rfl, rfl⟩
      · rename_i he
        have he' := expired_false _ _ he
        rw [toSize_nat hn] at h
        have hl : ((bld p).read ((bld p).tick s).2 n).1.length ≤ n := read_length _ n
        have hc : (n : Int) - (((bld p).read ((bld p).tick s).2 n).1.length : Nat) = ((n - ((bld p).read ((bld p).tick s).2 n).1.length : Nat) : Int) := by
          omega
        rw [hc] at h
        obtain ⟨bs, l, h1, h2, h3, h4, h5⟩ := ih _ (by omega) _ _ h
        have hk := keeps_yield (p := p) ((bld p).read ((bld p).tick s).2 n).2
        refine ⟨((bld p).read ((bld p).tick s).2 n).1 ++ bs, .now (s.world.clock s.world.c) :: .read ((bld p).read ((bld p).tick s).2 n).1 :: l, by rw [h1]; simp, ?_, .more hn0 he' hl h3, ?_, ?_⟩
        · rw [h2, show ((bld p).yield ((bld p).read ((bld p).tick s).2 n).2).world.log = _ from hk.log]
          show ((s.world.log ++ [_]) ++ [_]) ++ l = _
          simp only [List.append_assoc, List.cons_append, List.nil_append]
          rfl
        · rw [h4]; exact hk.shown
        · rw [h5]; exact hk.oob

theorem read_log {fuel : Nat} {s s' : Prog} {out : List Byte} (h : Blocking.read (bld p) fuel s 40 2000 = some (out, s')) :
    ∃ l, s'.world.log = s.world.log ++ l ∧ Reads out l ∧ s'.world.shown = s.world.shown ∧ s'.world.oob = s.world.oob := by
  obtain ⟨bs, l, h1, h2, h3, h4, h5⟩ := readLoop_log (p := p) fuel 40 (Nat.le_refl _) [] ((bld p).tick s).2 h
  rw [List.nil_append] at h1
  subst h1
  refine ⟨.now (s.world.clock s.world.c) :: l, ?_, ⟨_, l, rfl, h3⟩, h4, h5⟩
  rw [h2]
  show (s.world.log ++ [_]) ++ l = _
  rw [List.append_assoc]
  rfl

theorem polls_length {t0 n : Nat} {out : List Byte} {l : List Call} (h : Polls t0 n out l) : out.length ≤ n := by
  induction h with
  | full => simp
  | late => simp
  | more _ _ hb _ ih => simp only [List.length_append]; omega

theorem reads_length {out : List Byte} {l : List Call} (h : Reads out l) : out.length ≤ 40 := by
  obtain ⟨_, _, _, h⟩ := h
  exact polls_length h

theorem spaceLoop_log {t0 len : Nat} {b : Bool} {s' : Prog} : ∀ (fuel : Nat) (s : Prog),
    Blocking.spaceLoop (bld p) t0 2000 (len : Int) fuel s = some (b, s') →
    ∃ ts : List Nat, (∀ t ∈ ts, ¬ Late t0 t) ∧ s'.world.shown = s.world.shown ∧ s'.world.oob = s.world.oob ∧
      ((b = false ∧ ∃ t, Late t0 t ∧ s'.world.log = s.world.log ++ (ts.map .now ++ [.now t])) ∨
        (b = true ∧ s'.world.log = s.world.log ++ ts.map .now ∧ ¬ s'.world.dev.spaceAvailable < Blocking.toSize len)) := by
  intro fuel
  induction fuel with
  | zero => intro s h; cases h
  | succ fuel ih =>
    intro s h
    unfold Blocking.spaceLoop at h
    dsimp only at h
    split at h
    · split at h
      · rename_i he
        obtain ⟨rfl, rfl⟩ := Prod.mk.inj (Option.some.inj h)
        exact ⟨[], by simp, rfl, rfl, .inl ⟨rfl, _, (expired_iff _ _).1 he, rfl⟩⟩
      · rename_i he
        have he' := expired_false _ _ he
        obtain ⟨ts, h1, h2, h3, h4⟩ := ih _ h
        have hk := keeps_yield (p := p) ((bld p).tick s).2
        have hlog : ((bld p).yield ((bld p).tick s).2).world.log = s.world.log ++ [.now (s.world.clock s.world.c)] := hk.log
        refine ⟨s.world.clock s.world.c :: ts, ?_, h2.trans hk.shown, h3.trans hk.oob, ?_⟩
        · intro t ht
          rcases List.mem_cons.mp ht with rfl | ht
          · exact he'
          · exact h1 t ht
        · rcases h4 with ⟨hb, t, hl, hg⟩ | ⟨hb, hg, hsp⟩
          · refine .inl ⟨hb, t, hl, ?_⟩
            rw [hg]
            show ((bld p).yield ((bld p).tick s).2).world.log ++ _ = _
            rw [hlog]
            simp
          · refine .inr ⟨hb, ?_, hsp⟩
            rw [hg]
            show ((bld p).yield ((bld p).tick s).2).world.log ++ _ = _
            rw [hlog]
            simp
    · rename_i hsp
      obtain ⟨rfl, rfl⟩ := Prod.mk.inj (Option.some.inj h)
      exact ⟨[], by simp, rfl, rfl, .inr ⟨rfl, by simp [bld], hsp⟩⟩

theorem doneLoop_log {t0 : Nat} {b : Bool} {s' : Prog} : ∀ (fuel : Nat) (s : Prog),
    Blocking.doneLoop (bld p) t0 2000 fuel s = some (b, s') →
    ∃ us : List Nat, (∀ t ∈ us.dropLast, ¬ Late t0 t) ∧ s'.world.shown = s.world.shown ∧ s'.world.oob = s.world.oob ∧
      s'.world.log = s.world.log ++ us.map .now := by
  intro fuel
  induction fuel with
  | zero => intro s h; cases h
  | succ fuel ih =>
    intro s h
    unfold Blocking.doneLoop at h
    dsimp only at h
    split at h
    · split at h
      · obtain ⟨rfl, rfl⟩ := Prod.mk.inj (Option.some.inj h)
        exact ⟨[s.world.clock s.world.c], by simp, rfl, rfl, rfl⟩
      · rename_i he
        have he' := expired_false _ _ he
        obtain ⟨ts, h1, h2, h3, h4⟩ := ih _ h
        have hk := keeps_yield (p := p) ((bld p).tick s).2
        have hlog : ((bld p).yield ((bld p).tick s).2).world.log = s.world.log ++ [.now (s.world.clock s.world.c)] := hk.log
        refine ⟨s.world.clock s.world.c :: ts, ?_, h2.trans hk.shown, h3.trans hk.oob, ?_⟩
        · intro t ht
          cases ts with
          | nil => simp at ht
          | cons u us =>
            rw [List.dropLast_cons_cons] at ht
            rcases List.mem_cons.mp ht with rfl | ht
            · exact he'
            · exact h1 t ht
        · rw [h4]
          show ((bld p).yield ((bld p).tick s).2).world.log ++ _ = _
          rw [hlog]
          simp
    · obtain ⟨rfl, rfl⟩ := Prod.mk.inj (Option.some.inj h)
      exact ⟨[], by simp, rfl, rfl, by simp [bld]⟩

theorem ring_takes (r : Ring Byte) (bs : List Byte) (h : ¬ r.spaceAvailable < bs.length) : (r.pushN bs).2 = bs.length := by
  unfold Ring.pushN
  exact if_neg h

theorem write_takes (d : Sim7x00.D) (bs : List Byte) (h0 : bs ≠ []) (h : ¬ d.spaceAvailable < bs.length) : (d.write bs).2 = bs.length := by
  have hl : 0 < bs.length := by cases bs with | nil => exact absurd rfl h0 | cons _ _ => simp
  unfold Dev.spaceAvailable at h
  unfold Dev.write
  by_cases hc : d.cs ≠ .connected
  · rw [if_pos hc] at h; omega
  · rw [if_neg hc] at h ⊢
    exact ring_takes _ _ h

theorem write_log {fuel n : Nat} {s s' : Prog} (h : Blocking.write (bld p) fuel s Client.request 2000 = some (n, s')) :
    ∃ l, s'.world.log = s.world.log ++ l ∧ Writes l ∧ s'.world.shown = s.world.shown ∧ s'.world.oob = s.world.oob := by
  unfold Blocking.write at h
  dsimp only at h
  split at h
  · cases h
  · rename_i u hu
    obtain ⟨rfl, rfl⟩ := Prod.mk.inj (Option.some.inj h)
    obtain ⟨ts, h1, h2, h3, h4⟩ := spaceLoop_log fuel _ hu
    rcases h4 with ⟨_, t, hl, hg⟩ | ⟨hb, _⟩
    · refine ⟨.now (s.world.clock s.world.c) :: ts.map .now ++ [.now t], ?_, ⟨_, ts, h1, .inl ⟨t, hl, rfl⟩⟩, h2, h3⟩
      rw [hg]
      show (s.world.log ++ [_]) ++ _ = _
      simp
    · cases hb
  · rename_i u hu
    obtain ⟨ts, h1, h2, h3, h4⟩ := spaceLoop_log fuel _ hu
    rcases h4 with ⟨hb, _⟩ | ⟨_, hg, hsp⟩
    · cases hb
    · have hw : (u.world.dev.write Client.request).2 = Client.request.length := write_takes _ _ (by decide) hsp
      have key : ∀ v b, Blocking.doneLoop (bld p) ((bld p).tick s).1 2000 fuel ((bld p).write u Client.request).2 = some (b, v) →
          ∃ l, v.world.log = s.world.log ++ l ∧ Writes l ∧ v.world.shown = s.world.shown ∧ v.world.oob = s.world.oob := by
        intro v b hv
        obtain ⟨us, k1, k2, k3, k4⟩ := doneLoop_log fuel _ hv
        refine ⟨.now (s.world.clock s.world.c) :: ts.map .now ++ .write Client.request.length :: us.map .now, ?_, ⟨_, ts, h1, .inr ⟨us, k1, rfl⟩⟩,
          k2.trans h2, k3.trans h3⟩
        rw [k4]
        show (u.world.log ++ [.write (u.world.dev.write Client.request).2]) ++ _ = _
        rw [hw, hg]
        show ((s.world.log ++ [_]) ++ _ ++ _) ++ _ = _
        simp only [List.append_assoc, List.cons_append, List.nil_append]
      split at h
      · cases h
      · rename_i v hv
        obtain ⟨rfl, rfl⟩ := Prod.mk.inj (Option.some.inj h)
        exact key _ _ hv
      · rename_i v hv
        obtain ⟨rfl, rfl⟩ := Prod.mk.inj (Option.some.inj h)
        exact key _ _ hv

theorem readAll_log {fuel : Nat} {s' : Prog} : ∀ (k : Nat) (s : Prog), readAll p fuel k s = some s' →
    ∃ (pieces : List (List Byte × List Call)) (last : List Call), s'.world.log = s.world.log ++ (pieces.flatMap (·.2) ++ last) ∧
      (∀ x ∈ pieces, Reads x.1 x.2 ∧ x.1 ≠ []) ∧ Reads [] last ∧
      s'.world.shown = s.world.shown ++ pieces.flatMap (fun x => x.1.takeWhile (· != 0)) ∧ s'.world.oob = s.world.oob := by
  intro k
  induction k with
  | zero => intro s h; cases h
  | succ k ih =>
    intro s h
    unfold readAll at h
    split at h
    · cases h
    · rename_i bs u hu
      obtain ⟨l, h1, h2, h3, h4⟩ := read_log hu
      have hlen := reads_length h2
      have hoob : (print u bs).world.oob = s.world.oob := by
        show (u.world.oob || decide (bs.length > 40)) = _
        rw [h4, decide_eq_false (by omega), Bool.or_false]
      split at h
      · rename_i h0
        have h0 : bs = [] := List.eq_nil_of_length_eq_zero h0
        subst h0
        obtain rfl := Option.some.inj h
        refine ⟨[], l, ?_, by simp, h2, ?_, hoob⟩
        · exact h1
        · show u.world.shown ++ _ = _
          rw [h3]; rfl
      · rename_i h0
        have h0 : bs ≠ [] := fun x => h0 (by rw [x]; rfl)
        obtain ⟨pieces, last, k1, k2, k3, k4, k5⟩ := ih _ h
        refine ⟨(bs, l) :: pieces, last, ?_, ?_, k3, ?_, k5.trans hoob⟩
        · rw [k1]
          show u.world.log ++ _ = _
          rw [h1]
          simp
        · intro x hx
          rcases List.mem_cons.mp hx with rfl | hx
          · exact ⟨h2, h0⟩
          · exact k2 x hx
        · rw [k4]
          show (u.world.shown ++ _) ++ _ = _
          rw [h3]
          simp

theorem await_keeps {cond : Sim7x00.D → Bool} {s' : Prog} : ∀ (fuel : Nat) (s : Prog), await p cond fuel s = some s' →
    Keeps s.world s'.world ∧ cond s'.world.dev = true := by
  intro fuel
  induction fuel with
  | zero => intro s h; cases h
  | succ fuel ih =>
    intro s h
    unfold await at h
    split at h
    · rename_i hc
      obtain rfl := Option.some.inj h
      exact ⟨⟨rfl, rfl, rfl⟩, hc⟩
    · have hk := keeps_yield (p := p) s
      obtain ⟨h1, h2⟩ := ih _ h
      exact ⟨⟨h1.log.trans hk.log, h1.shown.trans hk.shown, h1.oob.trans hk.oob⟩, h2⟩

/-- The whole program. -/
theorem main_done {fuel : Nat} {dev : Sim7x00.D} {junk : Nat} {feed : Nat → Hw} {opens : Nat → Bool} {clock : Nat → Nat} {s : Prog}
    (h : main p fuel dev junk feed opens clock = some s) : Done s.world := by
  unfold main at h
  split at h
  · cases h
  · rename_i s1 hs1
    obtain ⟨a, _⟩ := await_keeps _ _ hs1
    split at h
    · cases h
    · rename_i n s2 hs2
      obtain ⟨req, b1, b2, b3, b4⟩ := write_log hs2
      split at h
      · cases h
      · rename_i s3 hs3
        obtain ⟨pieces, last, c1, c2, c3, c4, c5⟩ := readAll_log _ _ hs3
        obtain ⟨d1, d2⟩ := await_keeps _ _ h
        refine ⟨req, pieces, last, ?_, b2, c2, c3, ?_, ?_, d2⟩
        · rw [d1.log]
          show s3.world.log ++ [.disconnect] = _
          rw [c1, b1, a.log]
          show [Call.setApn, .setHostPort, .connect] ++ req ++ _ ++ _ = _
          simp
        · rw [d1.shown]
          show s3.world.shown = _
          rw [c4, b3, a.shown]
          rfl
        · rw [d1.oob]
          show s3.world.oob = _
          rw [c5, b4, a.oob]
          rfl

theorem polls_silence {t0 n : Nat} {out : List Byte} {l : List Call} (h : Polls t0 n out l) (hn : out.length < n) :
    ∃ pre t, l = pre ++ [.now t] ∧ Late t0 t ∧ bytes pre = out := by
  induction h with
  | full => simp at hn
  | late _ hl => exact ⟨[], _, rfl, hl, rfl⟩
  | more h0 hnl hb hp ih =>
    obtain ⟨pre, t, e, hl, hby⟩ := ih (by simp only [List.length_append] at hn; omega)
    refine ⟨.now _ :: .read _ :: pre, t, by rw [e]; rfl, hl, ?_⟩
    rw [← hby]
    rfl

end Verif.BlockingProgram
