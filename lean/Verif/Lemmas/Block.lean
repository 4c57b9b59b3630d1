import Verif.Lemmas.Proto
import Verif.Spec.Block

/-!
Blocking calls on a driver that follows the machine of an open connection.
-/

namespace Verif.Spec

open Dev

variable {S R X : Type} {M : Mach} {s : Spot} {c : Conf} {m : Modem} {sc : Scene} {step : Dev S R X → Op → Dev S R X}
  {In : Spot → Conf → List (List Byte) → Dev S R X → Prop} {T : List (List Byte)} {w : World (Dev S R X)}

/-- A driver that follows the machine, and more about it. -/
structure Serves (M : Mach) (sc : Scene) (step : Dev S R X → Op → Dev S R X)
    (In : Spot → Conf → List (List Byte) → Dev S R X → Prop) : Prop where
  follows : Follows M sc step In
  rest : ∀ {c T d}, In .ready c T d → c.Idle → (exec step d [.run true]).cs = .connected
  wbuf : ∀ {s c T d}, In s c T d → Ring.Rep d.wbuf c.wq
  wcap : ∀ {s c T d}, In s c T d → d.wbuf.size = c.wcap
  rbuf : ∀ {s c T d}, In s c T d → Ring.Rep d.rbuf c.rq
  rcap : ∀ {s c T d}, In s c T d → d.rbuf.size = c.rcap
  read : ∀ d k, step d (.read k) = d.common (.read k)
  write : ∀ d bs, step d (.write bs) = d.common (.write bs)

/-! ### What the modem has got does not change -/

theorem listen_came {t : Tongue} (m : Modem) (u : List Byte) : (m.listen t u).came = m.came := by
  obtain ⟨ph, inbox, outbox, cm, news⟩ := m
  unfold Modem.listen
  cases ph <;> dsimp only
  · repeat' split
    all_goals rfl
  · repeat' split
    all_goals rfl

theorem listens_came {t : Tongue} (us : List (List Byte)) (m : Modem) : (us.foldl (Modem.listen t) m).came = m.came := by
  induction us generalizing m with
  | nil => rfl
  | cons u us ih => exact (ih _).trans (listen_came m u)

theorem say_came {t : Tongue} {a : Act} {l : List Byte} {m' : Modem} (h : m.say t a = some (l, m')) : m'.came = m.came := by
  cases a <;> simp only [Modem.say] at h <;> try cases h
  · split at h
    · cases h
    · simp only [Option.some.injEq, Prod.mk.injEq] at h
      rw [← h.2]
  · split at h
    · simp only [Option.some.injEq, Prod.mk.injEq] at h
      rw [← h.2]
    · cases h
  · obtain ⟨ph, inbox, outbox, cm, news⟩ := m
    cases ph <;> simp only [Modem.speak, Option.some.injEq, Prod.mk.injEq, reduceCtorEq] at h <;> rw [← h.2]

theorem act_came (a : Act) (ha : a.still = true) : (w.act sc step a).modem.came = w.modem.came := by
  have hb : ∀ a, (World.act.begins sc w a).modem.came = w.modem.came := by
    intro a
    unfold World.act.begins
    split <;> rfl
  have hg : ∀ m u ops, (World.act.go sc step w m u ops).modem.came = m.came := fun m u ops => listens_came _ _
  cases a with
  | run => exact hg _ _ _
  | write bs => exact hg _ _ _
  | read k => exact hg _ _ _
  | noise l => exact hb _
  | tell => exact hb _
  | speak => exact hb _
  | net bs loud => cases ha
  | pass k =>
    cases hu : w.under with
    | none =>
      have e : w.act sc step (.pass k) = w := by simp only [World.act, hu]
      rw [e]
    | some x =>
      obtain ⟨a, l⟩ := x
      by_cases hd : l.drop (k + 1) = []
      · have e : w.act sc step (.pass k) =
            World.act.go sc step w (((w.modem.say sc.tongue a).map (·.2)).getD w.modem) none (hear sc.tx l 0) := by
          simp only [World.act, hu, hd, if_true]
        rw [e, hg]
        cases e : w.modem.say sc.tongue a with
        | none => rfl
        | some x => exact say_came e
      · have e : w.act sc step (.pass k) = World.act.go sc step w w.modem (some (a, l.drop (k + 1))) (hear sc.tx (l.take (k + 1)) 0) := by
          simp only [World.act, hu, hd, if_false]
        rw [e, hg]
  | give k =>
    have e : w.act sc step (.give k) = match w.under, w.modem.give (k + 1) with
      | none, some (l, m) => World.act.go sc step w m none (hear sc.tx l 0)
      | _, _ => w := rfl
    rw [e]
    split
    · rename_i l m' _ e
      rw [hg]
      revert e
      unfold Modem.give
      cases w.modem.phase <;> simp
      rintro - rfl
      rfl
    · rfl

theorem acts_came (as : List Act) (ha : ∀ a ∈ as, a.still = true) : (w.acts sc step as).modem.came = w.modem.came := by
  induction as generalizing w with
  | nil => rfl
  | cons a as ih =>
    exact (ih (w := w.act sc step a) fun b hb => ha b (List.mem_cons_of_mem _ hb)).trans (act_came a (ha a (List.mem_cons_self ..)))

/-! ### Others do not take part -/

/-- Driver and modem are in step, and what has been written and read. -/
theorem keeps (f : Follows M sc step In) {as : List Act} (ha : ∀ a ∈ as, Fair sc.meaning a) (ho : ∀ a ∈ as, a.foreign = true)
    (h : In s c T w.drv) (hf : Fit M sc.cap s c w.modem) (hm : Mid M.t sc.meaning c w.modem w.under) :
    ∃ s' c' T', In s' c' T' (w.acts sc step as).drv ∧ Fit M sc.cap s' c' (w.acts sc step as).modem ∧
      Mid M.t sc.meaning c' (w.acts sc step as).modem (w.acts sc step as).under ∧
      c'.wcap = c.wcap ∧ c'.rcap = c.rcap ∧ c'.took = c.took ∧ c'.gave = c.gave := by
  induction as generalizing s c T w with
  | nil => exact ⟨s, c, T, h, hf, hm, rfl, rfl, rfl, rfl⟩
  | cons a as ih =>
    obtain ⟨s1, c1, T1, h1, h2, hm1, -, k⟩ := moved f h hf hm a (ha a (List.mem_cons_self ..))
    obtain ⟨s2, c2, T2, h4, h5, hm2, k1, k2, k3, k4⟩ :=
      ih (w := w.act sc step a) (fun b hb => ha b (List.mem_cons_of_mem _ hb)) (fun b hb => ho b (List.mem_cons_of_mem _ hb)) h1 h2 hm1
    have hx := ho a (List.mem_cons_self ..)
    exact ⟨s2, c2, T2, h4, h5, hm2, k1.trans k.wcap, k2.trans k.rcap, k3.trans (k.took (by rintro _ rfl; cases hx)),
      k4.trans (k.gave (by rintro _ rfl; cases hx))⟩

theorem others_keep (v : Serves M sc step In) {as : List Act} (ha : ∀ a ∈ as, Fair sc.meaning a) (ho : ∀ a ∈ as, a.foreign = true)
    (h : Joined M sc In w) :
    Joined M sc In (w.acts sc step as) ∧ handed (w.acts sc step as).drv.trace = handed w.drv.trace ∧
      accepted (w.acts sc step as).drv.trace = accepted w.drv.trace ∧ (w.acts sc step as).drv.wbuf.size = w.drv.wbuf.size ∧
      (w.acts sc step as).drv.rbuf.size = w.drv.rbuf.size := by
  obtain ⟨s, c, T, h1, h2, h3⟩ := h
  obtain ⟨s', c', T', g1, g2, g3, k1, k2, k3, k4⟩ := keeps v.follows ha ho h1 h2 h3
  refine ⟨⟨s', c', T', g1, g2, g3⟩, ?_, ?_, ?_, ?_⟩
  · rw [(v.follows.seen g1).gave, (v.follows.seen h1).gave, k4]
  · rw [(v.follows.seen g1).took, (v.follows.seen h1).took, k3]
  · rw [v.wcap g1, v.wcap h1, k1]
  · rw [v.rcap g1, v.rcap h1, k2]

/-- `read()` -/
theorem read_act (v : Serves M sc step In) (h : In s c T w.drv) (k : Nat) :
    (w.drv.read k).2 = c.rq.take k ∧ (w.act sc step (.read k)).drv = exec step w.drv [.read k] ∧
      handed (w.act sc step (.read k)).drv.trace = handed w.drv.trace ++ (w.drv.read k).2 := by
  have e : (w.act sc step (.read k)).drv = w.drv.common (.read k) := v.read _ _
  refine ⟨(Ring.rep_pullN (v.rbuf h) k).2, rfl, ?_⟩
  rw [e]
  show handed (w.drv.trace ++ [.apiRead (w.drv.read k).2]) = _
  rw [handed_append]
  simp [handed]

/-- `write()` -/
theorem write_act (v : Serves M sc step In) (h : In s c T w.drv) (bs : List Byte) :
    accepted (w.act sc step (.write bs)).drv.trace = accepted w.drv.trace ++ bs.take (w.drv.write bs).2 ∧
      (w.drv.write bs).2 = min bs.length w.drv.spaceAvailable := by
  have e : (w.act sc step (.write bs)).drv = w.drv.common (.write bs) := v.write _ _
  refine ⟨?_, ?_⟩
  · rw [e]
    show accepted ((w.drv.write bs).1.trace ++ [.apiWrite (bs.take (w.drv.write bs).2)]) = _
    have : (w.drv.write bs).1.trace = w.drv.trace := by
      unfold Dev.write; split <;> rfl
    rw [this, accepted_append]
    simp [accepted]
  · unfold Dev.write Dev.spaceAvailable
    split
    · simp
    · dsimp only
      rw [(Ring.rep_pushN (v.wbuf h) bs).2, (v.wbuf h).spaceAvailable]

/-! ### Blocking read -/

variable {ticks : Nat → Nat} {others : Nat → World (Dev S R X) → List Act}

theorem toSize_nat {n : Nat} (h : n < 2147483648) : Blocking.toSize (n : Int) = n := by
  unfold Blocking.toSize; omega

theorem readLoop_sound (v : Serves M sc step In) (hf : ∀ k w, ∀ a ∈ others k w, Fair sc.meaning a)
    (ho : ∀ k w, ∀ a ∈ others k w, a.foreign = true) {start : Nat} {timeout : Int} {out : List Byte} {q : Site (Dev S R X)} (fuel : Nat) :
    ∀ (len : Nat) (got : List Byte) (x : Site (Dev S R X)), len < 2147483648 → Joined M sc In x.world →
      Blocking.readLoop (World.blocking sc step ticks others) start timeout fuel len got x = some (out, q) →
      ∃ more, out = got ++ more ∧ more.length ≤ len ∧ handed q.world.drv.trace = handed x.world.drv.trace ++ more ∧
        accepted q.world.drv.trace = accepted x.world.drv.trace ∧ Joined M sc In q.world := by
  induction fuel with
  | zero =>
    intro len got x _ hj h
    simp only [Blocking.readLoop] at h
    split at h
    · obtain ⟨rfl, rfl⟩ := Prod.mk.inj (Option.some.inj h)
      exact ⟨[], by simp, by simp, by simp, rfl, hj⟩
    · cases h
  | succ fuel ih =>
    intro len got x hl hj h
    simp only [Blocking.readLoop] at h
    split at h
    · obtain ⟨rfl, rfl⟩ := Prod.mk.inj (Option.some.inj h)
      exact ⟨[], by simp, by simp, by simp, rfl, hj⟩
    · split at h
      · obtain ⟨rfl, rfl⟩ := Prod.mk.inj (Option.some.inj h)
        exact ⟨[], by simp, by simp, by simp [World.blocking], rfl, hj⟩
      · rw [toSize_nat hl] at h
        obtain ⟨s, c, T, h1, h2, h3⟩ := id hj
        obtain ⟨r1, -, r3⟩ := read_act (sc := sc) v h1 len
        obtain ⟨s1, c1, T1, g1, g2, g3, -, g4⟩ := moved v.follows h1 h2 h3 (.read len) trivial
        have hk := others_keep (w := x.world.act sc step (.read len)) v (hf x.yields (x.world.act sc step (.read len)))
          (ho x.yields (x.world.act sc step (.read len))) ⟨s1, c1, T1, g1, g2, g3⟩
        have hle : (x.world.drv.read len).2.length ≤ len := by rw [r1, List.length_take]; omega
        have e : ((len : Int) - ((x.world.drv.read len).2.length : Nat)) = ((len - (x.world.drv.read len).2.length : Nat) : Int) := by omega
        have h : Blocking.readLoop (World.blocking sc step ticks others) start timeout fuel (((len : Int) - ((x.world.drv.read len).2.length : Nat)))
          (got ++ (x.world.drv.read len).2) ⟨(x.world.act sc step (.read len)).acts sc step (others x.yields (x.world.act sc step (.read len))),
            x.polls + 1, x.yields + 1⟩ = some (out, q) := h
        rw [e] at h
        obtain ⟨more, m1, m2, m3, m4, m5⟩ := ih _ _ _ (by omega) hk.1 h
        refine ⟨(x.world.drv.read len).2 ++ more, by rw [m1, List.append_assoc], by rw [List.length_append]; omega, ?_, ?_, m5⟩
        · rw [m3, hk.2.1, r3, List.append_assoc]
        · rw [m4, hk.2.2.1, (v.follows.seen g1).took, g4.took (by simp), (v.follows.seen h1).took]

theorem read_sound (v : Serves M sc step In) (hj : Joined M sc In w) (hf : ∀ k w, ∀ a ∈ others k w, Fair sc.meaning a)
    (ho : ∀ k w, ∀ a ∈ others k w, a.foreign = true) {len fuel : Nat} {timeout : Int} (hl : len < 2 ^ 31) {out : List Byte} {q : Site (Dev S R X)}
    (h : Blocking.read (World.blocking sc step ticks others) fuel w.site len timeout = some (out, q)) :
    out.length ≤ len ∧ handed q.world.drv.trace = handed w.drv.trace ++ out ∧ accepted q.world.drv.trace = accepted w.drv.trace ∧ q.world.Sound := by
  obtain ⟨more, m1, m2, m3, m4, m5⟩ := readLoop_sound v hf ho fuel len [] _ (by omega) (show Joined M sc In w from hj) h
  rw [List.nil_append] at m1
  subst m1
  exact ⟨m2, m3, m4, m5.sound v.follows⟩

/-! ### Blocking write -/

theorem spaceLoop_sound (v : Serves M sc step In) (hf : ∀ k w, ∀ a ∈ others k w, Fair sc.meaning a)
    (ho : ∀ k w, ∀ a ∈ others k w, a.foreign = true) {start : Nat} {timeout len : Int} {b : Bool} {q : Site (Dev S R X)} (fuel : Nat) :
    ∀ x : Site (Dev S R X), Joined M sc In x.world →
      Blocking.spaceLoop (World.blocking sc step ticks others) start timeout len fuel x = some (b, q) →
      handed q.world.drv.trace = handed x.world.drv.trace ∧ accepted q.world.drv.trace = accepted x.world.drv.trace ∧
        Joined M sc In q.world ∧ (b = true → Blocking.toSize len ≤ q.world.drv.spaceAvailable) := by
  induction fuel with
  | zero => intro x _ h; cases h
  | succ fuel ih =>
    intro x hj h
    simp only [Blocking.spaceLoop] at h
    split at h
    · split at h
      · obtain ⟨rfl, rfl⟩ := Prod.mk.inj (Option.some.inj h)
        exact ⟨rfl, rfl, hj, fun x => by cases x⟩
      · have hk := others_keep (w := x.world) v (hf x.yields x.world) (ho x.yields x.world) hj
        obtain ⟨m1, m2, m3, m4⟩ := ih _ hk.1 h
        exact ⟨m1.trans hk.2.1, m2.trans hk.2.2.1, m3, m4⟩
    · rename_i hs
      obtain ⟨rfl, rfl⟩ := Prod.mk.inj (Option.some.inj h)
      exact ⟨rfl, rfl, hj, fun _ => Nat.le_of_not_lt hs⟩

theorem doneLoop_sound (v : Serves M sc step In) (hf : ∀ k w, ∀ a ∈ others k w, Fair sc.meaning a)
    (ho : ∀ k w, ∀ a ∈ others k w, a.foreign = true) {start : Nat} {timeout : Int} {b : Bool} {q : Site (Dev S R X)} (fuel : Nat) :
    ∀ x : Site (Dev S R X), Joined M sc In x.world →
      Blocking.doneLoop (World.blocking sc step ticks others) start timeout fuel x = some (b, q) →
      handed q.world.drv.trace = handed x.world.drv.trace ∧ accepted q.world.drv.trace = accepted x.world.drv.trace ∧
        Joined M sc In q.world ∧ (b = true → q.world.drv.writeBufferProcessed = true) := by
  induction fuel with
  | zero => intro x _ h; cases h
  | succ fuel ih =>
    intro x hj h
    simp only [Blocking.doneLoop] at h
    split at h
    · split at h
      · obtain ⟨rfl, rfl⟩ := Prod.mk.inj (Option.some.inj h)
        exact ⟨rfl, rfl, hj, fun x => by cases x⟩
      · have hk := others_keep (w := x.world) v (hf x.yields x.world) (ho x.yields x.world) hj
        obtain ⟨m1, m2, m3, m4⟩ := ih _ hk.1 h
        exact ⟨m1.trans hk.2.1, m2.trans hk.2.2.1, m3, m4⟩
    · rename_i hs
      obtain ⟨rfl, rfl⟩ := Prod.mk.inj (Option.some.inj h)
      exact ⟨rfl, rfl, hj, fun _ => (by simpa using hs : ((World.blocking sc step ticks others).processed x).1 = true)⟩

/-- When everything is processed, the modem has it. -/
theorem World.Sound.processed (h : w.Sound) (hp : w.drv.writeBufferProcessed = true) : w.modem.outbox = accepted w.drv.trace := by
  have : w.drv.wbuf.bytesAvailable = 0 := by
    unfold Dev.writeBufferProcessed at hp
    simp only [Bool.and_eq_true, beq_iff_eq] at hp
    exact hp.1
  exact h.out.eq_of_length (by have := h.outRest; omega)

theorem write_sound (v : Serves M sc step In) (hj : Joined M sc In w) (hf : ∀ k w, ∀ a ∈ others k w, Fair sc.meaning a)
    (ho : ∀ k w, ∀ a ∈ others k w, a.foreign = true) {fuel : Nat} {timeout : Int} {data : List Byte} (hl : data.length < 2 ^ 31) {n : Nat}
    {q : Site (Dev S R X)}
    (h : Blocking.write (World.blocking sc step ticks others) fuel w.site data timeout = some (n, q)) :
    (n = 0 ∨ n = data.length ∧ q.world.modem.outbox = accepted w.drv.trace ++ data) ∧
      (accepted q.world.drv.trace = accepted w.drv.trace ∨ accepted q.world.drv.trace = accepted w.drv.trace ++ data) ∧
      handed q.world.drv.trace = handed w.drv.trace ∧ q.world.Sound := by
  unfold Blocking.write at h
  dsimp only at h
  split at h
  · cases h
  · rename_i x hx
    obtain ⟨rfl, rfl⟩ := Prod.mk.inj (Option.some.inj h)
    obtain ⟨m1, m2, m3, -⟩ := spaceLoop_sound v hf ho fuel _ (show Joined M sc In w from hj) hx
    exact ⟨.inl rfl, .inl m2, m1, m3.sound v.follows⟩
  · rename_i x hx
    obtain ⟨m1, m2, m3, m4⟩ := spaceLoop_sound v hf ho fuel _ (show Joined M sc In w from hj) hx
    have m4 := m4 rfl
    rw [toSize_nat (by omega)] at m4
    obtain ⟨s, c, T, h1, h2, h3⟩ := m3
    obtain ⟨s1, c1, T1, g1, g2, g3, -, g4⟩ := moved v.follows h1 h2 h3 (.write data) trivial
    obtain ⟨r1, r2⟩ := write_act (sc := sc) v h1 data
    have e : (x.world.drv.write data).2 = data.length := by rw [r2]; omega
    rw [e, List.take_length] at r1
    have hj2 : Joined M sc In (x.world.act sc step (.write data)) := ⟨s1, c1, T1, g1, g2, g3⟩
    have hh : handed (x.world.act sc step (.write data)).drv.trace = handed x.world.drv.trace := by
      rw [(v.follows.seen g1).gave, g4.gave (by simp), (v.follows.seen h1).gave]
    split at h
    · cases h
    · rename_i y hy
      obtain ⟨rfl, rfl⟩ := Prod.mk.inj (Option.some.inj h)
      obtain ⟨n1, n2, n3, -⟩ := doneLoop_sound v hf ho fuel _ hj2 hy
      exact ⟨.inl rfl, .inr (n2.trans (r1.trans (by rw [m2]; rfl))), n1.trans (hh.trans m1), n3.sound v.follows⟩
    · rename_i y hy
      obtain ⟨e1, rfl⟩ := Prod.mk.inj (Option.some.inj h)
      obtain ⟨n1, n2, n3, n4⟩ := doneLoop_sound v hf ho fuel _ hj2 hy
      have n2 : accepted y.world.drv.trace = accepted w.drv.trace ++ data := n2.trans (r1.trans (by rw [m2]; rfl))
      have hs := n3.sound v.follows
      exact ⟨.inr ⟨e1.symm.trans e, (hs.processed (n4 rfl)).trans n2⟩, .inr n2, n1.trans (hh.trans m1), hs⟩

/-! ### Blocking calls end -/

theorem dist_lt (f : Follows M sc step In) (h1 : In s c T w.drv) (h2 : Fit M sc.cap s c w.modem) : dist s c w.modem < w.effort := by
  have v := f.seen h1
  have hb := h2.block
  unfold World.effort
  rw [v.wq, v.rq, v.rd]
  have : s.weight w.modem.phase ≤ 60 + 2 * c.rd := by
    cases s <;> simp only [Spot.weight, Spot.part] at hb ⊢ <;> omega
  unfold dist
  have : (if w.modem.news = true then 30 else 0) ≤ 30 := by split <;> omega
  have : (if c.data = true then 20 else 0) ≤ 20 := by split <;> omega
  omega

/-- What is left to be read. -/
theorem left_eq (f : Follows M sc step In) (h1 : In s c T w.drv) (h2 : Fit M sc.cap s c w.modem) :
    w.modem.came.length = (handed w.drv.trace).length + c.rq.length + s.part.length + w.modem.phase.rest.length + w.modem.inbox.length := by
  rw [(f.seen h1).gave, ← h2.came]
  simp only [List.length_append]

theorem readLoop_ends (v : Serves M sc step In) (hf : ∀ k w, ∀ a ∈ others k w, Fair sc.meaning a)
    (hp : ∀ k w, Pause sc step w (others k w)) {start : Nat} {timeout : Int} (fuel : Nat) :
    ∀ (len : Nat) (got : List Byte) (x : Site (Dev S R X)) (s : Spot) (c : Conf) (T : List (List Byte)), len < 2147483648 →
      In s c T x.world.drv → Fit M sc.cap s c x.world.modem → Mid M.t sc.meaning c x.world.modem x.world.under →
      dist s c x.world.modem < fuel → (handed x.world.drv.trace).length + len ≤ x.world.modem.came.length →
      (∀ k, x.polls ≤ k → k < x.polls + fuel → Blocking.expired (ticks k) start timeout = false) →
      ∃ out q, Blocking.readLoop (World.blocking sc step ticks others) start timeout fuel len got x = some (got ++ out, q) ∧ out.length = len ∧
        q.world.modem.came = x.world.modem.came := by
  induction fuel with
  | zero => intro len got x s c T _ _ _ _ hd; exact absurd hd (Nat.not_lt_zero _)
  | succ fuel ih =>
    intro len got x s c T hl h1 h2 h3 hd hc ht
    simp only [Blocking.readLoop]
    by_cases h0 : (len : Int) = 0
    · rw [if_pos h0]
      exact ⟨[], x, by simp, by simp only [List.length_nil]; omega, rfl⟩
    · have hpos : 0 < len := by omega
      rw [if_neg h0, if_neg (by rw [show ((World.blocking sc step ticks others).tick x).1 = ticks x.polls from rfl,
        ht x.polls (Nat.le_refl _) (by omega)]; simp), toSize_nat hl]
      obtain ⟨r1, -, r3⟩ := read_act (sc := sc) v h1 len
      have hle : (x.world.drv.read len).2.length ≤ len := by rw [r1, List.length_take]; omega
      obtain ⟨s1, c1, T1, g1, g2, g3, g4, g5⟩ := moved v.follows h1 h2 h3 (.read len) trivial
      have g4 := g4 rfl
      have pz := hp x.yields (x.world.act sc step (.read len))
      have fz := hf x.yields (x.world.act sc step (.read len))
      have ec : (x.world.act sc step (.read len)).modem.came = x.world.modem.came := act_came _ rfl
      obtain ⟨s2, c2, T2, k1, k2, k3, k4, -, -, -, k5⟩ := Joined.round v.follows fz pz.still g1 g2 g3
      have k5 := k5 fun a ha k => by rintro rfl; cases pz.foreign _ ha
      have eh : handed ((x.world.act sc step (.read len)).acts sc step (others x.yields (x.world.act sc step (.read len)))).drv.trace =
          handed x.world.drv.trace ++ (x.world.drv.read len).2 := by
        rw [(v.follows.seen k1).gave, k5, ← (v.follows.seen g1).gave, r3]
      have es := acts_came (w := x.world.act sc step (.read len)) (sc := sc) (step := step) (others x.yields (x.world.act sc step (.read len))) pz.still
      have hlt : dist s2 c2 ((x.world.act sc step (.read len)).acts sc step (others x.yields (x.world.act sc step (.read len)))).modem <
          dist s c x.world.modem := by
        rcases g4 with g4 | ⟨rfl, x1, x2, -, -⟩
        · rcases k4 with k4 | ⟨rfl, y1, y2, -⟩
          · omega
          · rw [y2, dist_same y1]; exact g4
        · rw [← dist_same x1, ← x2]
          rcases k4 with k4 | ⟨rfl, y1, y2, -, y⟩
          · exact k4
          · exfalso
            rw [pz.ends] at y
            have y : ∀ u a v, others x.yields (x.world.act sc step (.read len)) = u ++ a :: v →
              Ready ((x.world.act sc step (.read len)).acts sc step u).under a → ¬ Helps s2 c1 (x.world.act sc step (.read len)).modem a :=
                fun u a v z1 z2 z3 => y u a v z1 z2 z3
            obtain ⟨u1, v1, q1⟩ := List.append_of_mem pz.run
            obtain ⟨u3, _, v3, q3, rfl, e3⟩ := pz.tell
            obtain ⟨u4, _, v4, q4, rfl, e4⟩ := pz.speak
            obtain ⟨u5, _, v5, q5, ⟨k', rfl⟩, e5⟩ := pz.give
            have e : c1.rq = c.rq := by have := congrArg Conf.rq x1; exact this
            have hq : c.rq = [] := by
              cases hq : c.rq with
              | nil => rfl
              | cons b l =>
                exfalso
                have h4 := left_eq v.follows h1 h2
                have h5 := left_eq v.follows g1 g2
                have h6 : (x.world.drv.read len).2.length ≠ 0 := by
                  rw [r1, hq, List.length_take, List.length_cons]; omega
                rw [r3, List.length_append, ec, x2, e] at h5
                omega
            have o := over_of (v.follows.good g1) g2 (y _ _ _ q1 trivial) hpos (show ¬ Helps s2 c1 _ (.read len) from fun z => z.2 (e.trans hq))
              (y _ _ _ q3 e3) (y _ _ _ q4 e4) (y _ _ _ q5 e5)
            have h5 := left_eq v.follows g1 g2
            rw [r3, List.length_append, ec, o.rq, o.spot, o.phase, o.inbox, r1, hq] at h5
            simp [Spot.part, Phase.rest] at h5
            omega
      have e : ((len : Int) - ((x.world.drv.read len).2.length : Nat)) = ((len - (x.world.drv.read len).2.length : Nat) : Int) := by omega
      obtain ⟨out, q, z1, z2, z3⟩ := ih (len - (x.world.drv.read len).2.length) (got ++ (x.world.drv.read len).2)
        ⟨(x.world.act sc step (.read len)).acts sc step (others x.yields (x.world.act sc step (.read len))), x.polls + 1, x.yields + 1⟩
        s2 c2 T2 (by omega) k1 k2 k3 (by dsimp only; omega) (by
          dsimp only
          rw [eh, es, ec, List.length_append]; omega) (fun k y1 y2 => ht k (by dsimp only at y1; omega) (by dsimp only at y2; omega))
      refine ⟨(x.world.drv.read len).2 ++ out, q, ?_, by rw [List.length_append]; omega, z3.trans (es.trans ec)⟩
      rw [← List.append_assoc, ← z1, ← e]
      rfl

theorem read_ends (v : Serves M sc step In) (hj : Joined M sc In w) (hf : ∀ k w, ∀ a ∈ others k w, Fair sc.meaning a)
    (hp : ∀ k w, Pause sc step w (others k w)) {len fuel : Nat} {timeout : Int} (hl : len < 2 ^ 31) (hn : w.effort ≤ fuel)
    (hc : (handed w.drv.trace).length + len ≤ w.modem.came.length) (ht : Patient ticks timeout fuel) :
    ∃ q, Blocking.read (World.blocking sc step ticks others) fuel w.site len timeout =
      some ((w.modem.came.drop (handed w.drv.trace).length).take len, q) := by
  obtain ⟨s, c, T, h1, h2, h3⟩ := id hj
  have hd := dist_lt v.follows h1 h2
  obtain ⟨out, q, z1, z2, z3⟩ := readLoop_ends (ticks := ticks) (start := ticks 0) (timeout := timeout) v hf hp fuel len []
    ⟨w, 1, 0⟩ s c T (by omega) h1 h2 h3 (by dsimp only; omega) hc (fun k y1 y2 => ht k (by dsimp only at y2; omega))
  have z1 : Blocking.read (World.blocking sc step ticks others) fuel w.site len timeout = some (out, q) := z1
  have ⟨_, a2, _, a4⟩ := read_sound v hj hf (fun k w a ha => (hp k w).foreign a ha) hl z1
  refine ⟨q, ?_⟩
  rw [z1]
  have := a4.came
  rw [a2, z3] at this
  obtain ⟨t, e⟩ := this
  dsimp only at e
  rw [← e, List.append_assoc, List.drop_left, ← z2, List.take_left]

/-- Nothing is left to do, but to read. -/
structure Sent (s : Spot) (c : Conf) (m : Modem) : Prop where
  spot : s = .ready
  wq : c.wq = []
  data : c.data = false
  rcv : c.rcv = 0

/-- If nothing helps, and there is room, all was sent. -/
theorem sent_of (g : M.Good c) {cap : Nat} (hf : Fit M cap s c m) {k' : Nat} (h1 : ¬ Helps s c m .run)
    (h3 : ¬ Helps s c m .tell) (h4 : ¬ Helps s c m .speak) (h5 : ¬ Helps s c m (.give k')) (hr : c.rq.length + m.inbox.length ≤ c.rcap) :
    Sent s c m := by
  obtain ⟨meet, out, came, hcap, rcv, rd, fresh⟩ := hf
  obtain ⟨ph, inbox, outbox, cm, news⟩ := m
  have hg := g.rcap
  cases s <;> cases ph <;> simp only [Meet, Helps, Phase.busy, Mach.Acts, not_true_eq_false] at meet h1 h3 h4 h5
  · rw [not_or] at h1
    have hw : c.wq = [] := by simpa using h1.1
    have hd : c.data = false := by simpa using h1.2
    have hn : news = false := by simpa using h3
    subst hn
    unfold Fresh at fresh
    refine ⟨rfl, hw, hd, ?_⟩
    split at fresh
    · exact fresh.1 rfl
    · rcases Nat.eq_zero_or_pos c.rcv with x | x
      · exact x
      · have := fresh.2 rfl x
        rw [hd] at this; cases this
  · dsimp only at hr rcv
    omega

/-- A pause brings driver and modem nearer to the end, or all was sent. -/
theorem pause_helps (v : Serves M sc step In) {as : List Act} (ha : ∀ a ∈ as, Fair sc.meaning a) (hp : Pause sc step w as)
    (hu : ∃ u, as = u ++ [.run]) (h : In s c T w.drv) (hf : Fit M sc.cap s c w.modem) (hm : Mid M.t sc.meaning c w.modem w.under)
    (hr : w.modem.came.length ≤ (handed w.drv.trace).length + w.drv.rbuf.size) :
    ∃ s' c' T', In s' c' T' (w.acts sc step as).drv ∧ Fit M sc.cap s' c' (w.acts sc step as).modem ∧
      Mid M.t sc.meaning c' (w.acts sc step as).modem (w.acts sc step as).under ∧
      (dist s' c' (w.acts sc step as).modem < dist s c w.modem ∨ dist s' c' (w.acts sc step as).modem = dist s c w.modem ∧
        (w.acts sc step as).drv.cs = .connected ∧ c'.wq = []) := by
  obtain ⟨u, rfl⟩ := hu
  have e : w.acts sc step (u ++ [.run]) = (w.acts sc step u).act sc step .run := by
    unfold World.acts; rw [List.foldl_append]; rfl
  obtain ⟨s1, c1, T1, g1, g2, g3, g4, -⟩ :=
    Joined.round v.follows (fun a x => ha a (List.mem_append_left _ x)) (fun a x => hp.still a (List.mem_append_left _ x)) h hf hm
  obtain ⟨s2, c2, T2, k1, k2, k3, k4, -⟩ := moved v.follows g1 g2 g3 .run trivial
  have k4 := k4 rfl
  obtain ⟨s3, c3, T3, l1, l2, l3, l4, -⟩ := Joined.round v.follows ha hp.still h hf hm
  rcases l4 with l4 | ⟨rfl, y1, y2, -, y⟩
  · exact ⟨s3, c3, T3, l1, l2, l3, .inl l4⟩
  · rw [hp.ends] at y
    have y : ∀ u' a v, u ++ [.run] = u' ++ a :: v → Ready (w.acts sc step u').under a → ¬ Helps s3 c w.modem a :=
      fun u a v z1 z2 z3 => y u a v z1 z2 z3
    obtain ⟨u3, _, v3, q3, rfl, e3⟩ := hp.tell
    obtain ⟨u4, _, v4, q4, rfl, e4⟩ := hp.speak
    obtain ⟨u5, _, v5, q5, ⟨k', rfl⟩, e5⟩ := hp.give
    have hl := left_eq v.follows h hf
    have o := sent_of (v.follows.good h) hf (y _ _ _ rfl trivial) (y _ _ _ q3 e3) (y _ _ _ q4 e4) (y _ _ _ q5 e5)
      (by rw [← v.rcap h]; omega)
    rw [e]
    rcases g4 with g4 | ⟨rfl, x1, x2, -⟩
    · refine ⟨s2, c2, T2, k1, k2, k3, .inl ?_⟩
      rcases k4 with k4 | ⟨rfl, z1, z2, -⟩
      · omega
      · rw [z2, dist_same z1]; exact g4
    · have f1 : s1 = .ready := o.spot
      subst f1
      have hI : c1.Idle := ⟨(congrArg Conf.wq x1).trans o.wq, (congrArg Conf.data x1).trans o.data, (congrArg Conf.rcv x1).trans o.rcv⟩
      have hc : ((w.acts sc step u).act sc step .run).drv.cs = .connected := v.rest g1 hI
      refine ⟨s2, c2, T2, k1, k2, k3, ?_⟩
      rcases k4 with k4 | ⟨rfl, z1, z2, -⟩
      · left; rw [x2, dist_same x1] at k4; exact k4
      · right
        refine ⟨by rw [z2, dist_same z1, x2, dist_same x1], hc, (congrArg Conf.wq z1).trans hI.1⟩

/-- What does not change while a blocking write waits. -/
structure Idles (w w' : World (Dev S R X)) : Prop where
  handed : handed w'.drv.trace = handed w.drv.trace
  accepted : accepted w'.drv.trace = accepted w.drv.trace
  wsize : w'.drv.wbuf.size = w.drv.wbuf.size
  rsize : w'.drv.rbuf.size = w.drv.rbuf.size
  came : w'.modem.came = w.modem.came

theorem pause_idles (v : Serves M sc step In) {as : List Act} (ha : ∀ a ∈ as, Fair sc.meaning a) (hp : Pause sc step w as)
    (h : Joined M sc In w) : Idles w (w.acts sc step as) := by
  obtain ⟨-, h1, h2, h3, h4⟩ := others_keep v ha hp.foreign h
  exact ⟨h1, h2, h3, h4, acts_came as hp.still⟩

theorem Idles.trans {w1 w2 w3 : World (Dev S R X)} (h : Idles w1 w2) (g : Idles w2 w3) : Idles w1 w3 :=
  ⟨g.1.trans h.1, g.2.trans h.2, g.3.trans h.3, g.4.trans h.4, g.5.trans h.5⟩

theorem spaceLoop_succ (start : Nat) (timeout len : Int) (fuel : Nat) (x : Site (Dev S R X)) :
    Blocking.spaceLoop (World.blocking sc step ticks others) start timeout len (fuel + 1) x =
      if x.world.drv.spaceAvailable < Blocking.toSize len then
        if Blocking.expired (ticks x.polls) start timeout then some (false, ⟨x.world, x.polls + 1, x.yields⟩)
        else Blocking.spaceLoop (World.blocking sc step ticks others) start timeout len fuel
          ⟨x.world.acts sc step (others x.yields x.world), x.polls + 1, x.yields + 1⟩
      else some (true, x) := rfl

theorem doneLoop_succ (start : Nat) (timeout : Int) (fuel : Nat) (x : Site (Dev S R X)) :
    Blocking.doneLoop (World.blocking sc step ticks others) start timeout (fuel + 1) x =
      if !x.world.drv.writeBufferProcessed then
        if Blocking.expired (ticks x.polls) start timeout then some (false, ⟨x.world, x.polls + 1, x.yields⟩)
        else Blocking.doneLoop (World.blocking sc step ticks others) start timeout fuel
          ⟨x.world.acts sc step (others x.yields x.world), x.polls + 1, x.yields + 1⟩
      else some (true, x) := rfl

theorem spaceLoop_ends (v : Serves M sc step In) (hf : ∀ k w, ∀ a ∈ others k w, Fair sc.meaning a)
    (hp : ∀ k w, Pause sc step w (others k w)) (hu : ∀ k w, ∃ u, others k w = u ++ [.run]) {start : Nat} {timeout : Int} {len : Nat}
    (hl : len < 2147483648) (fuel : Nat) :
    ∀ (x : Site (Dev S R X)) (s : Spot) (c : Conf) (T : List (List Byte)),
      In s c T x.world.drv → Fit M sc.cap s c x.world.modem → Mid M.t sc.meaning c x.world.modem x.world.under →
      dist s c x.world.modem + 1 < fuel → x.world.modem.came.length ≤ (handed x.world.drv.trace).length + x.world.drv.rbuf.size →
      len ≤ x.world.drv.wbuf.size →
      (∀ k, x.polls ≤ k → k < x.polls + fuel → Blocking.expired (ticks k) start timeout = false) →
      ∃ q, Blocking.spaceLoop (World.blocking sc step ticks others) start timeout len fuel x = some (true, q) ∧ Idles x.world q.world ∧
        len ≤ q.world.drv.spaceAvailable ∧ q.polls ≤ x.polls + fuel ∧
        ∃ s' c' T', In s' c' T' q.world.drv ∧ Fit M sc.cap s' c' q.world.modem ∧ Mid M.t sc.meaning c' q.world.modem q.world.under ∧
          dist s' c' q.world.modem ≤ dist s c x.world.modem := by
  induction fuel with
  | zero => intro x s c T _ _ _ hd; exact absurd hd (Nat.not_lt_zero _)
  | succ fuel ih =>
    intro x s c T h1 h2 h3 hd hr hw ht
    rw [spaceLoop_succ, toSize_nat hl]
    by_cases hs : x.world.drv.spaceAvailable < len
    · rw [if_pos hs, if_neg (by rw [ht x.polls (Nat.le_refl _) (by omega)]; simp)]
      have hi := pause_idles v (hf x.yields x.world) (hp x.yields x.world) ⟨s, c, T, h1, h2, h3⟩
      obtain ⟨s1, c1, T1, g1, g2, g3, g4⟩ := pause_helps v (hf x.yields x.world) (hp x.yields x.world) (hu x.yields x.world) h1 h2 h3 hr
      rcases g4 with g4 | ⟨g4, g5, g6⟩
      · obtain ⟨q, q1, q2, q3, q4, s', c', T', q5, q6, q7, q8⟩ := ih ⟨x.world.acts sc step (others x.yields x.world), x.polls + 1, x.yields + 1⟩
          s1 c1 T1 g1 g2 g3 (by dsimp only; omega) (by dsimp only; rw [hi.came, hi.handed, hi.rsize]; exact hr)
          (by dsimp only; rw [hi.wsize]; exact hw) (fun k y1 y2 => ht k (by dsimp only at y1; omega) (by dsimp only at y2; omega))
        dsimp only at q2 q4 q8
        exact ⟨q, q1, hi.trans q2, q3, by omega, s', c', T', q5, q6, q7, by omega⟩
      · obtain ⟨fuel, rfl⟩ : ∃ f, fuel = f + 1 := ⟨fuel - 1, by omega⟩
        have hsp : len ≤ (x.world.acts sc step (others x.yields x.world)).drv.spaceAvailable := by
          unfold Dev.spaceAvailable
          rw [if_neg (by rw [g5]; simp), (v.wbuf g1).spaceAvailable, g6, hi.wsize]
          exact hw
        refine ⟨⟨x.world.acts sc step (others x.yields x.world), x.polls + 1, x.yields + 1⟩, ?_, hi, hsp, by dsimp only; omega,
          s1, c1, T1, g1, g2, g3, Nat.le_of_eq g4⟩
        rw [spaceLoop_succ, toSize_nat hl, if_neg (Nat.not_lt.mpr hsp)]
    · rw [if_neg hs]
      exact ⟨x, rfl, ⟨rfl, rfl, rfl, rfl, rfl⟩, by omega, by omega, s, c, T, h1, h2, h3, Nat.le_refl _⟩

theorem doneLoop_ends (v : Serves M sc step In) (hf : ∀ k w, ∀ a ∈ others k w, Fair sc.meaning a)
    (hp : ∀ k w, Pause sc step w (others k w)) (hu : ∀ k w, ∃ u, others k w = u ++ [.run]) {start : Nat} {timeout : Int} (fuel : Nat) :
    ∀ (x : Site (Dev S R X)) (s : Spot) (c : Conf) (T : List (List Byte)),
      In s c T x.world.drv → Fit M sc.cap s c x.world.modem → Mid M.t sc.meaning c x.world.modem x.world.under →
      dist s c x.world.modem + 1 < fuel → x.world.modem.came.length ≤ (handed x.world.drv.trace).length + x.world.drv.rbuf.size →
      (∀ k, x.polls ≤ k → k < x.polls + fuel → Blocking.expired (ticks k) start timeout = false) →
      ∃ q, Blocking.doneLoop (World.blocking sc step ticks others) start timeout fuel x = some (true, q) := by
  induction fuel with
  | zero => intro x s c T _ _ _ hd; exact absurd hd (Nat.not_lt_zero _)
  | succ fuel ih =>
    intro x s c T h1 h2 h3 hd hr ht
    rw [doneLoop_succ]
    by_cases hs : x.world.drv.writeBufferProcessed = true
    · rw [hs]; exact ⟨x, rfl⟩
    · rw [if_pos (by simpa using hs), if_neg (by rw [ht x.polls (Nat.le_refl _) (by omega)]; simp)]
      have hi := pause_idles v (hf x.yields x.world) (hp x.yields x.world) ⟨s, c, T, h1, h2, h3⟩
      obtain ⟨s1, c1, T1, g1, g2, g3, g4⟩ := pause_helps v (hf x.yields x.world) (hp x.yields x.world) (hu x.yields x.world) h1 h2 h3 hr
      rcases g4 with g4 | ⟨g4, g5, g6⟩
      · exact ih ⟨x.world.acts sc step (others x.yields x.world), x.polls + 1, x.yields + 1⟩
          s1 c1 T1 g1 g2 g3 (by dsimp only; omega) (by dsimp only; rw [hi.came, hi.handed, hi.rsize]; exact hr)
          (fun k y1 y2 => ht k (by dsimp only at y1; omega) (by dsimp only at y2; omega))
      · obtain ⟨fuel, rfl⟩ : ∃ f, fuel = f + 1 := ⟨fuel - 1, by omega⟩
        have hsp : (x.world.acts sc step (others x.yields x.world)).drv.writeBufferProcessed = true := by
          unfold Dev.writeBufferProcessed
          rw [(v.wbuf g1).bytesAvailable, g6, g5]
          rfl
        refine ⟨⟨x.world.acts sc step (others x.yields x.world), x.polls + 1, x.yields + 1⟩, ?_⟩
        rw [doneLoop_succ, if_neg (by dsimp only; rw [hsp]; simp)]

theorem write_ends (v : Serves M sc step In) (hj : Joined M sc In w) (hf : ∀ k w, ∀ a ∈ others k w, Fair sc.meaning a)
    (hp : ∀ k w, Pause sc step w (others k w)) (hu : ∀ k w, ∃ u, others k w = u ++ [.run]) {fuel : Nat} {timeout : Int} {data : List Byte}
    (hl : data.length < 2 ^ 31) (hn : w.effort + 100 * data.length < fuel)
    (hr : w.modem.came.length ≤ (handed w.drv.trace).length + w.drv.rbuf.size) (hw : data.length ≤ w.drv.wbuf.size)
    (ht : Patient ticks timeout (2 * fuel)) :
    ∃ q, Blocking.write (World.blocking sc step ticks others) fuel w.site data timeout = some (data.length, q) := by
  obtain ⟨s, c, T, h1, h2, h3⟩ := id hj
  have hd := dist_lt v.follows h1 h2
  obtain ⟨q, q1, q2, q3, q4, s', c', T', q5, q6, q7, q8⟩ := spaceLoop_ends (ticks := ticks) (start := ticks 0) (timeout := timeout) v hf hp hu
    (len := data.length) (by omega) fuel ⟨w, 1, 0⟩ s c T h1 h2 h3 (by dsimp only; omega) hr hw (fun k y1 y2 => ht k (by dsimp only at y2; omega))
  dsimp only at q2 q4 q8
  obtain ⟨r1, r2⟩ := write_act (sc := sc) v q5 data
  have e : (q.world.drv.write data).2 = data.length := by rw [r2]; omega
  rw [e, List.take_length] at r1
  obtain ⟨b, hb⟩ := v.follows.write data q5
  have eb : b = data := by
    have := (v.follows.seen hb).took
    have e1 : accepted (exec step q.world.drv [.write data]).trace = accepted q.world.drv.trace ++ data := r1
    rw [e1, (v.follows.seen q5).took] at this
    exact (List.append_cancel_left this).symm
  subst eb
  have hgo : q.world.act sc step (.write b) = ⟨exec step q.world.drv [.write b], q.world.modem.hears M.t [], q.world.under⟩ :=
    go_eq (U := []) v.follows _ _ q5 (by rw [List.append_nil]; exact hb)
  have hm2 : (q.world.act sc step (.write b)).modem = q.world.modem := by rw [hgo]; rfl
  have hw2 : (q.world.act sc step (.write b)).drv = exec step q.world.drv [.write b] := rfl
  have hd2 : (q.world.act sc step (.write b)).under = q.world.under := by rw [hgo]
  obtain ⟨z, hz⟩ := doneLoop_ends (ticks := ticks) (start := ticks 0) (timeout := timeout) v hf hp hu fuel
    ⟨q.world.act sc step (.write b), q.polls, q.yields⟩ s' _ T' (by dsimp only; rw [hw2]; exact hb)
    (by dsimp only; rw [hm2]; exact q6.write b) (by dsimp only; rw [hm2, hd2]; exact q7.hears [] rfl)
    (by
      dsimp only
      rw [hm2]
      have : dist s' { c' with wq := c'.wq ++ b, took := c'.took ++ b } q.world.modem = dist s' c' q.world.modem + 100 * b.length := by
        simp only [dist, List.length_append]; omega
      omega)
    (by
      dsimp only
      rw [hm2, q2.came, hw2, (v.follows.seen hb).gave, ← (v.follows.seen q5).gave, q2.handed, v.rcap hb]
      show _ ≤ _ + c'.rcap
      rw [← v.rcap q5, q2.rsize]; exact hr)
    (fun k y1 y2 => ht k (by dsimp only at y2; omega))
  refine ⟨z, ?_⟩
  unfold Blocking.write
  dsimp only
  have q1 : Blocking.spaceLoop (World.blocking sc step ticks others) ((World.blocking sc step ticks others).tick w.site).1 timeout b.length fuel
      ((World.blocking sc step ticks others).tick w.site).2 = some (true, q) := q1
  have hz : Blocking.doneLoop (World.blocking sc step ticks others) ((World.blocking sc step ticks others).tick w.site).1 timeout fuel
      ((World.blocking sc step ticks others).write q b).2 = some (true, z) := hz
  rw [q1]
  dsimp only
  rw [hz]
  dsimp only
  rw [show ((World.blocking sc step ticks others).write q b).1 = (q.world.drv.write b).2 from rfl, e]

end Verif.Spec
