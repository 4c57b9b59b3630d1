import Verif.Lemmas.Wedge

/-! Drivers whose serial device could not be opened. -/

namespace Verif

open Dev Spec

variable {S R X : Type}

/-- The state after `open()` failed. -/
structure Broken (se : S) (reps : List R) (d : Dev S R X) : Prop where
  snd : d.snd = se
  reset : d.resetPending = false
  rep : d.rep ∈ reps
  cs : d.cs = .notConnected

/-- Since trace `t0`: without `resetStates()` and error messages, only status requests were sent. -/
def Idles (se : S) (reps : List R) (cmds : List (List Byte)) (t0 : List Ev) (d : Dev S R X) : Prop :=
  ∃ new, d.trace = t0 ++ new ∧
    (new.all harmless = true → Broken se reps d ∧ ∀ e ∈ new, status cmds e = true)

variable {se : S} {reps : List R} {cmds : List (List Byte)} {t0 : List Ev}

theorem Idles.note {d e : Dev S R X} (h : Idles se reps cmds t0 d) (more : List Ev)
    (ht : e.trace = d.trace ++ more)
    (hm : more.all harmless = true → Broken se reps d →
      Broken se reps e ∧ ∀ x ∈ more, status cmds x = true) : Idles se reps cmds t0 e := by
  obtain ⟨new, h1, h2⟩ := h
  refine ⟨new ++ more, by rw [ht, h1, List.append_assoc], fun hh => ?_⟩
  rw [List.all_append, Bool.and_eq_true] at hh
  obtain ⟨b, hn⟩ := h2 hh.1
  obtain ⟨b', hn'⟩ := hm hh.2 b
  refine ⟨b', fun x hx => ?_⟩
  rcases List.mem_append.mp hx with q | q
  · exact hn x q
  · exact hn' x q

theorem Idles.same {d e : Dev S R X} (h : Idles se reps cmds t0 d) (ht : e.trace = d.trace)
    (h1 : e.snd = d.snd) (h2 : e.resetPending = d.resetPending) (h3 : e.rep = d.rep) (h4 : e.cs = d.cs) :
    Idles se reps cmds t0 e :=
  h.note [] (by simp [ht]) fun _ b =>
    ⟨⟨h1.trans b.snd, h2.trans b.reset, by rw [h3]; exact b.rep, h4.trans b.cs⟩, by simp⟩

theorem Idles.api {d e : Dev S R X} (h : Idles se reps cmds t0 d) (x : Ev) (ht : e.trace = d.trace ++ [x])
    (hx : status cmds x = true)
    (h1 : e.snd = d.snd) (h2 : e.resetPending = d.resetPending) (h3 : e.rep = d.rep) (h4 : e.cs = d.cs) :
    Idles se reps cmds t0 e :=
  h.note [x] ht fun _ b =>
    ⟨⟨h1.trans b.snd, h2.trans b.reset, by rw [h3]; exact b.rep, h4.trans b.cs⟩, by simp [hx]⟩

/-- A driver that was never run, or an idle one with its port closed. -/
structure Fresh (nc : S) (okr : R) (d : Dev S R X) : Prop where
  isOpen : d.isOpen = false
  snd : d.snd = nc
  rep : d.rep = okr
  reset : d.resetPending = false
  cs : d.cs = .notConnected

/-- A section that is not reached. -/
theorem Idles.never {d e : Dev S R X} (h : Idles se reps cmds t0 d)
    (ht : ∃ more, e.trace = d.trace ++ more) (hn : Broken se reps d → False) : Idles se reps cmds t0 e :=
  let ⟨more, ht⟩ := ht
  h.note more ht fun _ b => (hn b).elim

theorem grow3 (a x y z : List Ev) : ∃ more, ((a ++ x) ++ y) ++ z = a ++ more := ⟨x ++ y ++ z, by simp⟩

theorem idles_calls : Calls (Idles (X := X) se reps cmds t0) where
  io _ _ _ _ _ h := h.same rfl rfl rfl rfl rfl
  isOpen _ _ h := h.same rfl rfl rfl rfl rfl
  conn _ h _ _ := h.api .apiConnect rfl rfl rfl rfl rfl rfl
  disc0 _ h _ := h.api .apiDisconnect rfl rfl rfl rfl rfl rfl
  disc _ h _ := h.api .apiDisconnect rfl rfl rfl rfl rfl rfl
  write0 _ h _ := h.api (.apiWrite []) rfl rfl rfl rfl rfl rfl
  write _ _ h _ := h.api (.apiWrite _) rfl rfl rfl rfl rfl rfl
  read _ _ h := h.api (.apiRead _) rfl rfl rfl rfl rfl rfl
  rssi _ h := h.same rfl rfl rfl rfl rfl
  userTx _ _ _ _ h := h.api (.userTx _) rfl rfl rfl rfl rfl rfl
  userRx _ _ _ _ h := h.api (.userRx _) rfl rfl rfl rfl rfl rfl
  host _ _ _ _ h := h.same rfl rfl rfl rfl rfl

/-- A status request. -/
theorem Idles.ask {d e : Dev S R X} (h : Idles se reps cmds t0 d) {w g g' : List Byte}
    (ht : e.trace = d.trace ++ [.cmd w g, .arg lineEnd g']) (hw : w ∈ cmds) (hr : e.rep ∈ reps)
    (h1 : e.snd = d.snd) (h2 : e.resetPending = d.resetPending) (h4 : e.cs = d.cs) :
    Idles se reps cmds t0 e :=
  h.note _ ht fun _ b => ⟨⟨h1.trans b.snd, h2.trans b.reset, hr, h4.trans b.cs⟩, by
    intro x hx
    simp only [List.mem_cons, List.not_mem_nil, or_false] at hx
    rcases hx with rfl | rfl
    · simpa [status] using hw
    · rfl⟩

/-- An error message in the line buffer is one in the trace. -/
theorem harmless_line {d : Dev S R X} {l : List Byte} (hl : LineDone d l) (hh : harmless (.line l) = true) :
    ∀ w ∈ errors, d.has w = false := by
  intro w hw
  have h0 : (0 : Byte) ∉ w := by revert w; decide
  rw [hl.has_iff h0]
  have : (errors.any fun w => w.isPrefixOf l) = false := by simpa [harmless] using hh
  rw [List.any_eq_false] at this
  exact Bool.eq_false_iff.mpr (this w hw)

namespace Sim7x00

abbrev IdlesI (t0 : List Ev) : D → Prop := Idles .serialError [.okReply, .csq, .requestID] (statusSim b!"AT+CICCID") t0

theorem parseLine_broken (p : Platform) {d : D} (b : Broken .serialError [.okReply, .csq, .requestID] d)
    (he : ∀ w ∈ errors, d.has w = false) :
    Broken .serialError [.okReply, .csq, .requestID] (parseLine p d).1 := by
  have he1 := he b!"ERROR" (by decide)
  have hc : ∀ e : D, (checkState e).snd = e.snd ∧ (checkState e).resetPending = e.resetPending ∧
      (checkState e).rep = e.rep ∧ (checkState e).cs = e.cs := by
    intro e; unfold checkState; split <;> simp
  have hx : (parseWait d).2 = false ∧ Broken .serialError [.okReply, .csq, .requestID] (parseWait d).1 := by
    unfold parseWait
    (repeat' split)
    · exact ⟨rfl, b.snd, b.reset, b.rep, b.cs⟩
    · rename_i hq; rw [he1] at hq; simp at hq
    · exact ⟨rfl, b⟩
    · exact ⟨rfl, b⟩
  obtain ⟨h1, b1⟩ := hx
  have hy : Broken .serialError [.okReply, .csq, .requestID] (parseReply p (parseWait d).1).1 := by
    generalize (parseWait d).1 = d at b1
    obtain ⟨s1, s2, s3, s4⟩ := b1
    unfold parseReply
    simp only [List.mem_cons, List.not_mem_nil, or_false] at s3
    rcases s3 with s3 | s3 | s3 <;> rw [s3]
    · exact ⟨s1, s2, by simp [s3], s4⟩
    · dsimp only; split <;> exact ⟨by simpa using s1, by simpa using s2, by simp [s3], by simpa using s4⟩
    · dsimp only; split <;> exact ⟨by simpa using s1, by simpa using s2, by simp [s3], by simpa using s4⟩
  unfold parseLine
  dsimp only
  rw [if_neg (by rw [h1]; simp)]
  split
  · exact hy
  · obtain ⟨c1, c2, c3, c4⟩ := hc (parseReply p (parseWait d).1).1
    exact ⟨c1.trans hy.snd, c2.trans hy.reset, by rw [c3]; exact hy.rep, c4.trans hy.cs⟩

theorem idles_sections (p : Platform) (t0 : List Ev) : Sections p (IdlesI t0) where
  fail d h _ := h.note [] (by simp) fun _ b => ⟨⟨rfl, b.reset, b.rep, b.cs⟩, by simp⟩
  reset d h hr _ := by
    refine h.never ?_ fun b => by have := b.reset; rw [hr] at this; simp at this
    exact grow3 d.trace [.flush] [_] [_]
  line d s m l _ h _ _ hl _ := by
    refine h.note [.line l] (by rw [parseLine_trace]) fun hh b => ⟨?_, by simp [status]⟩
    have b' : Broken .serialError [.okReply, .csq, .requestID] (d.gotLine s m d.rep l) :=
      ⟨b.snd, b.reset, b.rep, b.cs⟩
    exact parseLine_broken p b' (harmless_line hl (by simpa using hh))
  drop d h _ _ hr := h.never ⟨_, rfl⟩ fun b => by have := b.snd; rw [hr] at this; simp at this
  csq d h _ _ _ _ _ _ := h.ask (sendCommand_trace2 d b!"AT+CSQ") (by decide) (by simp) rfl rfl rfl
  ident d h _ _ _ _ hq := by
    obtain ⟨v, hm, g1, g2, ht⟩ := SimDev.sendIDRequest_true hq
    refine h.ask (w := v) (g := g1) (g' := g2) (by simp [ht]) ?_ (by simp) (by simp) (by simp) (by simp)
    simp only [SimDev.idCommands, iccidCommand, List.mem_cons, List.not_mem_nil, or_false] at hm
    rcases hm with rfl | rfl | rfl | rfl | rfl <;> decide
  identNone d h hq := h.same (SimDev.sendIDRequest_false hq).1 (by simp) (by simp) (by simp) (by simp)
  act d h _ _ _ _ := by
    by_cases hs : d.snd = .serialError
    · have e : act d = d := by simp only [act, hs]
      rw [e]; exact h
    · obtain ⟨new, ht⟩ := (act_turn d).grows
      exact h.never ⟨new, ht⟩ fun b => hs b.snd

theorem idles_own (t0 : List Ev) : Own (IdlesI t0) where
  reset d h := h.note [.apiReset] rfl fun x => by simp [harmless] at x
  ext _ _ h := h.same rfl rfl rfl rfl rfl
  lock _ h _ _ := h.same rfl rfl rfl rfl rfl
  unlock _ h := h.same rfl rfl rfl rfl rfl

theorem step_isOpen (p : Platform) {d : D} {op : Op} (h : d.isOpen = false) (ho : ∀ ok, op ≠ .run ok) :
    (step p d op).isOpen = false := by
  cases op <;> first
    | exact absurd rfl (ho _)
    | (simp only [step, SimDev.connect, SimDev.setApn, SimDev.serialLock, SimDev.serialUnlock,
        SimDev.requestIDString, SimDev.resetStates, common, logConnect, ipConnect, Dev.disconnect, Dev.write, Dev.read, Dev.log,
        Dev.setHostPort, Dev.requestRSSI, Dev.serialWrite, Dev.serialRead]
       (repeat' split) <;> exact h)
    | exact h
    | rfl

theorem step_cs (p : Platform) {d : D} {op : Op} (h : d.cs = .notConnected) (ho : ∀ ok, op ≠ .run ok) :
    (step p d op).cs = .notConnected := by
  cases op <;> first
    | exact absurd rfl (ho _)
    | (simp only [step, SimDev.connect, SimDev.setApn, SimDev.serialLock, SimDev.serialUnlock,
        SimDev.requestIDString, SimDev.resetStates, common, logConnect, ipConnect, Dev.disconnect, Dev.write, Dev.read, Dev.log,
        Dev.setHostPort, Dev.requestRSSI, Dev.serialWrite, Dev.serialRead]
       (repeat' split) <;> first | exact h | rfl)
    | exact h
    | rfl

/-- Calls before the first `run()`. -/
theorem fresh_exec (p : Platform) {d : D} (h : Fresh .notConnected .okReply d) (ops : List Op)
    (ho : ∀ ok, .run ok ∉ ops) : Fresh .notConnected .okReply (exec (step p) d ops) := by
  unfold exec
  induction ops generalizing d with
  | nil => exact h
  | cons op ops ih =>
    refine ih ?_ fun ok x => ho ok (by simp [x])
    by_cases hrs : op = .resetStates
    · subst hrs
      exact ⟨h.isOpen, rfl, rfl, rfl, rfl⟩
    · have c := calm_step p d op hrs fun ok e => ho ok (by simp [e])
      refine ⟨?_, c.snd.trans h.snd, c.rep.trans h.rep, c.resetPending.trans h.reset, ?_⟩
      · exact step_isOpen p h.isOpen fun ok e => ho ok (by simp [e])
      · exact step_cs p h.cs fun ok e => ho ok (by simp [e])

theorem idles_failed (p : Platform) {d : D} (hv : Inv d) (h : Fresh .notConnected .okReply d)
    (ops : List Op) : IdlesI d.trace (exec (step p) d (.run false :: ops)) := by
  show IdlesI d.trace (exec (step p) (run p d false) ops)
  refine exec_stages (idles_sections p d.trace) idles_calls (idles_own d.trace)
    (step_inv p (.run false) hv) ?_ ops
  have e : step p d (.run false) = { d with snd := .serialError } := by
    show run p d false = _
    unfold run
    rw [if_pos h.isOpen]; rfl
  have e' : run p d false = { d with snd := .serialError } := e
  refine ⟨[], by simp [e], fun _ => ⟨?_, by simp⟩⟩
  rw [e]
  exact ⟨rfl, h.reset, by show d.rep ∈ _; rw [h.rep]; decide, h.cs⟩

end Sim7x00

namespace Sim800

abbrev IdlesI (t0 : List Ev) : D → Prop := Idles .serialError [.okReply, .csq, .requestID] (statusSim b!"AT+CCID") t0

theorem parseLine_broken (p : Platform) {d : D} (b : Broken .serialError [.okReply, .csq, .requestID] d)
    (he : ∀ w ∈ errors, d.has w = false) :
    Broken .serialError [.okReply, .csq, .requestID] (parseLine p d).1 := by
  have hi : isError d = false := by
    unfold isError; rw [he b!"+PDP: DEACT" (by decide), he b!"+CME ERROR" (by decide), he b!"ERROR" (by decide)]; rfl
  have hc : ∀ e : D, e.snd = .serialError → checkState e = e := by
    intro e hs; unfold checkState
    have : ¬ Snd.connected.idx ≤ e.snd.idx := by rw [hs]; decide
    rw [if_neg this]
  have b1 : Broken .serialError [.okReply, .csq, .requestID] (parseWait d) := by
    unfold parseWait
    split
    · exact ⟨b.snd, b.reset, b.rep, b.cs⟩
    · exact b
  have hy : Broken .serialError [.okReply, .csq, .requestID] (parseReply p (parseWait d)) := by
    generalize parseWait d = d at b1
    obtain ⟨s1, s2, s3, s4⟩ := b1
    unfold parseReply
    simp only [List.mem_cons, List.not_mem_nil, or_false] at s3
    rcases s3 with s3 | s3 | s3 <;> rw [s3]
    · exact ⟨s1, s2, by simp [s3], s4⟩
    · dsimp only
      have hz : ∀ e : D, e.snd = d.snd → e.resetPending = d.resetPending → e.rep ∈ [Rep.okReply, .csq, .requestID] →
          e.cs = d.cs → Broken .serialError [.okReply, .csq, .requestID]
            (if e.parseIDReply.2 then { e.parseIDReply.1 with rep := .okReply } else e.parseIDReply.1) := by
        intro e f1 f2 f3 f4
        split
        · exact ⟨by simp [f1, s1], by simp [f2, s2], by simp, by simp [f4, s4]⟩
        · exact ⟨by simp [f1, s1], by simp [f2, s2], by simpa using f3, by simp [f4, s4]⟩
      apply hz <;> split <;> simp [s3]
    · dsimp only; split <;> exact ⟨by simpa using s1, by simpa using s2, by simp [s3], by simpa using s4⟩
  unfold parseLine
  rw [if_neg (by rw [hi]; simp)]
  dsimp only
  rw [hc _ hy.snd]
  exact hy

theorem idles_sections (p : Platform) (t0 : List Ev) : Sections p (IdlesI t0) where
  fail d h _ := h.note [] (by simp) fun _ b => ⟨⟨rfl, b.reset, b.rep, b.cs⟩, by simp⟩
  reset d h hr _ := by
    refine h.never ⟨[.flush], ?_⟩ fun b => by have := b.reset; rw [hr] at this; simp at this
    unfold handleReset
    dsimp only
    split
    · unfold SimDev.connect ipConnect
      (repeat' split) <;> rfl
    · rfl
  line d s m l _ h _ _ hl _ := by
    refine h.note [.line l] (by rw [parseLine_trace]) fun hh b => ⟨?_, by simp [status]⟩
    have b' : Broken .serialError [.okReply, .csq, .requestID] (d.gotLine s m d.rep l) :=
      ⟨b.snd, b.reset, b.rep, b.cs⟩
    exact parseLine_broken p b' (harmless_line hl (by simpa using hh))
  drop d h _ _ hr := h.never ⟨_, rfl⟩ fun b => by have := b.snd; rw [hr] at this; simp at this
  csq d h _ _ _ _ _ _ := h.ask (sendCommand_trace2 d b!"AT+CSQ") (by decide) (by simp) rfl rfl rfl
  ident d h _ _ _ _ hq := by
    obtain ⟨v, hm, g1, g2, ht⟩ := SimDev.sendIDRequest_true hq
    refine h.ask (w := v) (g := g1) (g' := g2) (by simp [ht]) ?_ (by simp) (by simp) (by simp) (by simp)
    simp only [SimDev.idCommands, iccidCommand, List.mem_cons, List.not_mem_nil, or_false] at hm
    rcases hm with rfl | rfl | rfl | rfl | rfl <;> decide
  identNone d h hq := h.same (SimDev.sendIDRequest_false hq).1 (by simp) (by simp) (by simp) (by simp)
  act d h _ _ _ _ := by
    by_cases hs : d.snd = .serialError
    · have e : act d = d := by simp only [act, hs]
      rw [e]; exact h
    · obtain ⟨new, ht⟩ := (act_turn d).grows
      exact h.never ⟨new, ht⟩ fun b => hs b.snd

theorem idles_own (t0 : List Ev) : Own (IdlesI t0) where
  reset d h := h.note [.apiReset] rfl fun x => by simp [harmless] at x
  ext _ _ h := h.same rfl rfl rfl rfl rfl
  lock _ h _ _ := h.same rfl rfl rfl rfl rfl
  unlock _ h := h.same rfl rfl rfl rfl rfl

theorem step_isOpen (p : Platform) {d : D} {op : Op} (h : d.isOpen = false) (ho : ∀ ok, op ≠ .run ok) :
    (step p d op).isOpen = false := by
  cases op <;> first
    | exact absurd rfl (ho _)
    | (simp only [step, SimDev.connect, SimDev.setApn, SimDev.serialLock, SimDev.serialUnlock,
        SimDev.requestIDString, SimDev.resetStates, common, logConnect, ipConnect, Dev.disconnect, Dev.write, Dev.read, Dev.log,
        Dev.setHostPort, Dev.requestRSSI, Dev.serialWrite, Dev.serialRead]
       (repeat' split) <;> exact h)
    | exact h
    | rfl

theorem step_cs (p : Platform) {d : D} {op : Op} (h : d.cs = .notConnected) (ho : ∀ ok, op ≠ .run ok) :
    (step p d op).cs = .notConnected := by
  cases op <;> first
    | exact absurd rfl (ho _)
    | (simp only [step, SimDev.connect, SimDev.setApn, SimDev.serialLock, SimDev.serialUnlock,
        SimDev.requestIDString, SimDev.resetStates, common, logConnect, ipConnect, Dev.disconnect, Dev.write, Dev.read, Dev.log,
        Dev.setHostPort, Dev.requestRSSI, Dev.serialWrite, Dev.serialRead]
       (repeat' split) <;> first | exact h | rfl)
    | exact h
    | rfl

/-- Calls before the first `run()`. -/
theorem fresh_exec (p : Platform) {d : D} (h : Fresh .notConnected .okReply d) (ops : List Op)
    (ho : ∀ ok, .run ok ∉ ops) : Fresh .notConnected .okReply (exec (step p) d ops) := by
  unfold exec
  induction ops generalizing d with
  | nil => exact h
  | cons op ops ih =>
    refine ih ?_ fun ok x => ho ok (by simp [x])
    by_cases hrs : op = .resetStates
    · subst hrs
      exact ⟨h.isOpen, rfl, rfl, rfl, rfl⟩
    · have c := calm_step p d op hrs fun ok e => ho ok (by simp [e])
      refine ⟨?_, c.snd.trans h.snd, c.rep.trans h.rep, c.resetPending.trans h.reset, ?_⟩
      · exact step_isOpen p h.isOpen fun ok e => ho ok (by simp [e])
      · exact step_cs p h.cs fun ok e => ho ok (by simp [e])

theorem idles_failed (p : Platform) {d : D} (hv : Inv d) (h : Fresh .notConnected .okReply d)
    (ops : List Op) : IdlesI d.trace (exec (step p) d (.run false :: ops)) := by
  show IdlesI d.trace (exec (step p) (run p d false) ops)
  refine exec_stages (idles_sections p d.trace) idles_calls (idles_own d.trace)
    (step_inv p (.run false) hv) ?_ ops
  have e : step p d (.run false) = { d with snd := .serialError } := by
    show run p d false = _
    unfold run
    rw [if_pos h.isOpen]; rfl
  have e' : run p d false = { d with snd := .serialError } := e
  refine ⟨[], by simp [e], fun _ => ⟨?_, by simp⟩⟩
  rw [e]
  exact ⟨rfl, h.reset, by show d.rep ∈ _; rw [h.rep]; decide, h.cs⟩

end Sim800

namespace Espressif

abbrev IdlesI (t0 : List Ev) : D → Prop := Idles .serialError [.okReply, .rssi, .reqMac] (statusEsp) t0

theorem parseLine_broken (p : Platform) {d : D} (b : Broken .serialError [.okReply, .rssi, .reqMac] d)
    (he : ∀ w ∈ errors, d.has w = false) :
    Broken .serialError [.okReply, .rssi, .reqMac] (parseLine p d).1 := by
  have hi : isError d = false := by
    unfold isError; rw [he b!"ERROR" (by decide), he b!"FAIL" (by decide)]; rfl
  have hc : ∀ e : D, e.snd = .serialError → checkState p e = e := by
    intro e hs; unfold checkState
    have : ¬ Snd.connected.idx ≤ e.snd.idx := by rw [hs]; decide
    rw [if_neg this]
  have e0 : parseSendFail d = d := by
    unfold parseSendFail; rw [if_neg (by rw [b.snd]; simp)]
  have b1 : Broken .serialError [.okReply, .rssi, .reqMac] (parseWait d) := by
    unfold parseWait
    split
    · exact ⟨b.snd, b.reset, b.rep, b.cs⟩
    · exact b
  have hy : Broken .serialError [.okReply, .rssi, .reqMac] (parseReply p (parseWait d)) := by
    generalize parseWait d = d at b1
    obtain ⟨s1, s2, s3, s4⟩ := b1
    unfold parseReply
    simp only [List.mem_cons, List.not_mem_nil, or_false] at s3
    rcases s3 with s3 | s3 | s3 <;> rw [s3]
    · exact ⟨s1, s2, by simp [s3], s4⟩
    · dsimp only; (repeat' split) <;> exact ⟨s1, s2, by simp [s3], s4⟩
    · dsimp only; (repeat' split) <;> exact ⟨s1, s2, by simp [s3], s4⟩
  unfold parseLine
  rw [if_neg (by rw [hi]; simp), e0]
  dsimp only
  rw [hc _ hy.snd]
  exact hy

theorem idles_sections (p : Platform) (t0 : List Ev) : Sections p (IdlesI t0) where
  fail d h _ := h.note [] (by simp) fun _ b => ⟨⟨rfl, b.reset, b.rep, b.cs⟩, by simp⟩
  reset d h hr := by
    refine h.never ?_ fun b => by have := b.reset; rw [hr] at this; simp at this
    exact grow3 d.trace [.flush] [_] [_]
  line d s m l r _ h _ _ ha hl _ _ := by
    have hr : d.rep ∈ [Rep.okReply, .rssi, .reqMac] → r = d.rep := by
      intro hm
      rcases ha with x | ⟨x, _⟩
      · exact x
      · rw [x] at hm; simp at hm
    refine h.note [.line l] (by rw [parseLine_trace]) fun hh b => ⟨?_, by simp [status]⟩
    have b' : Broken .serialError [.okReply, .rssi, .reqMac] (d.gotLine s m r l) :=
      ⟨b.snd, b.reset, by have := hr b.rep; subst this; exact b.rep, b.cs⟩
    exact parseLine_broken p b' (harmless_line hl (by simpa using hh))
  drop d h _ _ hr := h.never ⟨_, rfl⟩ fun b => by have := b.snd; rw [hr] at this; simp at this
  csq d h _ _ _ _ _ _ := h.ask (sendCommand_trace2 d b!"AT+CWJAP?") (by decide) (by simp) rfl rfl rfl
  mac d h _ _ _ _ _ _ := h.ask (sendCommand_trace2 d b!"AT+CIPSTAMAC?") (by decide) (by simp) rfl rfl rfl
  act d h _ _ _ _ := by
    by_cases hs : d.snd = .serialError
    · have e : act d = d := by simp only [act, hs]
      rw [e]; exact h
    · obtain ⟨new, ht⟩ := (act_turn d).grows
      exact h.never ⟨new, ht⟩ fun b => hs b.snd

theorem idles_own (t0 : List Ev) : Own (IdlesI t0) where
  reset d h := h.note [.apiReset] rfl fun x => by simp [harmless] at x
  ext _ _ h := h.same rfl rfl rfl rfl rfl
  ub _ h := h.same rfl rfl rfl rfl rfl

theorem step_isOpen (p : Platform) {d : D} {op : Op} (h : d.isOpen = false) (ho : ∀ ok, op ≠ .run ok) :
    (step p d op).isOpen = false := by
  cases op <;> first
    | exact absurd rfl (ho _)
    | (simp only [step, connect, setSSID, setPassword, requestMac, resetStates,
        common, logConnect, ipConnect, Dev.disconnect, Dev.write, Dev.read, Dev.log,
        Dev.setHostPort, Dev.requestRSSI, Dev.serialWrite, Dev.serialRead]
       (repeat' split) <;> exact h)
    | exact h
    | rfl

theorem step_cs (p : Platform) {d : D} {op : Op} (h : d.cs = .notConnected) (ho : ∀ ok, op ≠ .run ok) :
    (step p d op).cs = .notConnected := by
  cases op <;> first
    | exact absurd rfl (ho _)
    | (simp only [step, connect, setSSID, setPassword, requestMac, resetStates,
        common, logConnect, ipConnect, Dev.disconnect, Dev.write, Dev.read, Dev.log,
        Dev.setHostPort, Dev.requestRSSI, Dev.serialWrite, Dev.serialRead]
       (repeat' split) <;> first | exact h | rfl)
    | exact h
    | rfl

/-- Calls before the first `run()`. -/
theorem fresh_exec (p : Platform) {d : D} (h : Fresh .notConnected .okReply d) (ops : List Op)
    (ho : ∀ ok, .run ok ∉ ops) : Fresh .notConnected .okReply (exec (step p) d ops) := by
  unfold exec
  induction ops generalizing d with
  | nil => exact h
  | cons op ops ih =>
    refine ih ?_ fun ok x => ho ok (by simp [x])
    by_cases hrs : op = .resetStates
    · subst hrs
      exact ⟨h.isOpen, rfl, rfl, rfl, rfl⟩
    · have c := calm_step p d op hrs fun ok e => ho ok (by simp [e])
      refine ⟨?_, c.snd.trans h.snd, c.rep.trans h.rep, c.resetPending.trans h.reset, ?_⟩
      · exact step_isOpen p h.isOpen fun ok e => ho ok (by simp [e])
      · exact step_cs p h.cs fun ok e => ho ok (by simp [e])

theorem idles_failed (p : Platform) {d : D} (hv : Inv d) (h : Fresh .notConnected .okReply d)
    (ops : List Op) : IdlesI d.trace (exec (step p) d (.run false :: ops)) := by
  show IdlesI d.trace (exec (step p) (run p d false) ops)
  refine exec_stages (idles_sections p d.trace) idles_calls (idles_own d.trace)
    (step_inv p (.run false) hv) ?_ ops
  have e : step p d (.run false) = { d with snd := .serialError } := by
    show run p d false = _
    unfold run
    rw [if_pos h.isOpen]; rfl
  have e' : run p d false = { d with snd := .serialError } := e
  refine ⟨[], by simp [e], fun _ => ⟨?_, by simp⟩⟩
  rw [e]
  exact ⟨rfl, h.reset, by show d.rep ∈ _; rw [h.rep]; decide, h.cs⟩

end Espressif

namespace CC1352P7

abbrev IdlesI (t0 : List Ev) : D → Prop := Idles .serialError [.okReply, .csq, .reqMac] (statusCC) t0

theorem parseLine_broken (p : Platform) {d : D} (b : Broken .serialError [.okReply, .csq, .reqMac] d)
    (he : ∀ w ∈ errors, d.has w = false) :
    Broken .serialError [.okReply, .csq, .reqMac] (parseLine p d).1 := by
  have hi : isError d = false := by
    unfold isError; rw [he b!"ERROR" (by decide), he b!"SEND FAIL" (by decide)]; simp
  have hc : ∀ e : D, e.snd = .serialError → checkState p e = e := by
    intro e hs; unfold checkState
    have : ¬ Snd.connected.idx ≤ e.snd.idx := by rw [hs]; decide
    rw [if_neg this]
  have b1 : Broken .serialError [.okReply, .csq, .reqMac] (parseWait d) := by
    unfold parseWait
    split
    · exact ⟨b.snd, b.reset, b.rep, b.cs⟩
    · exact b
  have hy : Broken .serialError [.okReply, .csq, .reqMac] (parseReply p (parseWait d)) := by
    generalize parseWait d = d at b1
    obtain ⟨s1, s2, s3, s4⟩ := b1
    unfold parseReply
    simp only [List.mem_cons, List.not_mem_nil, or_false] at s3
    rcases s3 with s3 | s3 | s3 <;> rw [s3]
    · exact ⟨s1, s2, by simp [s3], s4⟩
    · dsimp only
      unfold parseMac
      (repeat' split) <;> exact ⟨by simp [s1], by simp [s2], by simp [s3], by simp [s4]⟩
    · dsimp only
      unfold parseMac
      (repeat' split) <;> exact ⟨s1, s2, by simp [s3], s4⟩
  unfold parseLine
  rw [if_neg (by rw [hi]; simp)]
  dsimp only
  rw [hc _ hy.snd]
  exact hy

theorem idles_sections (p : Platform) (t0 : List Ev) : Sections p (IdlesI t0) where
  fail d h _ := h.note [] (by simp) fun _ b => ⟨⟨rfl, b.reset, b.rep, b.cs⟩, by simp⟩
  reset d h hr := by
    refine h.never ⟨[.flush], ?_⟩ fun b => by have := b.reset; rw [hr] at this; simp at this
    unfold handleReset
    dsimp only
    (repeat' split) <;> first | rfl | (unfold ipConnect; (repeat' split) <;> rfl)
  line d s m l _ h _ _ hl _ _ := by
    refine h.note [.line l] (by rw [parseLine_trace]) fun hh b => ⟨?_, by simp [status]⟩
    have b' : Broken .serialError [.okReply, .csq, .reqMac] (d.gotLine s m d.rep l) :=
      ⟨b.snd, b.reset, b.rep, b.cs⟩
    exact parseLine_broken p b' (harmless_line hl (by simpa using hh))
  drop d h _ _ hr := h.never ⟨_, rfl⟩ fun b => by have := b.snd; rw [hr] at this; simp at this
  csq d h _ _ _ _ _ _ := h.ask (sendCommand_trace2 d b!"AT+CSQ") (by decide) (by simp) rfl rfl rfl
  mac d h _ _ _ _ _ _ := h.ask (sendCommand_trace2 d b!"AT+CIPSTAMAC") (by decide) (by simp) rfl rfl rfl
  act d h _ _ _ _ := by
    by_cases hs : d.snd = .serialError
    · have e : act d = d := by simp only [act, hs]
      rw [e]; exact h
    · obtain ⟨new, ht⟩ := (act_turn d).grows
      exact h.never ⟨new, ht⟩ fun b => hs b.snd

theorem idles_own (t0 : List Ev) : Own (IdlesI t0) where
  reset d h := h.note [.apiReset] rfl fun x => by simp [harmless] at x
  ext _ _ h := h.same rfl rfl rfl rfl rfl

theorem step_isOpen (p : Platform) {d : D} {op : Op} (h : d.isOpen = false) (ho : ∀ ok, op ≠ .run ok) :
    (step p d op).isOpen = false := by
  cases op <;> first
    | exact absurd rfl (ho _)
    | (simp only [step, requestMac, resetStates, common, logConnect, ipConnect, Dev.disconnect, Dev.write, Dev.read, Dev.log,
        Dev.setHostPort, Dev.requestRSSI, Dev.serialWrite, Dev.serialRead]
       (repeat' split) <;> exact h)
    | exact h
    | rfl

theorem step_cs (p : Platform) {d : D} {op : Op} (h : d.cs = .notConnected) (ho : ∀ ok, op ≠ .run ok) :
    (step p d op).cs = .notConnected := by
  cases op <;> first
    | exact absurd rfl (ho _)
    | (simp only [step, requestMac, resetStates, common, logConnect, ipConnect, Dev.disconnect, Dev.write, Dev.read, Dev.log,
        Dev.setHostPort, Dev.requestRSSI, Dev.serialWrite, Dev.serialRead]
       (repeat' split) <;> first | exact h | rfl)
    | exact h
    | rfl

/-- Calls before the first `run()`. -/
theorem fresh_exec (p : Platform) {d : D} (h : Fresh .notConnected .okReply d) (ops : List Op)
    (ho : ∀ ok, .run ok ∉ ops) : Fresh .notConnected .okReply (exec (step p) d ops) := by
  unfold exec
  induction ops generalizing d with
  | nil => exact h
  | cons op ops ih =>
    refine ih ?_ fun ok x => ho ok (by simp [x])
    by_cases hrs : op = .resetStates
    · subst hrs
      exact ⟨h.isOpen, rfl, rfl, rfl, rfl⟩
    · have c := calm_step p d op hrs fun ok e => ho ok (by simp [e])
      refine ⟨?_, c.snd.trans h.snd, c.rep.trans h.rep, c.resetPending.trans h.reset, ?_⟩
      · exact step_isOpen p h.isOpen fun ok e => ho ok (by simp [e])
      · exact step_cs p h.cs fun ok e => ho ok (by simp [e])

theorem idles_failed (p : Platform) {d : D} (hv : Inv d) (h : Fresh .notConnected .okReply d)
    (ops : List Op) : IdlesI d.trace (exec (step p) d (.run false :: ops)) := by
  show IdlesI d.trace (exec (step p) (run p d false) ops)
  refine exec_stages (idles_sections p d.trace) idles_calls (idles_own d.trace)
    (step_inv p (.run false) hv) ?_ ops
  have e : step p d (.run false) = { d with snd := .serialError } := by
    show run p d false = _
    unfold run
    rw [if_pos h.isOpen]; rfl
  have e' : run p d false = { d with snd := .serialError } := e
  refine ⟨[], by simp [e], fun _ => ⟨?_, by simp⟩⟩
  rw [e]
  exact ⟨rfl, h.reset, by show d.rep ∈ _; rw [h.rep]; decide, h.cs⟩

end CC1352P7

end Verif
