import Verif.Lemmas.ChatCC
import Verif.Lemmas.Recovery

/-! The CC1352P7 driver and a modem that refuses commands. -/

namespace Verif

open Dev Spec

namespace CC1352P7

variable {p : Platform} {c : Conf} {t0 : List Ev} {T : List (List Byte)} {q : St Snd Rep}
  {d g : D} {n : Nat} {l : List Byte}

/-- A refusal was noticed. -/
def Failed (p : Platform) (c : Conf) (t0 : List Ev) (T : List (List Byte)) (q : St Snd Rep) (d : D) : Prop :=
  ∃ g, Chat p c t0 T q g ∧ g.ser.txFree = c.tx ∧ d = ({ g with resetPending := true, cs := .generalError, wait := none } : D)

/-- The driver waits for the end of the connection; then it connects again. -/
def Shut (p : Platform) (c : Conf) (t0 : List Ev) (T : List (List Byte)) (d : D) : Prop :=
  Chat p c t0 T ⟨.finalizeDisconnect, .okReply, some b!"OK", .intermediate, false, true, false⟩ d

/-- The driver is about to connect again. -/
def Anew (p : Platform) (c : Conf) (t0 : List Ev) (T : List (List Byte)) (d : D) : Prop :=
  Chat p c t0 T ⟨.notConnected, .okReply, none, .notConnected, false, true, false⟩ d ∧ d.ser.txFree = c.tx

/-- The driver connects. -/
def Dials (p : Platform) (c : Conf) (t0 : List Ev) (T : List (List Byte)) (d : D) : Prop :=
  Chat p c t0 T (at_ .connecting .okReply none .notConnected) d ∧ d.ser.txFree = c.tx

theorem dials_run (ht : 20 ≤ c.tx) (h : Dials p c t0 T d) :
    Chat p c t0 (T ++ [b!"ATE0\r\n"]) (at_ .sendCipstart .okReply (some b!"OK") .intermediate) (step p d (.run true)) := by
  show Chat _ _ _ _ _ (run p d true)
  rw [run_calm h.1 (by simp), proceed_act h.1 rfl rfl (by rw [h.2]; exact ht)]
  exact act_connecting h.1 (by rw [h.2]; simp; omega)

theorem anew_run (ht : 20 ≤ c.tx) (h : Anew p c t0 T d) : Dials p c t0 T (step p d (.run true)) := by
  show Dials _ _ _ _ (run p d true)
  rw [run_calm h.1 (by simp), proceed_act h.1 rfl rfl (by rw [h.2]; exact ht)]
  have := act_notConnected h.1
  exact ⟨this.1, by rw [this.2]; exact h.2⟩

theorem work_calm (h : Chat p c t0 T q d) (hs : q.snd ≠ .receiving) : work p d = proceed p d := by
  rw [← run_work h, run_calm h hs]

theorem handleReset_eq (d : D) (h1 : d.cs ≠ .notConnected) (h3 : ¬ (d.host = none ∨ d.port = 0)) :
    handleReset d = { d.flushSer with
      bytesToRead := 0, bytesToReceive := 0, bytesToWrite := 0
      snd := .sendCipclose
      rep := .okReply, wait := none, resetPending := false, connectPending := true } := by
  have ec : ∀ f : D, f.host = d.host → f.port = d.port → f.ipConnect.1 = { f with connectPending := true } := by
    intro f f2 f3
    unfold Dev.ipConnect
    rw [if_neg (by rw [f2, f3]; exact h3)]
  unfold handleReset
  dsimp only
  rw [if_pos (show d.flushSer.cs ≠ _ from h1)]
  exact ec _ rfl rfl

theorem failed_run (hz : c.rd = 0 ∧ c.bw = 0) (hI : c.Idle) (hh : c.host ≠ none) (hp : c.port ≠ 0) (ht : 20 ≤ c.tx) (hq : q.disc = false ∧ q.ask = false)
    (h : Failed p c t0 T q d) : Shut p c t0 (T ++ [b!"AT+CIPCLOSE\r\n"]) (step p d (.run true)) := by
  obtain ⟨g, h1, h2, rfl⟩ := h
  have k := h1.flush
  have e : handleReset ({ g with resetPending := true, cs := .generalError, wait := none } : D) =
      { g.flushSer with
        snd := .sendCipclose, rep := .okReply, wait := none, cs := .generalError, connectPending := true, lineRead := true } := by
    have a2 := h1.calm.reset
    have a3 := h1.calm.lineRead
    have a4 := h1.rd.trans hz.1
    have a5 := h1.rcv.trans hI.2.2
    have a6 := h1.bw.trans hz.2
    rw [handleReset_eq _ (by simp) (by show ¬ (g.host = none ∨ g.port = 0); rw [h1.host, h1.port]; simp [hh, hp])]
    clear k h1 h2 hq
    cases g
    simp only at a2 a3 a4 a5 a6
    subst a2 a3 a4 a5 a6
    rfl
  have k2 : Chat p c t0 T ⟨.sendCipclose, .okReply, none, .generalError, false, true, false⟩
      (handleReset ({ g with resetPending := true, cs := .generalError, wait := none } : D)) := by
    rw [e]
    refine Talk.setAt k.1 _ ?_ ?_ ?_ ?_ ?_
    · rfl
    · rfl
    · rfl
    · rfl
    show (⟨_, _, _, _, g.disconnectPending, _, decide (g.rssi = int16Max)⟩ : St _ _) = _
    simp [h1.disc, hq.1, h1.ask, hq.2]
  have k3 : (handleReset ({ g with resetPending := true, cs := .generalError, wait := none } : D)).ser.txFree = c.tx := by
    rw [e]; exact k.2.trans h2
  show Shut _ _ _ _ (run p _ true)
  unfold run
  rw [if_neg (by simp [h1.calm.isOpen]), if_pos rfl, work_calm k2 (by simp), proceed_act k2 rfl rfl (by omega)]
  generalize handleReset ({ g with resetPending := true, cs := .generalError, wait := none } : D) = r at *
  have hx : b!"AT+CIPCLOSE\r\n".length ≤ r.ser.txFree := by rw [k3]; simp; omega
  unfold Shut act
  rw [k2.snd]
  said k2 hx (Wrote.command k2.calm.ser _ (by decide))

theorem parseLine_error (hl : LineDone g l) (h1 : b!"ERROR" <+: l ∨ Snd.connected.idx ≤ g.snd.idx ∧ b!"SEND FAIL" <+: l) :
    parseLine p g = (({ g with resetPending := true, cs := .generalError, wait := none } : D), true) := by
  have e : isError g = true := by
    unfold isError
    rcases h1 with h1 | ⟨h0, h1⟩
    · rw [hl.has_true (by decide) h1]; simp
    · rw [hl.has_true (lit := b!"SEND FAIL") (by decide) h1]; simp [h0]
  unfold parseLine
  rw [if_pos e]

section
variable (p) (hr : 60 ≤ c.rx) (ht : 20 ≤ c.tx) (hn : c.tx ≤ n) (hI : c.Idle) (hz : c.rd = 0 ∧ c.bw = 0) (hm : c.part = [])
  (hh : c.host ≠ none) (hp : c.port ≠ 0)
include hr ht hn hI hz hm hh hp

/-- A refusal. -/
theorem refused_at {P : List Byte → D → Prop} {bad idle : List Byte → Prop} (hP : ∀ u d, P u d → Chat p (c.mid u) t0 T q d)
    (hq : q.disc = false ∧ q.ask = false) (hbad : ∀ l, bad l → b!"ERROR" <+: l ∨ Snd.connected.idx ≤ q.snd.idx ∧ b!"SEND FAIL" <+: l)
    (h1 : ∀ u d, P u d → P u (step p d (.run true)))
    (h2 : ∀ u v z d, P u d → IsLine (u ++ v ++ z) → z ≠ [] → P (u ++ v) (step p (hearing d n v) (.run true)))
    (h3 : ∀ u v d, P u d → IsLine (u ++ v) → v ≠ [] → idle (u ++ v) → P [] (step p (hearing d n v) (.run true)))
    (h : P [] d) {b : Beat} (hab : Answers ⟨bad, idle⟩ b) (hsl : b.Slow) :
    Shut p c t0 (T ++ [b!"AT+CIPCLOSE\r\n"]) (exec (step p) d (b.ops n)) := by
  have e0 := Conf.mid_nil hm
  refine exec_slow (P := P) (a := ⟨bad, idle⟩) (Q0 := Failed p c t0 T q)
    (Q1 := Shut p c t0 (T ++ [b!"AT+CIPCLOSE\r\n"])) step_irq h1
    (fun u v z d hd hl hz _ => h2 u v z d hd hl hz) h3
    (fun u v d hd hl hv hx => ?_) (fun d hd => failed_run hz hI hh hp ht hq hd)
    (fun d hd => wait_idle p hd (by simp) (by simp)) (fun d hd => wait_idle p hd (by simp) (by simp)) h hab hsl
  obtain ⟨g, k1, k2, k3, k4, e⟩ := run_heard (p := p) (hP _ _ hd) hn hl hv hr
  rw [e0] at k1
  show Failed _ _ _ _ _ (run p _ true)
  rw [e, parseLine_error k2 (by rw [k1.snd]; exact hbad _ hx)]
  exact ⟨g, k1, k3, rfl⟩

/-- A refusal while an answer is awaited. -/
theorem refused {bad idle : List Byte → Prop} (hw0 : q.wait ≠ none) (hq : q.disc = false ∧ q.ask = false) (hs : q.snd ≠ .receiving)
    (hbad : ∀ l, bad l → b!"ERROR" <+: l ∨ Snd.connected.idx ≤ q.snd.idx ∧ b!"SEND FAIL" <+: l)
    (hi : ∀ g l, Chat p c t0 T q g → LineDone g l → idle l →
      parseLine p g = (g, false) ∨ parseLine p g = ({ g with ipConnected := false }, false))
    (h : Chat p c t0 T q d) {b : Beat} (hab : Answers ⟨bad, idle⟩ b) (hsl : b.Slow) :
    Shut p c t0 (T ++ [b!"AT+CIPCLOSE\r\n"]) (exec (step p) d (b.ops n)) := by
  have e0 := Conf.mid_nil hm
  refine refused_at p hr ht hn hI hz hm hh hp (P := fun u => Chat p (c.mid u) t0 T q) (fun _ _ h => h) hq hbad
    (fun u d hd => wait_idle p hd hw0 hs) (fun u v z d hd hl hz => wait_more p hr ht hn hd hw0 hs hl hz)
    (fun u v d hd hl hv hx => ?_) (e0.symm ▸ h) hab hsl
  obtain ⟨g, h1, h2, h3, h4, e⟩ := run_heard (p := p) hd hn hl hv hr
  show Talk (c.mid []) _ _ _ _ (run p _ true)
  rw [e0] at h1 ⊢
  rcases hi g _ h1 h2 hx with y | y
  · rw [e, y]
    simp only [Bool.false_eq_true, if_false]
    rw [proceed_wait h1 (.inl hw0)]; exact h1
  · have h5 : Chat p c t0 T q ({ g with ipConnected := false } : D) := by
      refine Talk.setAt h1 _ ?_ ?_ ?_ ?_ ?_
      · rfl
      · rfl
      · rfl
      · exact h1.calm.lineRead
      · exact h1.st
    rw [e, y]
    simp only [Bool.false_eq_true, if_false]
    rw [proceed_wait h5 (.inl hw0)]; exact h5

omit hr ht hn hI hz hm hh hp in
theorem shut_idle (hg : Chat p c t0 T ⟨.finalizeDisconnect, .okReply, some b!"OK", .intermediate, false, true, false⟩ g) (hl : LineDone g l)
    (hi : Clear [b!"OK", b!"ERROR", b!"SEND FAIL", b!"+IPD"] l) :
    parseLine p g = (g, false) ∨ parseLine p g = ({ g with ipConnected := false }, false) := by
  rw [parseLine_eq (isError_clear hl (clear_mono hi (by simp))) (parseWait_clear hl hg.wait (by decide) (hi _ (by simp))) (parseReply_ok hg.rep)]
  rcases checkState_high (p := p) (d := g) (by rw [hg.snd]; decide) hl (hi _ (by simp)) with y | y
  · exact .inl (by rw [y])
  · exact .inr (by rw [y])

theorem shut_refused (h : Shut p c t0 T d) {b : Beat}
    (hb : Answers ⟨fun l => b!"ERROR" <+: l ∨ b!"SEND FAIL" <+: l, Clear [b!"OK", b!"ERROR", b!"SEND FAIL", b!"+IPD"]⟩ b) (hsl : b.Slow) :
    Shut p c t0 (T ++ [b!"AT+CIPCLOSE\r\n"]) (exec (step p) d (b.ops n)) :=
  refused p hr ht hn hI hz hm hh hp (by simp) ⟨rfl, rfl⟩ (by simp) (fun l hx => Or.imp id (fun y => ⟨by decide, y⟩) hx)
    (fun _ _ hg hl hi => shut_idle p hg hl hi) h hb hsl

omit hI hz hh hp in
theorem shut_answer (h : Shut p c t0 T d) {b : Beat}
    (hb : Answers (await b!"OK" [b!"ERROR", b!"SEND FAIL", b!"+IPD"]) b) (hsl : b.Slow) :
    Chat p c t0 (T ++ [b!"ATE0\r\n"]) (at_ .sendCipstart .okReply (some b!"OK") .intermediate) (exec (step p) d (b.ops n)) := by
  have e0 := Conf.mid_nil hm
  refine exec_slow (P := fun u => Chat p (c.mid u) t0 T ⟨.finalizeDisconnect, .okReply, some b!"OK", .intermediate, false, true, false⟩)
    (a := await b!"OK" [b!"ERROR", b!"SEND FAIL", b!"+IPD"])
    (Q0 := Anew p c t0 T) (Q1 := Dials p c t0 T) step_irq
    (fun u d hd => wait_idle p hd (by simp) (by simp)) (fun u v z d hd hl hz _ => wait_more p hr ht hn hd (by simp) (by simp) hl hz)
    (fun u v d hd hl hv hx => ?_)
    (fun u v d hd hl hv hx => ?_) (fun d hd => anew_run ht hd) (fun d hd => dials_run ht hd)
    (fun d hd => wait_idle p hd (by simp) (by simp)) (e0.symm ▸ h) hb hsl
  · obtain ⟨g, h1, h2, h3, h4, e⟩ := run_heard (p := p) hd hn hl hv hr
    show Talk (c.mid []) _ _ _ _ (run p _ true)
    rw [e0] at h1 ⊢
    rcases shut_idle p h1 h2 hx with y | y
    · rw [e, y]
      simp only [Bool.false_eq_true, if_false]
      rw [proceed_wait h1 (.inl (by simp))]; exact h1
    · have h5 : Chat p c t0 T ⟨.finalizeDisconnect, .okReply, some b!"OK", .intermediate, false, true, false⟩ ({ g with ipConnected := false } : D) := by
        moved h1
      rw [e, y]
      simp only [Bool.false_eq_true, if_false]
      rw [proceed_wait h5 (.inl (by simp))]; exact h5
  · obtain ⟨g, h1, h2, h3, h4, e⟩ := run_heard (p := p) hd hn hl hv hr
    rw [e0] at h1
    have hpl : parseLine p g = ({ g with wait := none }, false) := by
      rw [parseLine_eq (isError_clear h2 (clear_of hx (by decide))) (parseWait_good h2 h1.wait (by decide) hx) (parseReply_ok h1.rep),
        checkState_clear (d := ({ g with wait := none } : D)) ⟨h2.text, h2.zero, h2.fill⟩ (clear_of hx (by decide))]
    have hg : Chat p c t0 T ⟨.finalizeDisconnect, .okReply, none, .intermediate, false, true, false⟩ ({ g with wait := none } : D) := by
      moved h1
    show Anew _ _ _ _ (run p _ true)
    rw [e, hpl]
    simp only [Bool.false_eq_true, if_false]
    rw [proceed_act hg rfl rfl (by show 20 ≤ g.ser.txFree; omega)]
    unfold act
    rw [hg.snd]
    refine ⟨?_, h3⟩
    refine Talk.setAt hg _ ?_ ?_ ?_ ?_ ?_
    · rfl
    · rfl
    · rfl
    · exact h1.calm.lineRead
    · simp [Dev.st, h1.rep, h1.disc, h1.conn, h1.ask]

/-- A refusal while a plain answer is awaited. -/
theorem refused_ok {s : Snd} {cs : ConnState} (hlow : ¬ Snd.connected.idx ≤ s.idx)
    (h : Chat p c t0 T (at_ s .okReply (some b!"OK") cs) d) {b : Beat}
    (hab : Answers ⟨fun l => b!"ERROR" <+: l, (await b!"OK" [b!"ERROR"]).idle⟩ b) (hsl : b.Slow) :
    Shut p c t0 (T ++ [b!"AT+CIPCLOSE\r\n"]) (exec (step p) d (b.ops n)) := by
  refine refused p hr ht hn hI hz hm hh hp (by simp) ⟨rfl, rfl⟩ (fun x => hlow (by rw [show s = .receiving from x]; decide)) (fun l hx => .inl hx)
    (fun g l hg hl hi => .inl ?_) h hab hsl
  rw [parseLine_eq (isError_low (by rw [hg.snd]; exact hlow) hl (hi _ (by simp)))
    (parseWait_clear hl hg.wait (by decide) (hi _ (by simp))) (parseReply_ok hg.rep), checkState_low (by rw [hg.snd]; exact hlow)]

/-- An error in the connection. -/
theorem up_refused (h : Up p c t0 T d) {b : Beat} (hb : Answers ⟨among [b!"ERROR", b!"SEND FAIL"], stayCC⟩ b) (hsl : b.Slow) :
    Shut p c t0 (T ++ [b!"AT+CIPCLOSE\r\n"]) (exec (step p) d (b.ops n)) := by
  have e0 := Conf.mid_nil hm
  refine refused_at p hr ht hn hI hz hm hh hp (P := fun u => Up p (c.mid u) t0 T) (fun _ _ h => h.1) ⟨rfl, rfl⟩ (fun l hx => ?_)
    (fun u d hd => up_idle (c := c.mid u) p hr ht hn hI hd) (fun u v z d hd hl hz => up_more p hr ht hn hI hd hl hz)
    (fun u v d hd hl hv hx => up_noise p hr ht hn hI hd hl hv hx) (e0.symm ▸ h) hb hsl
  obtain ⟨w, hw, hx⟩ := hx
  simp only [List.mem_cons, List.not_mem_nil, or_false] at hw
  rcases hw with rfl | rfl
  · exact .inl hx
  · exact .inr ⟨by decide, hx⟩

end

/-- The steps on the way to a connection. -/
def Step (p : Platform) (c : Conf) (r : Peer) (t0 : List Ev) (T : List (List Byte)) : Nat → D → Prop
  | 0, d => Shut p c t0 T d
  | k + 1, d => k ≤ 2 ∧ ∃ T', T = T' ++ says ((openCC r).take k) ∧ Stage p c r t0 T' k d

theorem step_one {r : Peer} (h : Chat p c t0 T (at_ .sendCipstart .okReply (some b!"OK") .intermediate) d) : Step p c r t0 T 1 d :=
  ⟨Nat.zero_le _, T, by simp [says], (by
    show Chat _ _ _ (T ++ says ((openCC r).take 0)) _ _
    rw [show says ((openCC r).take 0) = [] from rfl, List.append_nil]
    exact h : Stage p c r t0 T 0 d)⟩

section
variable (p) (hr : 60 ≤ c.rx) (ht : 20 ≤ c.tx) (hn : c.tx ≤ n) (hI : c.Idle) (hz : c.rd = 0 ∧ c.bw = 0) (hm : c.part = [])
include hr ht hn hI hz hm

omit hz in
theorem step_answer {r : Peer} (hk : r.Ok) (hc : c.host = some r.host) (hp : c.port = r.port.toNat)
    (hy : c.typ = r.typ) (hx : ∀ t ∈ says (openCC r), t.length ≤ c.tx)
    (T : List (List Byte)) (i : Nat) (h : i < (planCC r).steps.length) (d : D) (b : Beat) (hs : Step p c r t0 T i d)
    (hb : Answers (planCC r).steps[i].await b) (hsl : i = 0 → b.Slow) :
    Step p c r t0 (T ++ (planCC r).steps[i].said) (i + 1) (exec (step p) d (b.ops n)) := by
  cases i with
  | zero => exact step_one (shut_answer p hr ht hn hm hs hb (hsl rfl))
  | succ k =>
    obtain ⟨_, T', rfl, h1⟩ := hs
    have hk2 : k < (openCC r).length := by
      have : k + 1 < (openCC r).length + 1 := h
      omega
    have h9 : (openCC r).length = 2 := rfl
    refine ⟨by omega, T', ?_, open_stage p hr ht hn hI hm hk hc hp hy hx k hk2 d b h1 hb⟩
    exact (says_succ _ _ _ hk2).symm

theorem step_refused {r : Peer} (hh : c.host ≠ none) (hp : c.port ≠ 0) (T : List (List Byte)) (i : Nat) (d : D) (b : Beat) (hs : Step p c r t0 T i d)
    (hb : Answers ((planCC r).refusal i) b) (hsl : b.Slow) :
    Step p c r t0 (T ++ (planCC r).says i) ((planCC r).back i) (exec (step p) d (b.ops n)) := by
  cases i with
  | zero =>
    refine shut_refused p hr ht hn hI hz hm hh hp hs ⟨?_, hb.noise⟩ hsl
    have := hb.answer
    exact ⟨this.1, this.2.1, by simpa [planCC, againCC, refuse] using this.2.2⟩
  | succ k =>
    obtain ⟨h9, T', rfl, h1⟩ := hs
    match k, h9, h1, hb with
    | 0, _, h1, hb =>
      refine refused_ok p hr ht hn hI hz hm hh hp (by decide) h1 ⟨?_, hb.noise⟩ hsl
      have := hb.answer
      exact ⟨this.1, this.2.1, by simpa [planCC, againCC, openCC, refuse] using this.2.2⟩
    | 1, _, h1, hb =>
      refine refused_ok p hr ht hn hI hz hm hh hp (by decide) h1 ⟨?_, hb.noise⟩ hsl
      have := hb.answer
      exact ⟨this.1, this.2.1, by simpa [planCC, againCC, openCC, refuse] using this.2.2⟩
    | 2, _, h1, hb => exact up_refused p hr ht hn hI hz hm hh hp h1 hb hsl

/-- `connect()`, setbacks, and the modem gives answers up to step `j`. -/
theorem recover_ok {r : Peer} (hk : r.Ok) (hx : ∀ t ∈ visitCC r, t.length ≤ c.tx)
    (h : Down p c t0 T d) (m : Nat) {ss : List Setback} {U V : List (List Byte)} {i j : Nat}
    (hs : (planCC r).Setbacks 1 ss U i) {bs : List Beat} (hb : (planCC r).Steps i bs V j) :
    Step p (c.to r) r t0 (T ++ [b!"ATE0\r\n"] ++ U ++ V) j
      (exec (step p) d (setupCC r ++ (dial m ++ (setbacks n ss ++ Spec.ops n bs)))) := by
  have h1 := setup_ok (p := p) h r
  rw [exec_append, exec_append, exec_append]
  have h2 := dial_ok (c := c.to r) p hr ht hn hI hm h1 (by simp) (hk.port_ne) m
  have hx2 : ∀ t ∈ says (openCC r), t.length ≤ c.tx := fun t m => hx t (by unfold visitCC; simp [m])
  have h4 := exec_setbacks (step := step p) (P := Step p (c.to r) r t0) (pl := planCC r)
    (step_answer (c := c.to r) p hr ht hn hI hm hk rfl rfl rfl hx2) (step_refused (c := c.to r) p hr ht hn hI hz hm (by simp) hk.port_ne)
    (step_one h2) hs
  exact exec_steps (step := step p) (P := Step p (c.to r) r t0) (pl := planCC r)
    (step_answer (c := c.to r) p hr ht hn hI hm hk rfl rfl rfl hx2) h4 hb

end
end CC1352P7
end Verif
