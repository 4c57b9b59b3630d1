import Verif.Lemmas.Chat800
import Verif.Lemmas.Recovery

/-! The SIM800 driver and a modem that refuses commands. -/

namespace Verif

open Dev Spec

namespace Sim800

variable {p : Platform} {c : Conf} {apn addr : Option (List Byte)} {t0 : List Ev} {T : List (List Byte)} {q : St Snd Rep}
  {d g : D} {n : Nat} {l : List Byte} {a : List Byte}

/-- A refusal was noticed. -/
def Failed (c : Conf) (apn addr : Option (List Byte)) (t0 : List Ev) (T : List (List Byte)) (q : St Snd Rep) (d : D) : Prop :=
  ∃ g x y, Chat c apn addr t0 T q g ∧ g.ser.txFree = c.tx ∧ (x = .generalError ∨ x = .intermediate) ∧
    d = ({ g with resetPending := true, cs := x, wait := y } : D)

/-- The driver waits for the end of the connection; then it connects again. -/
def Shut (c : Conf) (apn addr : Option (List Byte)) (t0 : List Ev) (T : List (List Byte)) (d : D) : Prop :=
  Chat c apn addr t0 T ⟨.finalizeDisconnect, .okReply, some b!"SHUT OK", .intermediate, false, true, false⟩ d

/-- The driver is about to connect again. -/
def Anew (c : Conf) (apn addr : Option (List Byte)) (t0 : List Ev) (T : List (List Byte)) (d : D) : Prop :=
  Chat c apn addr t0 T ⟨.notConnected, .okReply, none, .notConnected, false, true, false⟩ d ∧ d.ser.txFree = c.tx

/-- The driver connects. -/
def Dials (c : Conf) (apn addr : Option (List Byte)) (t0 : List Ev) (T : List (List Byte)) (d : D) : Prop :=
  Chat c apn addr t0 T (at_ .connecting .okReply none .notConnected) d ∧ d.ser.txFree = c.tx

theorem dials_run (ht : 20 ≤ c.tx) (h : Dials c apn addr t0 T d) :
    Chat c apn addr t0 (T ++ [b!"ATE0\r\n"]) (at_ .sendCiprxget .okReply (some b!"OK") .intermediate) (step p d (.run true)) := by
  show Chat _ _ _ _ _ _ (run p d true)
  rw [run_calm h.1 (by simp), proceed_act h.1 rfl rfl (by rw [h.2]; exact ht)]
  exact act_connecting h.1 (by rw [h.2]; simp; omega)

theorem anew_run (ht : 20 ≤ c.tx) (h : Anew c apn addr t0 T d) : Dials c apn addr t0 T (step p d (.run true)) := by
  show Dials _ _ _ _ _ (run p d true)
  rw [run_calm h.1 (by simp), proceed_act h.1 rfl rfl (by rw [h.2]; exact ht)]
  have := act_notConnected h.1
  exact ⟨this.1, by rw [this.2]; exact h.2⟩

theorem handleReset_eq (d : D) (h1 : d.cs ≠ .notConnected) (h2 : d.ext.apn ≠ none) (h3 : ¬ (d.host = none ∨ d.port = 0)) :
    handleReset d = { d.flushSer with
      bytesToRead := 0, bytesToReceive := 0, bytesToWrite := 0
      snd := if d.snd.idx < Snd.sendCiicr.idx ∨ d.snd.idx > Snd.sendCipshut.idx then Snd.notConnected else Snd.sendCipshut
      rep := .okReply, wait := none, resetPending := false, delay := 2000, connectPending := true } := by
  have ec : ∀ f : D, f.ext = d.ext → f.host = d.host → f.port = d.port → (SimDev.connect f).1 = { f with connectPending := true } := by
    intro f f1 f2 f3
    unfold SimDev.connect Dev.ipConnect
    rw [if_neg (by rw [f1]; exact h2), if_neg (by rw [f2, f3]; exact h3)]
  unfold handleReset
  dsimp only
  rw [if_pos (show d.flushSer.cs ≠ _ from h1)]
  exact ec _ rfl rfl rfl

/-- The state after the reset of the driver. -/
theorem failed_reset (hz : c.rd = 0 ∧ c.bw = 0) (hI : c.Idle) (hh : c.host ≠ none) (hp : c.port ≠ 0) (hq : q.disc = false ∧ q.ask = false)
    (h : Failed c (some a) addr t0 T q d) :
    ∃ x, run p d true = work p (handleReset d) ∧ (handleReset d).ser.txFree = c.tx ∧
      Chat c (some a) none t0 T ⟨if q.snd.idx < Snd.sendCiicr.idx ∨ q.snd.idx > Snd.sendCipshut.idx then .notConnected else .sendCipshut,
        .okReply, none, x, false, true, false⟩ (handleReset d) := by
  obtain ⟨g, x, y, h1, h2, h3, rfl⟩ := h
  have k := h1.flush
  have k1 := k.1.ext_mono fun _ x => x.forget
  have e : handleReset ({ g with resetPending := true, cs := x, wait := y } : D) =
      { g.flushSer with
        snd := if q.snd.idx < Snd.sendCiicr.idx ∨ q.snd.idx > Snd.sendCipshut.idx then Snd.notConnected else Snd.sendCipshut
        rep := .okReply, wait := none, cs := x, delay := 2000, connectPending := true, lineRead := true } := by
    have a2 := h1.calm.reset
    have a3 := h1.calm.lineRead
    have a4 := h1.rd.trans hz.1
    have a5 := h1.rcv.trans hI.2.2
    have a6 := h1.bw.trans hz.2
    have hx : x ≠ .notConnected := by rcases h3 with rfl | rfl <;> decide
    rw [handleReset_eq _ hx (by show g.ext.apn ≠ none; rw [h1.ext.apn]; simp)
      (by show ¬ (g.host = none ∨ g.port = 0); rw [h1.host, h1.port]; simp [hh, hp]), ← h1.snd]
    clear k1 k h1 h2 hq
    cases g
    simp only at a2 a3 a4 a5 a6
    subst a2 a3 a4 a5 a6
    rfl
  refine ⟨x, ?_, ?_, ?_⟩
  · unfold run
    rw [if_neg (by simp [h1.calm.isOpen]), if_neg (by simp [h1.calm.lock]), if_pos rfl]
  · rw [e]; exact k.2.trans h2
  · rw [e]
    refine Talk.setAt k1 _ ?_ ?_ ?_ ?_ ?_
    · rfl
    · rfl
    · rfl
    · rfl
    show (⟨_, _, _, _, g.disconnectPending, _, decide (g.rssi = int16Max)⟩ : St _ _) = _
    simp [h1.disc, hq.1, h1.ask, hq.2]

theorem work_calm (h : Chat c apn addr t0 T q d) (hs : q.snd ≠ .receiving) : work p d = proceed d := by
  rw [← run_work h, run_calm h hs]

theorem failed_low (hz : c.rd = 0 ∧ c.bw = 0) (hI : c.Idle) (hh : c.host ≠ none) (hp : c.port ≠ 0) (ht : 20 ≤ c.tx) (hq : q.disc = false ∧ q.ask = false)
    (hs : q.snd.idx < Snd.sendCiicr.idx ∨ q.snd.idx > Snd.sendCipshut.idx)
    (h : Failed c (some a) addr t0 T q d) : Dials c (some a) none t0 T (step p d (.run true)) := by
  obtain ⟨x, e, h1, h2⟩ := failed_reset (p := p) hz hI hh hp hq h
  rw [if_pos hs] at h2
  show Dials _ _ _ _ _ (run p d true)
  rw [e, work_calm h2 (by simp), proceed_act h2 rfl rfl (by omega)]
  have := act_notConnected h2
  exact ⟨this.1, by rw [this.2]; exact h1⟩

theorem failed_high (hz : c.rd = 0 ∧ c.bw = 0) (hI : c.Idle) (hh : c.host ≠ none) (hp : c.port ≠ 0) (ht : 20 ≤ c.tx) (hq : q.disc = false ∧ q.ask = false)
    (hs : ¬ (q.snd.idx < Snd.sendCiicr.idx ∨ q.snd.idx > Snd.sendCipshut.idx))
    (h : Failed c (some a) addr t0 T q d) : Shut c (some a) none t0 (T ++ [b!"AT+CIPSHUT\r\n"]) (step p d (.run true)) := by
  obtain ⟨x, e, h1, h2⟩ := failed_reset (p := p) hz hI hh hp hq h
  rw [if_neg hs] at h2
  show Shut _ _ _ _ _ (run p d true)
  rw [e, work_calm h2 (by simp), proceed_act h2 rfl rfl (by omega)]
  have hx : b!"AT+CIPSHUT\r\n".length ≤ (handleReset d).ser.txFree := by rw [h1]; simp; omega
  unfold Shut act
  rw [h2.snd]
  said h2 hx (Wrote.command h2.calm.ser _ (by decide))

/-- What follows a refusal. -/
def After (c : Conf) (a : List Byte) (t0 : List Ev) (T : List (List Byte)) (low : Bool) (d : D) : Prop :=
  if low then Chat c (some a) none t0 (T ++ [b!"ATE0\r\n"]) (at_ .sendCiprxget .okReply (some b!"OK") .intermediate) d
  else Shut c (some a) none t0 (T ++ [b!"AT+CIPSHUT\r\n"]) d

section
variable (p) (hr : 60 ≤ c.rx) (ht : 20 ≤ c.tx) (hn : c.tx ≤ n) (hI : c.Idle) (hz : c.rd = 0 ∧ c.bw = 0) (hw : c.part = [])
  (hh : c.host ≠ none) (hp : c.port ≠ 0)
include hr ht hn hI hz hw hh hp

/-- A refusal. -/
theorem refused_at {P : List Byte → D → Prop} {bad idle : List Byte → Prop} (low : Bool) (hP : ∀ u d, P u d → Chat (c.mid u) (some a) addr t0 T q d)
    (hq : q.disc = false ∧ q.ask = false) (hs : decide (q.snd.idx < Snd.sendCiicr.idx ∨ q.snd.idx > Snd.sendCipshut.idx) = low)
    (h1 : ∀ u d, P u d → P u (step p d (.run true)))
    (h2 : ∀ u v w d, P u d → IsLine (u ++ v ++ w) → w ≠ [] → P (u ++ v) (step p (hearing d n v) (.run true)))
    (h3 : ∀ u v d, P u d → IsLine (u ++ v) → v ≠ [] → idle (u ++ v) → P [] (step p (hearing d n v) (.run true)))
    (hb : ∀ g l, Chat c (some a) addr t0 T q g → LineDone g l → bad l →
      ∃ x y s, (x = ConnState.generalError ∨ x = .intermediate) ∧ parseLine p g = (({ g with resetPending := true, cs := x, wait := y } : D), s) ∧
        (s = false → y ≠ none))
    (h : P [] d) {b : Beat} (hab : Answers ⟨bad, idle⟩ b) (hsl : b.Slow) :
    After c a t0 T low (exec (step p) d (b.ops n)) := by
  have e0 := Conf.mid_nil hw
  have hg : ∀ u v d, P u d → IsLine (u ++ v) → v ≠ [] → bad (u ++ v) → Failed c (some a) addr t0 T q (step p (hearing d n v) (.run true)) := by
    intro u v d hd hl hv hx
    obtain ⟨g, k1, k2, k3, k4, e⟩ := run_heard (p := p) (hP _ _ hd) hn hl hv hr
    rw [e0] at k1
    obtain ⟨x, y, s, hx1, hx2, hx3⟩ := hb g _ k1 k2 hx
    have hf : Failed c (some a) addr t0 T q ({ g with resetPending := true, cs := x, wait := y } : D) := ⟨g, x, y, k1, k3, hx1, rfl⟩
    show Failed _ _ _ _ _ _ (run p _ true)
    rw [e, hx2]
    cases s with
    | true => exact hf
    | false =>
      simp only [Bool.false_eq_true, if_false]
      have : proceed ({ g with resetPending := true, cs := x, wait := y } : D) = ({ g with resetPending := true, cs := x, wait := y } : D) := by
        unfold proceed
        rw [if_pos (.inl (hx3 rfl))]
      rw [this]; exact hf
  cases low with
  | true =>
    exact exec_slow (P := P) (Q0 := Failed c (some a) addr t0 T q) (Q1 := Dials c (some a) none t0 T) step_irq h1
      (fun u v w d hd hl hw _ => h2 u v w d hd hl hw) h3 hg (fun d hd => failed_low hz hI hh hp ht hq (of_decide_eq_true hs) hd)
      (fun d hd => dials_run ht hd) (fun d hd => wait_idle p hd (.inl (by simp)) (by simp)) h hab hsl
  | false =>
    exact exec_slow (P := P) (Q0 := Failed c (some a) addr t0 T q) (Q1 := Shut c (some a) none t0 (T ++ [b!"AT+CIPSHUT\r\n"])) step_irq h1
      (fun u v w d hd hl hw _ => h2 u v w d hd hl hw) h3 hg (fun d hd => failed_high hz hI hh hp ht hq (of_decide_eq_false hs) hd)
      (fun d hd => wait_idle p hd (.inl (by simp)) (by simp)) (fun d hd => wait_idle p hd (.inl (by simp)) (by simp)) h hab hsl

/-- A refusal while the driver waits. -/
theorem refused {bad idle : List Byte → Prop} (low : Bool) (hw0 : q.wait ≠ none ∨ q.rep ≠ .okReply) (hq : q.disc = false ∧ q.ask = false)
    (hs : decide (q.snd.idx < Snd.sendCiicr.idx ∨ q.snd.idx > Snd.sendCipshut.idx) = low) (hs2 : q.snd ≠ .receiving)
    (hi : ∀ g l, Chat c (some a) addr t0 T q g → LineDone g l → IsLine l → idle l → parseLine p g = (g, false))
    (hb : ∀ g l, Chat c (some a) addr t0 T q g → LineDone g l → bad l →
      ∃ x y s, (x = ConnState.generalError ∨ x = .intermediate) ∧ parseLine p g = (({ g with resetPending := true, cs := x, wait := y } : D), s) ∧
        (s = false → y ≠ none))
    (h : Chat c (some a) addr t0 T q d) {b : Beat} (hab : Answers ⟨bad, idle⟩ b) (hsl : b.Slow) :
    After c a t0 T low (exec (step p) d (b.ops n)) := by
  have e0 := Conf.mid_nil hw
  exact refused_at p hr ht hn hI hz hw hh hp (P := fun u => Chat (c.mid u) (some a) addr t0 T q) low (fun _ _ h => h) hq hs
    (fun u d hd => wait_idle p hd hw0 hs2) (fun u v w d hd hl hw => wait_more p hr ht hn hd hw0 hs2 hl hw)
    (fun u v d hd hl hv hx => wait_noise p hr ht hn hd hw0 hl hv fun g h1 h2 => hi g _ (e0 ▸ h1) h2 hl hx) hb (e0.symm ▸ h) hab hsl

end

theorem parseLine_error (hl : LineDone g l) (h1 : among errors800 l) :
    parseLine p g = (({ g with resetPending := true, cs := .generalError, wait := none } : D), true) := by
  have e : isError g = true := by
    obtain ⟨w, hw, h1⟩ := h1
    unfold isError
    simp only [errors800, List.mem_cons, List.not_mem_nil, or_false] at hw
    rcases hw with rfl | rfl | rfl <;> rw [hl.has_true (by decide) h1] <;> simp
  unfold parseLine
  rw [if_pos e]

theorem idle_ok {w : List Byte} (hg : Chat c apn addr t0 T q g) (hl : LineDone g l) (hq : q.wait = some w) (hr : q.rep = .okReply)
    (hlow : ¬ Snd.connected.idx ≤ q.snd.idx) (h0 : (0 : Byte) ∉ w) (hi : Clear (w :: errors800) l) : parseLine p g = (g, false) := by
  rw [parseLine_eq (isError_clear hl fun w hw => hi w (List.mem_cons_of_mem _ hw))
    (parseWait_clear hl (hg.wait.trans hq) h0 (hi _ (by simp))) (parseReply_ok (hg.rep.trans hr)), checkState_low (by rw [hg.snd]; exact hlow)]

section
variable (p) (hr : 60 ≤ c.rx) (ht : 20 ≤ c.tx) (hn : c.tx ≤ n) (hI : c.Idle) (hz : c.rd = 0 ∧ c.bw = 0) (hw : c.part = [])
  (hh : c.host ≠ none) (hp : c.port ≠ 0)
include hr ht hn hI hz hw hh hp

/-- A refusal during the opening. -/
theorem stage_refused {r : Peer} (k : Nat) (hk : k < (open800 a r).length) (h : Stage c a r t0 T k d) {b : Beat}
    (hb : Answers (refuse (open800 a r)[k] fun l => among errors800 l ∨ k + 1 = 7 ∧ b!"+CDNSGIP: 0" <+: l ∨ k + 1 = 9 ∧ b!"0, CONNECT FAIL" <+: l) b)
    (hsl : b.Slow) : After c a t0 (T ++ says ((open800 a r).take k)) (decide (k + 1 < 4)) (exec (step p) d (b.ops n)) := by
  match k, hk, h, hb with
  | 0, _, h, hb =>
    exact refused p hr ht hn hI hz hw hh hp _ (.inl (by simp)) ⟨rfl, rfl⟩ (by decide) (by simp) (fun g l hg hl _ hi => idle_ok hg hl rfl rfl (by decide) (by decide) hi)
      (fun g l hg hl hx => ⟨_, _, _, .inl rfl, parseLine_error hl (by simpa using hx), by simp⟩) h hb hsl
  | 1, _, h, hb =>
    exact refused p hr ht hn hI hz hw hh hp _ (.inl (by simp)) ⟨rfl, rfl⟩ (by decide) (by simp) (fun g l hg hl _ hi => idle_ok hg hl rfl rfl (by decide) (by decide) hi)
      (fun g l hg hl hx => ⟨_, _, _, .inl rfl, parseLine_error hl (by simpa using hx), by simp⟩) h hb hsl
  | 2, _, h, hb =>
    exact refused p hr ht hn hI hz hw hh hp _ (.inl (by simp)) ⟨rfl, rfl⟩ (by decide) (by simp) (fun g l hg hl _ hi => idle_ok hg hl rfl rfl (by decide) (by decide) hi)
      (fun g l hg hl hx => ⟨_, _, _, .inl rfl, parseLine_error hl (by simpa using hx), by simp⟩) h hb hsl
  | 3, _, h, hb =>
    exact refused p hr ht hn hI hz hw hh hp _ (.inl (by simp)) ⟨rfl, rfl⟩ (by decide) (by simp) (fun g l hg hl _ hi => idle_ok hg hl rfl rfl (by decide) (by decide) hi)
      (fun g l hg hl hx => ⟨_, _, _, .inl rfl, parseLine_error hl (by simpa using hx), by simp⟩) h hb hsl
  | 4, _, h, hb =>
    exact refused p hr ht hn hI hz hw hh hp _ (.inl (by simp)) ⟨rfl, rfl⟩ (by decide) (by simp) (fun g l hg hl _ hi => idle_ok hg hl rfl rfl (by decide) (by decide) hi)
      (fun g l hg hl hx => ⟨_, _, _, .inl rfl, parseLine_error hl (by simpa using hx), by simp⟩) h hb hsl
  | 5, _, h, hb =>
    refine refused p hr ht hn hI hz hw hh hp _ (.inr (by simp)) ⟨rfl, rfl⟩ (by decide) (by simp) (fun g l hg h2 hl hi => ?_)
      (fun g l hg hl hx => ⟨_, _, _, .inl rfl, parseLine_error hl (by simpa using hx), by simp⟩) h hb hsl
    have hdots : ((cstr g.line.cells).filter (· = 46)).length = (l.filter (· = 46)).length := by
      obtain ⟨body, hb1, hb2, hb3, hb4⟩ := hl.text
      have hz : (0 : Byte) ∉ l := by rw [hb1]; simp [hb4, nl]
      obtain ⟨m, hcells⟩ := h2.cells
      rw [hcells, cstr_append_zero hz]
    refine (parseLine_eq (isError_clear h2 hi.2) (parseWait_none hg.wait) (b := g) ?_).trans ?_
    · unfold parseReply
      rw [hg.rep]
      dsimp only
      rw [if_neg (by rw [hdots]; exact hi.1)]
    · rw [checkState_low (by rw [hg.snd]; decide)]
  | 6, _, h, hb =>
    refine refused p hr ht hn hI hz hw hh hp _ (.inl (by simp)) ⟨rfl, rfl⟩ (by decide) (by simp) (fun g l hg hl _ hi => ?_) (fun g l hg hl hx => ?_) h hb hsl
    · refine (parseLine_eq (isError_clear hl fun w hw => hi w (List.mem_cons_of_mem _ (List.mem_cons_of_mem _ (List.mem_cons_of_mem _ hw))))
        (parseWait_clear hl hg.wait (by decide) (hi _ (by simp))) (b := g) ?_).trans ?_
      · unfold parseReply
        rw [hg.rep]
        dsimp only
        unfold SimDev.parseDnsReply
        rw [hl.has_false (by decide) (hi _ (by simp)), hl.has_false (by decide) (hi _ (by simp))]
        simp
      · rw [checkState_low (by rw [hg.snd]; decide)]
    · have hx : among errors800 l ∨ b!"+CDNSGIP: 0" <+: l := by simpa using hx
      rcases hx with hx | hx
      · exact ⟨_, _, _, .inl rfl, parseLine_error hl hx, by simp⟩
      · refine ⟨.intermediate, some b!"OK", false, .inr rfl, ?_, by simp⟩
        have e : ({ g with resetPending := true, cs := .intermediate, wait := some b!"OK" } : D) = { g with resetPending := true } := by
          have h1 := hg.cs
          have h2 := hg.wait
          cases g; simp only at h1 h2; subst h1 h2; rfl
        rw [e]
        refine (parseLine_eq (isError_clear hl (clear_of hx (by decide))) (parseWait_clear hl hg.wait (by decide)
          (not_prefix_of hx (by decide) (by decide))) (b := { g with resetPending := true }) ?_).trans ?_
        · unfold parseReply
          rw [hg.rep]
          dsimp only
          rw [SimDev.dns_refused hl hx]; simp [hg.rep]
        · rw [checkState_low (by show ¬ _ ≤ g.snd.idx; rw [hg.snd]; decide)]
  | 7, _, h, hb =>
    exact refused p hr ht hn hI hz hw hh hp _ (.inl (by simp)) ⟨rfl, rfl⟩ (by decide) (by simp) (fun g l hg hl _ hi => idle_ok hg hl rfl rfl (by decide) (by decide) hi)
      (fun g l hg hl hx => ⟨_, _, _, .inl rfl, parseLine_error hl (by simpa using hx), by simp⟩) h hb hsl
  | 8, _, h, hb =>
    refine refused p hr ht hn hI hz hw hh hp _ (.inl (by simp)) ⟨rfl, rfl⟩ (by decide) (by simp) (fun g l hg hl _ hi => ?_) (fun g l hg hl hx => ?_) h hb hsl
    · refine (parseLine_eq (isError_clear hl fun w hw => hi w (List.mem_cons_of_mem _ (List.mem_cons_of_mem _ hw)))
        (parseWait_clear hl hg.wait (by decide) (hi _ (by simp))) (b := g) ?_).trans ?_
      · unfold parseReply
        rw [hg.rep]
        dsimp only
        rw [if_neg (by rw [hg.disc]; simp), if_neg (by rw [hg.wait]; simp), if_neg (by rw [hl.has_false (by decide) (hi _ (by simp))]; simp)]
      · rw [checkState_low (by rw [hg.snd]; decide)]
    · have hx : among errors800 l ∨ b!"0, CONNECT FAIL" <+: l := by simpa using hx
      rcases hx with hx | hx
      · exact ⟨_, _, _, .inl rfl, parseLine_error hl hx, by simp⟩
      · refine ⟨.generalError, some b!"0, CONNECT OK", false, .inl rfl, ?_, by simp⟩
        have e : ({ g with resetPending := true, cs := .generalError, wait := some b!"0, CONNECT OK" } : D) =
            { g with resetPending := true, cs := .generalError } := by
          have h2 := hg.wait
          cases g; simp only at h2; subst h2; rfl
        rw [e]
        refine (parseLine_eq (isError_clear hl (clear_of hx (by decide))) (parseWait_clear hl hg.wait (by decide)
          (not_prefix_of hx (by decide) (by decide))) (b := { g with resetPending := true, cs := .generalError }) ?_).trans ?_
        · unfold parseReply
          rw [hg.rep]
          dsimp only
          rw [if_neg (by rw [hg.disc]; simp), if_neg (by rw [hg.wait]; simp), if_pos (hl.has_true (by decide) hx)]
        · rw [checkState_low (by show ¬ _ ≤ g.snd.idx; rw [hg.snd]; decide)]
  | k + 9, hk, _, _ => simp [open800] at hk; omega

/-- An error in the connection. -/
theorem up_refused {r : Peer} (h : Up c (some a) (some r.addr) t0 T d) {b : Beat} (hb : Answers ⟨among errors800, stay800⟩ b) (hsl : b.Slow) :
    After c a t0 T false (exec (step p) d (b.ops n)) := by
  have e0 := Conf.mid_nil hw
  exact refused_at p hr ht hn hI hz hw hh hp (P := fun u => Up (c.mid u) (some a) (some r.addr) t0 T) _ (fun _ _ h => h.1) ⟨rfl, rfl⟩ (by decide)
    (fun u d hd => up_idle (c := c.mid u) p hr ht hn hI hd) (fun u v w d hd hl hw => up_more p hr ht hn hI hd hl hw)
    (fun u v d hd hl hv hx => up_noise p hr ht hn hI hd hl hv hx)
    (fun g l hg hl hx => ⟨_, _, _, .inl rfl, parseLine_error hl hx, by simp⟩) (e0.symm ▸ h) hb hsl

omit hr ht hn hI hz hw hh hp in
theorem shut_idle {g : D} (hg : Chat c apn addr t0 T ⟨.finalizeDisconnect, .okReply, some b!"SHUT OK", .intermediate, false, true, false⟩ g) (hl : LineDone g l)
    (hi : Clear (b!"SHUT OK" :: b!"+CIPRXGET: 1,0" :: b!"0, CLOSED" :: errors800) l) : parseLine p g = (g, false) := by
  rw [parseLine_eq (isError_clear hl fun w hw => hi w (List.mem_cons_of_mem _ (List.mem_cons_of_mem _ (List.mem_cons_of_mem _ hw))))
    (parseWait_clear hl hg.wait (by decide) (hi _ (by simp))) (parseReply_ok hg.rep),
    checkState_clear hl (fun w hw => hi w (by
      simp only [List.mem_cons, List.not_mem_nil, or_false] at hw
      rcases hw with rfl | rfl <;> simp))]

theorem shut_refused (h : Shut c (some a) none t0 T d) {b : Beat}
    (hb : Answers ⟨among errors800, Clear (b!"SHUT OK" :: b!"+CIPRXGET: 1,0" :: b!"0, CLOSED" :: errors800)⟩ b) (hsl : b.Slow) :
    After c a t0 T true (exec (step p) d (b.ops n)) :=
  refused p hr ht hn hI hz hw hh hp _ (.inl (by simp)) ⟨rfl, rfl⟩ (by decide) (by simp)
    (fun g l hg hl _ hi => shut_idle p hg hl hi)
    (fun g l hg hl hx => ⟨_, _, _, .inl rfl, parseLine_error hl hx, by simp⟩) h hb hsl

omit hI hz hh hp in
theorem shut_answer (h : Shut c (some a) none t0 T d) {b : Beat}
    (hb : Answers (await b!"SHUT OK" (b!"+CIPRXGET: 1,0" :: b!"0, CLOSED" :: errors800)) b) (hsl : b.Slow) :
    After c a t0 T true (exec (step p) d (b.ops n)) := by
  have e0 := Conf.mid_nil hw
  refine exec_slow (P := fun u => Chat (c.mid u) (some a) none t0 T ⟨.finalizeDisconnect, .okReply, some b!"SHUT OK", .intermediate, false, true, false⟩)
    (Q0 := Anew c (some a) none t0 T) (Q1 := Dials c (some a) none t0 T) step_irq
    (fun u d hd => wait_idle p hd (.inl (by simp)) (by simp)) (fun u v w d hd hl hw _ => wait_more p hr ht hn hd (.inl (by simp)) (by simp) hl hw)
    (fun u v d hd hl hv hx => wait_noise p hr ht hn hd (.inl (by simp)) hl hv fun g h1 h2 => shut_idle p (e0 ▸ h1) h2 hx)
    (fun u v d hd hl hv hx => ?_) (fun d hd => anew_run ht hd) (fun d hd => dials_run ht hd)
    (fun d hd => wait_idle p hd (.inl (by simp)) (by simp)) (e0.symm ▸ h) hb hsl
  obtain ⟨g, h1, h2, h3, h4, e⟩ := run_heard (p := p) hd hn hl hv hr
  rw [e0] at h1
  have hpl : parseLine p g = ({ g with wait := none }, false) := by
    rw [parseLine_eq (isError_clear h2 (clear_of hx (by decide))) (parseWait_good h2 h1.wait (by decide) hx) (parseReply_ok h1.rep),
      checkState_clear (d := ({ g with wait := none } : D)) ⟨h2.text, h2.zero, h2.fill⟩ (clear_of hx (by decide))]
  have hg : Chat c (some a) none t0 T ⟨.finalizeDisconnect, .okReply, none, .intermediate, false, true, false⟩ ({ g with wait := none } : D) := by
    moved h1
  show Anew _ _ _ _ _ (run p _ true)
  rw [e, hpl]
  simp only [Bool.false_eq_true, if_false]
  rw [proceed_act hg rfl rfl (by show 20 ≤ g.ser.txFree; omega)]
  unfold act
  rw [hg.snd]
  refine ⟨?_, h3⟩
  refine Talk.setAt hg _ ?_ ?_ ?_ ?_ ?_
  · rfl
  · rfl
  · rfl
  · exact h1.calm.lineRead
  · simp [Dev.st, h1.rep, h1.disc, h1.conn, h1.ask]

end

/-- The steps on the way to a connection. -/
def Step (c : Conf) (a : List Byte) (r : Peer) (t0 : List Ev) (T : List (List Byte)) : Nat → D → Prop
  | 0, d => Shut c (some a) none t0 T d
  | k + 1, d => k ≤ 9 ∧ ∃ T', T = T' ++ says ((open800 a r).take k) ∧ Stage c a r t0 T' k d

theorem step_one {r : Peer} (h : Chat c (some a) none t0 T (at_ .sendCiprxget .okReply (some b!"OK") .intermediate) d) : Step c a r t0 T 1 d :=
  ⟨Nat.zero_le _, T, by simp [says], (by
    show Chat _ _ _ _ (T ++ says ((open800 a r).take 0)) _ _
    rw [show says ((open800 a r).take 0) = [] from rfl, List.append_nil]
    exact h : Stage c a r t0 T 0 d)⟩

section
variable (p) (hr : 60 ≤ c.rx) (ht : 20 ≤ c.tx) (hn : c.tx ≤ n) (hI : c.Idle) (hz : c.rd = 0 ∧ c.bw = 0) (hw : c.part = [])
include hr ht hn hI hz hw

omit hz in
theorem step_answer {r : Peer} (hk : r.Ok) (h0 : (0 : Byte) ∉ a) (hc : c.host = some r.host) (hp : c.port = r.port.toNat)
    (hy : c.typ = r.typ) (hx : ∀ t ∈ says (open800 a r), t.length ≤ c.tx) (hd : r.host.length + 20 ≤ c.tx)
    (T : List (List Byte)) (i : Nat) (h : i < (plan800 a r).steps.length) (d : D) (b : Beat) (hs : Step c a r t0 T i d)
    (hb : Answers (plan800 a r).steps[i].await b) (hsl : i = 0 → b.Slow) :
    Step c a r t0 (T ++ (plan800 a r).steps[i].said) (i + 1) (exec (step p) d (b.ops n)) := by
  cases i with
  | zero => exact step_one (shut_answer p hr ht hn hw hs hb (hsl rfl))
  | succ k =>
    obtain ⟨_, T', rfl, h1⟩ := hs
    have hk2 : k < (open800 a r).length := by
      have : k + 1 < (open800 a r).length + 1 := h
      omega
    have h9 : (open800 a r).length = 9 := rfl
    refine ⟨by omega, T', ?_, open_stage p hr ht hn hI hw hk h0 hc hp hy hx hd k hk2 d b h1 hb⟩
    exact (says_succ _ _ _ hk2).symm

omit hr ht hn hI hz hw in
theorem After.step {r : Peer} {i : Nat} {low : Bool} (h : After c a t0 T low d) (e : decide (i < 4) = low) :
    Step c a r t0 (T ++ (plan800 a r).says i) ((plan800 a r).back i) d := by
  cases low with
  | true =>
    have e : i < 4 := of_decide_eq_true e
    show Step c a r t0 (T ++ if i < 4 then _ else _) (if i < 4 then 1 else 0) d
    rw [if_pos e, if_pos e]
    exact step_one h
  | false =>
    have e : ¬ i < 4 := of_decide_eq_false e
    show Step c a r t0 (T ++ if i < 4 then _ else _) (if i < 4 then 1 else 0) d
    rw [if_neg e, if_neg e]
    exact h

theorem step_refused {r : Peer} (hh : c.host ≠ none) (hp : c.port ≠ 0) (T : List (List Byte)) (i : Nat) (d : D) (b : Beat) (hs : Step c a r t0 T i d)
    (hb : Answers ((plan800 a r).refusal i) b) (hsl : b.Slow) :
    Step c a r t0 (T ++ (plan800 a r).says i) ((plan800 a r).back i) (exec (step p) d (b.ops n)) := by
  cases i with
  | zero =>
    refine After.step (shut_refused p hr ht hn hI hz hw hh hp hs ⟨?_, hb.noise⟩ hsl) rfl
    have := hb.answer
    exact ⟨this.1, this.2.1, by simpa [plan800, again800, refuse] using this.2.2⟩
  | succ k =>
    obtain ⟨h9, T', rfl, h1⟩ := hs
    have h9' : (open800 a r).length = 9 := rfl
    by_cases h : k < (open800 a r).length
    · refine After.step (stage_refused p hr ht hn hI hz hw hh hp k h h1 ?_ hsl) rfl
      have e : (plan800 a r).refusal (k + 1) = refuse (open800 a r)[k] fun l => among errors800 l ∨ k + 1 = 7 ∧ b!"+CDNSGIP: 0" <+: l ∨
          k + 1 = 9 ∧ b!"0, CONNECT FAIL" <+: l := by
        have : (again800 a r)[k + 1]? = some (open800 a r)[k] := by
          unfold again800
          rw [List.getElem?_cons_succ, List.getElem?_eq_getElem h]
        simp only [plan800, this]
      exact e ▸ hb
    · have e : k = 9 := by omega
      subst e
      exact After.step (up_refused p hr ht hn hI hz hw hh hp h1 hb hsl) rfl

/-- `connect()`, setbacks, and the modem gives answers up to step `j`. -/
theorem recover_ok {r : Peer} (hk : r.Ok) (h0 : (0 : Byte) ∉ a) (hx : ∀ t ∈ visit800 a r, t.length ≤ c.tx)
    (hd : r.host.length + 20 ≤ c.tx) (h : Down c apn addr t0 T d) (m : Nat) {ss : List Setback} {U V : List (List Byte)} {i j : Nat}
    (hs : (plan800 a r).Setbacks 1 ss U i) {bs : List Beat} (hb : (plan800 a r).Steps i bs V j) :
    Step (c.to r) a r t0 (T ++ [b!"ATE0\r\n"] ++ U ++ V) j
      (exec (step p) d (setup7x00 a r ++ (dial m ++ (setbacks n ss ++ Spec.ops n bs)))) := by
  have h1 := setup_ok (p := p) h a r
  rw [exec_append, exec_append, exec_append]
  have h2 := dial_ok (c := c.to r) p hr ht hn hI hw h1 (by simp) (hk.port_ne) m
  have hx2 : ∀ t ∈ says (open800 a r), t.length ≤ c.tx := fun t m => hx t (by unfold visit800; simp [m])
  have h3 : Step (c.to r) a r t0 (T ++ [b!"ATE0\r\n"]) 1 _ := step_one h2
  have h4 := exec_setbacks (step := step p) (P := Step (c.to r) a r t0) (pl := plan800 a r)
    (step_answer (c := c.to r) p hr ht hn hI hw hk h0 rfl rfl rfl hx2 hd)
    (step_refused (c := c.to r) p hr ht hn hI hz hw (by simp) hk.port_ne) h3 hs
  exact exec_steps (step := step p) (P := Step (c.to r) a r t0) (pl := plan800 a r)
    (step_answer (c := c.to r) p hr ht hn hI hw hk h0 rfl rfl rfl hx2 hd) h4 hb

end
end Sim800
end Verif
