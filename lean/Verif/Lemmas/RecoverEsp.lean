import Verif.Lemmas.ChatEsp
import Verif.Lemmas.Recovery

/-! The Espressif driver and a modem that refuses commands. -/

namespace Verif

open Dev Spec

namespace Espressif

variable {p : Platform} {c : Conf} {w : Option Wifi} {t0 : List Ev} {T : List (List Byte)} {q : St Snd Rep}
  {d g : D} {n : Nat} {l : List Byte}

/-- A refusal was noticed. -/
def Failed (p : Platform) (c : Conf) (w : Option Wifi) (t0 : List Ev) (T : List (List Byte)) (q : St Snd Rep) (d : D) : Prop :=
  ∃ g, Chat p c w t0 T q g ∧ g.ser.txFree = c.tx ∧ d = ({ g with resetPending := true, cs := .generalError, wait := none } : D)

/-- The driver waits for the restart of the modem. -/
def Restart (p : Platform) (c : Conf) (w : Option Wifi) (t0 : List Ev) (T : List (List Byte)) (d : D) : Prop :=
  Chat p c w t0 T (at_ .connecting .okReply (some b!"ready") .generalError) d

theorem failed_run (ha : q.ask = false) (hI : c.Idle) (hz : c.rd = 0 ∧ c.bw = 0) (ht : 20 ≤ c.tx)
    (hs : Snd.connecting.idx ≤ q.snd.idx ∧ q.snd.idx ≤ Snd.receiving.idx ∧ q.disc = false) (h : Failed p c w t0 T q d) :
    Restart p c w t0 (T ++ [b!"AT+RST\r\n"]) (step p d (.run true)) := by
  obtain ⟨g, h1, h2, rfl⟩ := h
  show Chat _ _ _ _ _ _ (run p _ true)
  unfold run
  rw [if_neg (by simp [h1.calm.isOpen]), if_pos rfl]
  have k := h1.flush
  have e : handleReset ({ g with resetPending := true, cs := .generalError, wait := none } : D) =
      { ((g.flushSer.cmd b!"AT+RST").arg lineEnd) with
        snd := .connecting, rep := .okReply, wait := some b!"ready", cs := .generalError, delay := 10, ipConnected := false, lineRead := true,
        disconnectPending := false, connectPending := false } := by
    have a1 := h1.calm.lock
    have a2 := h1.calm.reset
    have a3 := h1.quiet hI
    have a4 := h1.rd.trans hz.1
    have a5 := h1.rcv.trans hI.2.2
    have a6 := h1.bw.trans hz.2
    have a7 := h1.snd
    have a8 := h1.disc
    unfold handleReset
    dsimp only [Dev.flushSer]
    rw [if_pos (by rw [a7, a8]; exact hs)]
    clear k h1 h2 a7 a8
    cases g
    simp only at a1 a2 a3 a4 a5 a6
    subst a1 a2 a3 a4 a5 a6
    rfl
  rw [e]
  have hx : b!"AT+RST\r\n".length ≤ g.flushSer.ser.txFree := by rw [k.2, h2]; simp; omega
  refine Talk.sendAt k.1 _ ?_ ?_ ?_ hx ?_
  · rfl
  · rfl
  · exact (Wrote.cmd k.1.calm.ser b!"AT+RST" (by decide)).arg lineEnd (by decide)
  · simp [Dev.st, h1.ask, ha, Dev.cmd, Dev.cmdN, Dev.arg, Dev.log, Dev.flushSer]

theorem parseLine_error (hl : LineDone g l) (h1 : among errorsEsp l) :
    parseLine p g = (({ g with resetPending := true, cs := .generalError, wait := none } : D), true) := by
  have e : isError g = true := by
    obtain ⟨w, hw, h1⟩ := h1
    unfold isError
    simp only [errorsEsp, List.mem_cons, List.not_mem_nil, or_false] at hw
    rcases hw with rfl | rfl <;> rw [hl.has_true (by decide) h1] <;> simp
  unfold parseLine
  rw [if_pos e]

section
variable (p) (hr : 60 ≤ c.rx) (ht : 20 ≤ c.tx) (hn : c.tx ≤ n) (hI : c.Idle) (hz : c.rd = 0 ∧ c.bw = 0) (hm : c.part = [])
include hr ht hn hI hz hm

/-- A refusal. -/
theorem refused_at {P : List Byte → D → Prop} {idle : List Byte → Prop} (hP : ∀ u d, P u d → Chat p (c.mid u) w t0 T q d)
    (hs : Snd.connecting.idx ≤ q.snd.idx ∧ q.snd.idx ≤ Snd.receiving.idx ∧ q.disc = false) (hrep : q.rep = .okReply)
    (hpi : ∀ l, idle l → Spec.plain c.typ l)
    (h1 : ∀ u d, P u d → P u (step p d (.run true)))
    (h2 : ∀ u v z d, P u d → IsLine (u ++ v ++ z) → z ≠ [] → Spec.plain c.typ (u ++ v ++ z) → P (u ++ v) (step p (hearing d n v) (.run true)))
    (h3 : ∀ u v d, P u d → IsLine (u ++ v) → v ≠ [] → idle (u ++ v) → P [] (step p (hearing d n v) (.run true)))
    (h : P [] d) {b : Beat} (hab : Answers ⟨fun l => among errorsEsp l ∧ Spec.plain c.typ l, idle⟩ b) (hsl : b.Slow) (ha : q.ask = false := by rfl) :
    Restart p c w t0 (T ++ [b!"AT+RST\r\n"]) (exec (step p) d (b.ops n)) := by
  have e0 := Conf.mid_nil hm
  refine exec_slow (P := P) (a := ⟨fun l => among errorsEsp l ∧ Spec.plain c.typ l, idle⟩) (Q0 := Failed p c w t0 T q)
    (Q1 := Restart p c w t0 (T ++ [b!"AT+RST\r\n"])) step_irq h1
    (fun u v z d hd hl hz ho => h2 u v z d hd hl hz (ho.elim (hpi _) fun x => x.2)) h3
    (fun u v d hd hl hv hx => ?_) (fun d hd => failed_run ha hI hz ht hs hd)
    (fun d hd => wait_idle p hd (by simp) (by simp)) (fun d hd => wait_idle p hd (by simp) (by simp)) h hab hsl
  obtain ⟨g, k1, k2, k3, k4, e⟩ := run_heard (p := p) (hP _ _ hd) hn hl hv hr hx.2 hrep
  rw [e0] at k1
  show Failed _ _ _ _ _ _ (run p _ true)
  rw [e, parseLine_error k2 hx.1]
  exact ⟨g, k1, k3, rfl⟩

/-- A refusal while a plain answer is awaited. -/
theorem refused_ok {s : Snd} {cs : ConnState} {x : List Byte} (hlow : ¬ Snd.connected.idx ≤ s.idx) (hup : Snd.connecting.idx ≤ s.idx)
    (h0 : (0 : Byte) ∉ x)
    (h : Chat p c w t0 T (at_ s .okReply (some x) cs) d) {b : Beat}
    (hab : Answers ⟨fun l => among errorsEsp l ∧ Spec.plain c.typ l, (awaitPlain c.typ x errorsEsp).idle⟩ b) (hsl : b.Slow) :
    Restart p c w t0 (T ++ [b!"AT+RST\r\n"]) (exec (step p) d (b.ops n)) := by
  have e0 := Conf.mid_nil hm
  have hs : s ≠ .receiving := fun x => hlow (by rw [x]; decide)
  have hne : s ≠ .connected := fun x => hlow (by rw [x]; exact Nat.le_refl _)
  refine refused_at p hr ht hn hI hz hm (P := fun u => Chat p (c.mid u) w t0 T (at_ s .okReply (some x) cs)) (fun _ _ h => h) ⟨hup, ?_, rfl⟩ rfl
    (fun l h => h.2) (fun u d hd => wait_idle p hd (by simp) hs) (fun u v z d hd hl hz hp => wait_more p hr ht hn hd (by simp) hs hl hz hp rfl)
    (fun u v d hd hl hv hx => ?_) (e0.symm ▸ h) hab hsl
  · show s.idx ≤ _
    have : Snd.connected.idx ≤ Snd.receiving.idx := by decide
    omega
  · obtain ⟨g, h1, h2, h3, h4, e⟩ := run_heard (p := p) hd hn hl hv hr hx.2 rfl
    show Talk (c.mid []) _ _ _ _ (run p _ true)
    have y : parseLine p g = (g, false) := by
      rw [parseLine_eq (isError_clear h2 (clear_mono hx.1 (by simp))) (sendFail_not (by rw [h1.snd]; exact hne))
        (parseWait_clear h2 h1.wait h0 (hx.1 _ (by simp))) (parseReply_ok h1.rep), checkState_low (by rw [h1.snd]; exact hlow)]
    rw [e, y]
    simp only [Bool.false_eq_true, if_false]
    rw [proceed_wait h1 (.inl (by simp))]; exact h1

/-- A refusal during the opening. -/
theorem stage_refused {w : Wifi} {r : Peer} (hy : c.typ = r.typ) (k : Nat) (hk : k < (openEsp w r).length) (h : Stage p c w r t0 T k d) {b : Beat}
    (hb : Answers (refuse (openEsp w r)[k] fun l => among errorsEsp l ∧ Spec.plain r.typ l) b) (hsl : b.Slow) :
    Restart p c (some w) t0 (T ++ says ((openEsp w r).take k) ++ [b!"AT+RST\r\n"]) (exec (step p) d (b.ops n)) := by
  rw [← hy] at hb
  match k, hk, h, hb with
  | 0, _, h, hb => exact refused_ok p hr ht hn hI hz hm (by decide) (by decide) (by decide) h (by rw [hy] at hb ⊢; exact hb) hsl
  | 1, _, h, hb => exact refused_ok p hr ht hn hI hz hm (by decide) (by decide) (by decide) h (by rw [hy] at hb ⊢; exact hb) hsl
  | 2, _, h, hb => exact refused_ok p hr ht hn hI hz hm (by decide) (by decide) (by decide) h (by rw [hy] at hb ⊢; exact hb) hsl
  | 3, _, h, hb => exact refused_ok p hr ht hn hI hz hm (by decide) (by decide) (by decide) h (by rw [hy] at hb ⊢; exact hb) hsl
  | 4, _, h, hb => exact refused_ok p hr ht hn hI hz hm (by decide) (by decide) (by decide) h (by rw [hy] at hb ⊢; exact hb) hsl
  | 5, _, h, hb => exact refused_ok p hr ht hn hI hz hm (by decide) (by decide) (by decide) h (by rw [hy] at hb ⊢; exact hb) hsl
  | 6, _, h, hb => exact refused_ok p hr ht hn hI hz hm (by decide) (by decide) (by decide) h (by rw [hy] at hb ⊢; exact hb) hsl
  | k + 7, hk, _, _ => simp [openEsp] at hk; omega

/-- An error in the connection. -/
theorem up_refused {r : Peer} (hy : c.typ = r.typ) (h : Up p c w t0 T d) {b : Beat}
    (hb : Answers ⟨fun l => among errorsEsp l ∧ Spec.plain r.typ l, stayEsp r⟩ b) (hsl : b.Slow) :
    Restart p c w t0 (T ++ [b!"AT+RST\r\n"]) (exec (step p) d (b.ops n)) := by
  have e0 := Conf.mid_nil hm
  rw [← hy] at hb
  exact refused_at p hr ht hn hI hz hm (P := fun u => Up p (c.mid u) w t0 T) (fun _ _ h => h.1) (by decide) rfl
    (fun l h => by rw [hy]; exact h.2)
    (fun u d hd => up_idle (c := c.mid u) p hr ht hn hI hd) (fun u v z d hd hl hz hp => up_more p hr ht hn hI hd hl hz hp)
    (fun u v d hd hl hv hx => up_noise p hr ht hn hI hy hd hl hv hx) (e0.symm ▸ h) hb hsl

end

/-- The steps on the way to a connection. -/
def Step (p : Platform) (c : Conf) (w : Wifi) (r : Peer) (t0 : List Ev) (T : List (List Byte)) : Nat → D → Prop
  | 0, d => Restart p c (some w) t0 T d
  | k + 1, d => k ≤ 7 ∧ ∃ T', T = T' ++ says ((openEsp w r).take k) ∧ Stage p c w r t0 T' k d

section
variable (p) (hr : 60 ≤ c.rx) (ht : 20 ≤ c.tx) (hn : c.tx ≤ n) (hI : c.Idle) (hz : c.rd = 0 ∧ c.bw = 0) (hm : c.part = [])
include hr ht hn hI hz hm

omit hz in
theorem step_answer {w : Wifi} {r : Peer} (hk : r.Ok) (hc : c.host = some r.host) (hp : c.port = r.port.toNat)
    (hy : c.typ = r.typ) (hx : ∀ t ∈ says (openEsp w r), t.length ≤ c.tx)
    (T : List (List Byte)) (i : Nat) (h : i < (planEsp w r).steps.length) (d : D) (b : Beat) (hs : Step p c w r t0 T i d)
    (hb : Answers (planEsp w r).steps[i].await b) (_ : i = 0 → b.Slow) :
    Step p c w r t0 (T ++ (planEsp w r).steps[i].said) (i + 1) (exec (step p) d (b.ops n)) := by
  cases i with
  | zero =>
    refine ⟨Nat.zero_le _, T ++ [b!"ATE0\r\n"], by simp [says]; rfl, ?_⟩
    refine stage p hr ht hn hm (Q := Stage p c w r t0 (T ++ [b!"ATE0\r\n"]) 0) (a := awaitPlain r.typ b!"ready" errorsEsp) (by simp)
      (fun l h => by rw [hy]; exact h.2) (fun l h => by rw [hy]; exact h.2) (fun g l hg hl hi => .inl ?_) (fun g l hg hl hx => ?_)
      (fun g hg hf => ?_) (fun d hd => wait_idle p hd (by simp) (by simp)) hs hb
    · rw [parseLine_eq (isError_clear hl (clear_mono hi.1 (by simp))) (sendFail_not (by rw [hg.snd]; simp))
        (parseWait_clear hl hg.wait (by decide) (hi.1 _ (by simp))) (parseReply_ok hg.rep), checkState_low (by rw [hg.snd]; decide)]
    · rw [parseLine_eq (isError_clear hl (clear_of hx.1 (by decide))) (sendFail_not (by rw [hg.snd]; simp))
        (parseWait_good hl hg.wait (by decide) hx.1) (parseReply_ok hg.rep), checkState_low (by
          show ¬ _ ≤ g.snd.idx
          rw [hg.snd]; decide)]
    · show Chat _ _ _ _ _ _ _
      rw [show says ((openEsp w r).take 0) = [] from rfl, List.append_nil]
      exact act_connecting hg (by rw [hf]; simp; omega)
  | succ k =>
    obtain ⟨_, T', rfl, h1⟩ := hs
    have hk2 : k < (openEsp w r).length := by
      have : k + 1 < (openEsp w r).length + 1 := h
      omega
    have h9 : (openEsp w r).length = 7 := rfl
    refine ⟨by omega, T', ?_, open_stage p hr ht hn hI hm hk hc hp hy hx k hk2 d b h1 hb⟩
    exact (says_succ _ _ _ hk2).symm

theorem step_refused {w : Wifi} {r : Peer} (hy : c.typ = r.typ) (T : List (List Byte)) (i : Nat) (d : D) (b : Beat) (hs : Step p c w r t0 T i d)
    (hb : Answers ((planEsp w r).refusal i) b) (hsl : b.Slow) :
    Step p c w r t0 (T ++ (planEsp w r).says i) ((planEsp w r).back i) (exec (step p) d (b.ops n)) := by
  cases i with
  | zero => exact refused_ok p hr ht hn hI hz hm (by decide) (by decide) (by decide) hs (by rw [hy]; exact hb) hsl
  | succ k =>
    obtain ⟨h9, T', rfl, h1⟩ := hs
    have h9' : (openEsp w r).length = 7 := rfl
    by_cases h : k < (openEsp w r).length
    · refine stage_refused p hr ht hn hI hz hm hy k h h1 ?_ hsl
      have e : (planEsp w r).refusal (k + 1) = refuse (openEsp w r)[k] fun l => among errorsEsp l ∧ Spec.plain r.typ l := by
        have : (againEsp w r)[k + 1]? = some (openEsp w r)[k] := by
          unfold againEsp
          rw [List.getElem?_cons_succ, List.getElem?_eq_getElem h]
        simp only [planEsp, this]
      exact e ▸ hb
    · have e : k = 7 := by omega
      subst e
      exact up_refused p hr ht hn hI hz hm hy h1 hb hsl

/-- `connect()`, setbacks, and the modem gives answers up to step `j`. -/
theorem recover_ok {v : Option Wifi} {w : Wifi} {r : Peer} (hk : r.Ok) (hw : w.Ok) (hx : ∀ t ∈ visitEsp w r, t.length ≤ c.tx)
    (h : Down p c v t0 T d) (m : Nat) {ss : List Setback} {U V : List (List Byte)} {i j : Nat}
    (hs : (planEsp w r).Setbacks 1 ss U i) {bs : List Beat} (hb : (planEsp w r).Steps i bs V j) :
    Step p (c.to r) w r t0 (T ++ [b!"ATE0\r\n"] ++ U ++ V) j
      (exec (step p) d (setupEsp w r ++ (dial m ++ (setbacks n ss ++ Spec.ops n bs)))) := by
  have h1 := setup_ok (p := p) h w r
  rw [exec_append, exec_append, exec_append]
  have h2 := dial_ok (c := c.to r) p hr ht hn hI hm hw h1 (by simp) (hk.port_ne) m
  have hx2 : ∀ t ∈ says (openEsp w r), t.length ≤ c.tx := fun t m => hx t (by unfold visitEsp; simp [m])
  have h3 : Step p (c.to r) w r t0 (T ++ [b!"ATE0\r\n"]) 1 _ :=
    ⟨Nat.zero_le _, _, by simp [says], (by
      show Chat _ _ _ _ (T ++ [b!"ATE0\r\n"] ++ says ((openEsp w r).take 0)) _ _
      rw [show says ((openEsp w r).take 0) = [] from rfl, List.append_nil]
      exact h2 : Stage p (c.to r) w r t0 (T ++ [b!"ATE0\r\n"]) 0 _)⟩
  have h4 := exec_setbacks (step := step p) (P := Step p (c.to r) w r t0) (pl := planEsp w r)
    (step_answer (c := c.to r) p hr ht hn hI hm hk rfl rfl rfl hx2) (step_refused (c := c.to r) p hr ht hn hI hz hm rfl) h3 hs
  exact exec_steps (step := step p) (P := Step p (c.to r) w r t0) (pl := planEsp w r)
    (step_answer (c := c.to r) p hr ht hn hI hm hk rfl rfl rfl hx2) h4 hb

end
end Espressif
end Verif
