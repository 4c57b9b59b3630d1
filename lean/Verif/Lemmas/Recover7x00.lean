import Verif.Lemmas.Chat7x00
import Verif.Lemmas.Recovery

/-! The SIM7x00 driver and a modem that refuses commands. -/

namespace Verif

open Dev Spec

namespace Sim7x00

variable {p : Platform} {c : Conf} {apn addr : Option (List Byte)} {t0 : List Ev} {T : List (List Byte)} {q : St Snd Rep}
  {d g : D} {n : Nat} {l : List Byte}

/-- A refusal was noticed. -/
def Failed (c : Conf) (apn addr : Option (List Byte)) (t0 : List Ev) (T : List (List Byte)) (q : St Snd Rep) (d : D) : Prop :=
  ∃ g x y, Chat c apn addr t0 T q g ∧ g.ser.txFree = c.tx ∧ (x = .generalError ∨ x = .intermediate) ∧
    d = ({ g with resetPending := true, cs := x, wait := y } : D)

/-- The driver waits for the restart of the modem. -/
def Restart (c : Conf) (apn addr : Option (List Byte)) (t0 : List Ev) (T : List (List Byte)) (d : D) : Prop :=
  ∃ x, (x = .generalError ∨ x = .intermediate) ∧ Chat c apn addr t0 T (at_ .connecting .okReply (some b!"RDY") x) d

theorem failed_run (ha : q.ask = false) (hI : c.Idle) (hz : c.rd = 0 ∧ c.bw = 0) (ht : 20 ≤ c.tx)
    (hs : Snd.connecting.idx ≤ q.snd.idx ∧ q.snd.idx ≤ Snd.receiving.idx) (h : Failed c apn addr t0 T q d) :
    Restart c apn none t0 (T ++ [b!"AT+CRESET\r\n"]) (step p d (.run true)) := by
  obtain ⟨g, x, y, h1, h2, h3, rfl⟩ := h
  refine ⟨x, h3, ?_⟩
  show Chat _ _ _ _ _ _ (run p _ true)
  unfold run
  rw [if_neg (by simp [h1.calm.isOpen]), if_neg (by simp [h1.calm.lock]), if_pos rfl]
  have k := h1.flush
  have k1 := k.1.ext_mono fun _ x => x.forget
  have e : handleReset ({ g with resetPending := true, cs := x, wait := y } : D) =
      { ((g.flushSer.cmdN b!"AT+CRESET").arg lineEnd) with
        snd := .connecting, rep := .okReply, wait := some b!"RDY", cs := x, delay := 4000, ipConnected := false, lineRead := true,
        disconnectPending := false, connectPending := false } := by
    have a1 := h1.calm.lock
    have a2 := h1.calm.reset
    have a3 := h1.quiet hI
    have a4 := h1.rd.trans hz.1
    have a5 := h1.rcv.trans hI.2.2
    have a6 := h1.bw.trans hz.2
    have a7 := h1.snd
    unfold handleReset
    dsimp only [Dev.flushSer]
    rw [if_pos (by rw [a7]; exact hs)]
    cases g
    simp only at a1 a2 a3 a4 a5 a6
    subst a1 a2 a3 a4 a5 a6
    rfl
  rw [e]
  have hx : b!"AT+CRESET\r\n".length ≤ g.flushSer.ser.txFree := by rw [k.2, h2]; simp; omega
  refine Talk.sendAt k1 _ ?_ ?_ ?_ hx ?_
  · rfl
  · rfl
  · exact (Wrote.cmdN k1.calm.ser b!"AT+CRESET").arg lineEnd (by decide)
  · simp [Dev.st, h1.ask, ha, Dev.cmd, Dev.cmdN, Dev.arg, Dev.log, Dev.flushSer]

section
variable (p) (hr : 60 ≤ c.rx) (ht : 20 ≤ c.tx) (hn : c.tx ≤ n) (hI : c.Idle) (hz : c.rd = 0 ∧ c.bw = 0) (hw : c.part = [])
include hr ht hn hI hz hw

/-- A refusal. -/
theorem refused {bad idle : List Byte → Prop} (hw0 : q.wait ≠ none ∨ q.rep ≠ .okReply)
    (hs : Snd.connecting.idx ≤ q.snd.idx ∧ q.snd.idx ≤ Snd.receiving.idx ∧ q.snd ≠ .receiving)
    (hi : ∀ g l, Chat c apn addr t0 T q g → LineDone g l → idle l → parseLine p g = (g, false))
    (hb : ∀ g l, Chat c apn addr t0 T q g → LineDone g l → bad l →
      ∃ x y s, (x = ConnState.generalError ∨ x = .intermediate) ∧ parseLine p g = (({ g with resetPending := true, cs := x, wait := y } : D), s) ∧
        (s = false → y ≠ none))
    (h : Chat c apn addr t0 T q d) {b : Beat} (hab : Answers ⟨bad, idle⟩ b) (hsl : b.Slow) (ha : q.ask = false := by rfl) :
    Restart c apn none t0 (T ++ [b!"AT+CRESET\r\n"]) (exec (step p) d (b.ops n)) := by
  have e0 := Conf.mid_nil hw
  refine exec_slow (P := fun u => Chat (c.mid u) apn addr t0 T q) (Q0 := Failed c apn addr t0 T q)
    (Q1 := Restart c apn none t0 (T ++ [b!"AT+CRESET\r\n"])) step_irq
    (fun u d hd => wait_idle p hd hw0 hs.2.2)
    (fun u v w d hd hl hw _ => wait_more p hr ht hn hd hw0 hs.2.2 hl hw)
    (fun u v d hd hl hv hx => wait_noise p hr ht hn hd hw0 hl hv fun g h1 h2 => hi g _ (e0 ▸ h1) h2 hx)
    (fun u v d hd hl hv hx => ?_) (fun d hd => failed_run ha hI hz ht ⟨hs.1, hs.2.1⟩ hd)
    (fun d hd => ?_) (fun d hd => ?_) (e0.symm ▸ h) hab hsl
  · obtain ⟨g, h1, h2, h3, h4, e⟩ := run_heard (p := p) hd hn hl hv hr
    rw [e0] at h1
    obtain ⟨x, y, s, hx1, hx2, hx3⟩ := hb g _ h1 h2 hx
    have hf : Failed c apn addr t0 T q ({ g with resetPending := true, cs := x, wait := y } : D) := ⟨g, x, y, h1, h3, hx1, rfl⟩
    show Failed _ _ _ _ _ _ (run p _ true)
    rw [e, hx2]
    cases s with
    | true => exact hf
    | false =>
      simp only [Bool.false_eq_true, if_false]
      have : proceed ({ g with resetPending := true, cs := x, wait := y } : D) = ({ g with resetPending := true, cs := x, wait := y } : D) := by
        unfold proceed
        rw [if_pos (.inl (hx3 rfl))]
      rw [this]; exact hf
  · obtain ⟨x, hx, hd⟩ := hd
    exact ⟨x, hx, wait_idle p hd (.inl (by simp)) (by simp)⟩
  · obtain ⟨x, hx, hd⟩ := hd
    exact ⟨x, hx, wait_idle p hd (.inl (by simp)) (by simp)⟩

end

theorem parseLine_error {w : List Byte} (hl : LineDone g l) (hw : g.wait = some w) (h0 : (0 : Byte) ∉ w) (h1 : b!"ERROR" <+: l)
    (h2 : ¬ w <+: l) : parseLine p g = (({ g with resetPending := true, cs := .generalError, wait := none } : D), true) := by
  have e : parseWait g = (({ g with resetPending := true, cs := .generalError, wait := none } : D), true) := by
    unfold parseWait
    rw [if_pos (by simp [hw]), if_neg (by rw [hl.waitMatches_iff h0 hw]; exact h2), if_pos (hl.has_true (by decide) h1)]
  unfold parseLine
  rw [e]; rfl

section
variable (p) (hr : 60 ≤ c.rx) (ht : 20 ≤ c.tx) (hn : c.tx ≤ n) (hI : c.Idle) (hz : c.rd = 0 ∧ c.bw = 0) (hw : c.part = [])
include hr ht hn hI hz hw

/-- A refusal while a plain answer is awaited. -/
theorem refused_ok {s : Snd} {cs : ConnState} {w : List Byte} (hlow : ¬ Snd.connected.idx ≤ s.idx) (hup : Snd.connecting.idx ≤ s.idx)
    (hs : s ≠ .receiving) (h0 : (0 : Byte) ∉ w) (he : ¬ b!"ERROR" <+: w ∧ ¬ w <+: b!"ERROR") {bad : List Byte → Prop} (hbad : ∀ l, bad l → b!"ERROR" <+: l)
    (h : Chat c apn addr t0 T (at_ s .okReply (some w) cs) d) {b : Beat} (hab : Answers ⟨bad, (await w [b!"ERROR"]).idle⟩ b) (hsl : b.Slow) :
    Restart c apn none t0 (T ++ [b!"AT+CRESET\r\n"]) (exec (step p) d (b.ops n)) := by
  refine refused p hr ht hn hI hz hw (.inl (by simp)) ⟨hup, ?_, hs⟩ (fun g l hg hl hi => ?_) (fun g l hg hl hx => ?_) h hab hsl
  · show s.idx ≤ _
    have : Snd.connected.idx ≤ Snd.receiving.idx := by decide
    omega
  · rw [parseLine_eq (parseWait_clear hl hg.wait h0 (hi _ (by simp)) (hi _ (by simp))) (parseReply_ok hg.rep),
      checkState_low (by rw [hg.snd]; exact hlow)]
  · exact ⟨_, _, _, .inl rfl, parseLine_error hl hg.wait h0 (hbad l hx) (not_prefix_of (hbad l hx) he.1 he.2), by simp⟩

/-- A refusal during the opening. -/
theorem stage_refused {a : List Byte} {r : Peer} (k : Nat) (hk : k < (open7x00 a r).length) (h : Stage c a r t0 T k d) {b : Beat}
    (hb : Answers (refuse (open7x00 a r)[k] fun l => b!"ERROR" <+: l ∨ k + 1 = 7 ∧ b!"+CDNSGIP: 0" <+: l ∨
        k + 1 = 9 ∧ b!"+CIPOPEN: 0," <+: l ∧ ¬ b!"+CIPOPEN: 0,0" <+: l) b) (hsl : b.Slow) :
    Restart c (some a) none t0 (T ++ says ((open7x00 a r).take k) ++ [b!"AT+CRESET\r\n"]) (exec (step p) d (b.ops n)) := by
  match k, hk, h, hb with
  | 0, _, h, hb => exact refused_ok p hr ht hn hI hz hw (by decide) (by decide) (by simp) (by decide) (by decide) (fun l x => by simpa using x) h hb hsl
  | 1, _, h, hb => exact refused_ok p hr ht hn hI hz hw (by decide) (by decide) (by simp) (by decide) (by decide) (fun l x => by simpa using x) h hb hsl
  | 2, _, h, hb => exact refused_ok p hr ht hn hI hz hw (by decide) (by decide) (by simp) (by decide) (by decide) (fun l x => by simpa using x) h hb hsl
  | 3, _, h, hb => exact refused_ok p hr ht hn hI hz hw (by decide) (by decide) (by simp) (by decide) (by decide) (fun l x => by simpa using x) h hb hsl
  | 4, _, h, hb =>
    refine refused p hr ht hn hI hz hw (.inl (by simp)) (by decide) (fun g l hg hl hi => ?_) (fun g l hg hl hx => ?_) h hb hsl
    · refine (parseLine_eq (parseWait_clear hl hg.wait (by decide) (hi _ (by simp)) (hi _ (by simp))) (b := g) ?_).trans ?_
      · unfold parseReply
        rw [hg.rep]
        dsimp only
        rw [if_neg (by rw [hg.wait]; simp), hl.has_false (by decide) (hi _ (by simp))]
        simp
      · rw [checkState_low (by rw [hg.snd]; decide)]
    · have hx : b!"ERROR" <+: l := by simpa using hx
      exact ⟨_, _, _, .inl rfl, parseLine_error hl hg.wait (by decide) hx (not_prefix_of hx (by decide) (by decide)), by simp⟩
  | 5, _, h, hb => exact refused_ok p hr ht hn hI hz hw (by decide) (by decide) (by simp) (by decide) (by decide) (fun l x => by simpa using x) h hb hsl
  | 6, _, h, hb =>
    refine refused p hr ht hn hI hz hw (.inl (by simp)) (by decide) (fun g l hg hl hi => ?_) (fun g l hg hl hx => ?_) h hb hsl
    · refine (parseLine_eq (parseWait_clear hl hg.wait (by decide) (hi _ (by simp)) (hi _ (by simp))) (b := g) ?_).trans ?_
      · unfold parseReply
        rw [hg.rep]
        dsimp only
        unfold SimDev.parseDnsReply
        rw [hl.has_false (by decide) (hi _ (by simp)), hl.has_false (by decide) (hi _ (by simp))]
        simp
      · rw [checkState_low (by rw [hg.snd]; decide)]
    · have hx : b!"ERROR" <+: l ∨ b!"+CDNSGIP: 0" <+: l := by simpa using hx
      rcases hx with hx | hx
      · exact ⟨_, _, _, .inl rfl, parseLine_error hl hg.wait (by decide) hx (not_prefix_of hx (by decide) (by decide)), by simp⟩
      · refine ⟨.intermediate, some b!"OK", false, .inr rfl, ?_, by simp⟩
        have e : ({ g with resetPending := true, cs := .intermediate, wait := some b!"OK" } : D) = { g with resetPending := true } := by
          have h1 := hg.cs
          have h2 := hg.wait
          cases g; simp only at h1 h2; subst h1 h2; rfl
        rw [e]
        refine (parseLine_eq (parseWait_clear hl hg.wait (by decide) (not_prefix_of hx (by decide) (by decide))
          (not_prefix_of hx (by decide) (by decide))) (b := { g with resetPending := true }) ?_).trans ?_
        · unfold parseReply
          rw [hg.rep]
          dsimp only
          rw [SimDev.dns_refused hl hx]; simp [hg.rep]
        · rw [checkState_low (by show ¬ _ ≤ g.snd.idx; rw [hg.snd]; decide)]
  | 7, _, h, hb => exact refused_ok p hr ht hn hI hz hw (by decide) (by decide) (by simp) (by decide) (by decide) (fun l x => by simpa using x) h hb hsl
  | 8, _, h, hb =>
    refine refused p hr ht hn hI hz hw (.inl (by simp)) (by decide) (fun g l hg hl hi => ?_) (fun g l hg hl hx => ?_) h hb hsl
    · refine (parseLine_eq (parseWait_clear hl hg.wait (by decide) (hi _ (by simp)) (hi _ (by simp))) (b := g) ?_).trans ?_
      · unfold parseReply
        rw [hg.rep]
        dsimp only
        rw [if_neg (by rw [hg.wait]; simp), hl.has_false (by decide) (hi _ (by simp))]
        simp
      · rw [checkState_low (by rw [hg.snd]; decide)]
    · have hx : b!"ERROR" <+: l ∨ b!"+CIPOPEN: 0," <+: l ∧ ¬ b!"+CIPOPEN: 0,0" <+: l := by simpa using hx
      rcases hx with hx | ⟨hx, hx2⟩
      · exact ⟨_, _, _, .inl rfl, parseLine_error hl hg.wait (by decide) hx (not_prefix_of hx (by decide) (by decide)), by simp⟩
      · refine ⟨.generalError, some b!"+CIPOPEN: 0,0", false, .inl rfl, ?_, by simp⟩
        have e : ({ g with resetPending := true, cs := .generalError, wait := some b!"+CIPOPEN: 0,0" } : D) =
            { g with resetPending := true, cs := .generalError } := by
          have h2 := hg.wait
          cases g; simp only at h2; subst h2; rfl
        rw [e]
        refine (parseLine_eq (parseWait_clear hl hg.wait (by decide) hx2
          (not_prefix_of hx (by decide) (by decide))) (b := { g with resetPending := true, cs := .generalError }) ?_).trans ?_
        · unfold parseReply
          rw [hg.rep]
          dsimp only
          rw [if_neg (by rw [hg.wait]; simp), hl.has_true (by decide) hx]
          simp
        · rw [checkState_low (by show ¬ _ ≤ g.snd.idx; rw [hg.snd]; decide)]
  | k + 9, hk, _, _ => simp [open7x00] at hk; omega

end

/-- The steps on the way to a connection. -/
def Step (c : Conf) (a : List Byte) (r : Peer) (t0 : List Ev) (T : List (List Byte)) : Nat → D → Prop
  | 0, d => Restart c (some a) none t0 T d
  | k + 1, d => k ≤ 9 ∧ ∃ T', T = T' ++ says ((open7x00 a r).take k) ∧ Stage c a r t0 T' k d

section
variable (p) (hr : 60 ≤ c.rx) (ht : 20 ≤ c.tx) (hn : c.tx ≤ n) (hI : c.Idle) (hz : c.rd = 0 ∧ c.bw = 0) (hw : c.part = [])
include hr ht hn hI hz hw

omit hz in
theorem step_answer {a : List Byte} {r : Peer} (hk : r.Ok) (hc : c.host = some r.host) (hp : c.port = r.port.toNat)
    (hy : c.typ = r.typ) (hx : ∀ t ∈ says (open7x00 a r), t.length ≤ c.tx) (hd : r.host.length + 20 ≤ c.tx)
    (T : List (List Byte)) (i : Nat) (h : i < (plan7x00 a r).steps.length) (d : D) (b : Beat) (hs : Step c a r t0 T i d)
    (hb : Answers (plan7x00 a r).steps[i].await b) (_ : i = 0 → b.Slow) :
    Step c a r t0 (T ++ (plan7x00 a r).steps[i].said) (i + 1) (exec (step p) d (b.ops n)) := by
  cases i with
  | zero =>
    obtain ⟨x, _, hs⟩ := hs
    refine ⟨Nat.zero_le _, T ++ [b!"ATE0\r\n"], by simp [says]; rfl, ?_⟩
    refine stage_ok p hr ht hn hw (Q := Stage c a r t0 (T ++ [b!"ATE0\r\n"]) 0) (by simp) (by decide) (by decide) (fun g hg hf => ?_)
      (fun d hd => wait_idle p hd (.inl (by simp)) (by simp)) hs hb
    show Chat _ _ _ _ _ _ _
    rw [show says ((open7x00 a r).take 0) = [] from rfl, List.append_nil]
    exact act_connecting hg (by rw [hf]; omega)
  | succ k =>
    obtain ⟨_, T', rfl, h1⟩ := hs
    have hk2 : k < (open7x00 a r).length := by
      have : k + 1 < (open7x00 a r).length + 1 := h
      omega
    have h9 : (open7x00 a r).length = 9 := rfl
    refine ⟨by omega, T', ?_, open_stage p hr ht hn hI hw hk hc hp hy hx hd k hk2 d b h1 hb⟩
    exact (says_succ _ _ _ hk2).symm

theorem step_refused {a : List Byte} {r : Peer} (T : List (List Byte)) (i : Nat) (d : D) (b : Beat) (hs : Step c a r t0 T i d)
    (hb : Answers ((plan7x00 a r).refusal i) b) (hsl : b.Slow) :
    Step c a r t0 (T ++ (plan7x00 a r).says i) ((plan7x00 a r).back i) (exec (step p) d (b.ops n)) := by
  cases i with
  | zero =>
    obtain ⟨x, _, hs⟩ := hs
    exact refused_ok p hr ht hn hI hz hw (by decide) (by decide) (by simp) (by decide) (by decide) (fun l x => by simpa using x) hs hb hsl
  | succ k =>
    obtain ⟨h9, T', rfl, h1⟩ := hs
    have h9' : (open7x00 a r).length = 9 := rfl
    by_cases h : k < (open7x00 a r).length
    · refine stage_refused p hr ht hn hI hz hw k h h1 ?_ hsl
      have e : (plan7x00 a r).refusal (k + 1) = refuse (open7x00 a r)[k] fun l => b!"ERROR" <+: l ∨ k + 1 = 7 ∧ b!"+CDNSGIP: 0" <+: l ∨
        k + 1 = 9 ∧ b!"+CIPOPEN: 0," <+: l ∧ ¬ b!"+CIPOPEN: 0,0" <+: l := by
        have : (again7x00 a r)[k + 1]? = some (open7x00 a r)[k] := by
          unfold again7x00
          rw [List.getElem?_cons_succ, List.getElem?_eq_getElem h]
        simp only [plan7x00, this]
      exact e ▸ hb
    · have e : k = 9 := by omega
      subst e
      exact absurd hb.answer.2.2 (by simp [plan7x00, again7x00, open7x00])

/-- `connect()`, setbacks, and the modem gives answers up to step `j`. -/
theorem recover_ok {a : List Byte} {r : Peer} (hk : r.Ok) (hx : ∀ t ∈ visit7x00 a r, t.length ≤ c.tx)
    (hd : r.host.length + 20 ≤ c.tx) (h : Down c apn addr t0 T d) (m : Nat) {ss : List Setback} {U V : List (List Byte)} {i j : Nat}
    (hs : (plan7x00 a r).Setbacks 1 ss U i) {bs : List Beat} (hb : (plan7x00 a r).Steps i bs V j) :
    Step (c.to r) a r t0 (T ++ [b!"ATE0\r\n"] ++ U ++ V) j
      (exec (step p) d (setup7x00 a r ++ (dial m ++ (setbacks n ss ++ Spec.ops n bs)))) := by
  have h1 := setup_ok (p := p) h a r
  rw [exec_append, exec_append, exec_append]
  have h2 := dial_ok (c := c.to r) p hr ht hn hI hw h1 (by simp) (hk.port_ne) m
  have hx2 : ∀ t ∈ says (open7x00 a r), t.length ≤ c.tx := fun t m => hx t (by unfold visit7x00; simp [m])
  have h3 : Step (c.to r) a r t0 (T ++ [b!"ATE0\r\n"]) 1 _ :=
    ⟨Nat.zero_le _, _, by simp [says], (by
      show Chat _ _ _ _ (T ++ [b!"ATE0\r\n"] ++ says ((open7x00 a r).take 0)) _ _
      rw [show says ((open7x00 a r).take 0) = [] from rfl, List.append_nil]
      exact h2 : Stage (c.to r) a r t0 (T ++ [b!"ATE0\r\n"]) 0 _)⟩
  have h4 := exec_setbacks (step := step p) (P := Step (c.to r) a r t0) (pl := plan7x00 a r)
    (step_answer (c := c.to r) p hr ht hn hI hw hk rfl rfl rfl hx2 hd) (step_refused (c := c.to r) p hr ht hn hI hz hw) h3 hs
  exact exec_steps (step := step p) (P := Step (c.to r) a r t0) (pl := plan7x00 a r)
    (step_answer (c := c.to r) p hr ht hn hI hw hk rfl rfl rfl hx2 hd) h4 hb

end
end Sim7x00
end Verif
