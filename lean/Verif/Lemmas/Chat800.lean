import Verif.Lemmas.ChatDns

/-! The SIM800 driver in a dialogue. -/

namespace Verif

open Dev Spec

namespace Sim800

variable {p : Platform} {c : Conf} {apn addr : Option (List Byte)} {t0 : List Ev} {T : List (List Byte)} {q : St Snd Rep}
  {d g : D} {n : Nat} {l : List Byte}

abbrev Chat (c : Conf) (apn addr : Option (List Byte)) (t0 : List Ev) (T : List (List Byte)) (q : St Snd Rep) (d : D) : Prop :=
  Talk c (SimDev.ChatExt apn addr) t0 T q d

theorem proceed_wait {E : SimExt → Prop} (h : Talk c E t0 T q d) (hw : q.wait ≠ none ∨ q.rep ≠ .okReply) : proceed d = d := by
  unfold proceed
  rw [h.wait, h.rep, if_pos hw]

theorem proceed_act (h : Chat c apn addr t0 T q d) (hw : q.wait = none) (hr : q.rep = .okReply) (hs : 20 ≤ d.ser.txFree)
    (ha : q.ask = false := by rfl) :
    proceed d = act d := by
  unfold proceed
  rw [h.wait, h.rep, if_neg (by simp [hw, hr]), h.calm.serSpace, if_neg (by omega), h.calm.askSpace]
  unfold sendNext
  rw [if_neg (fun x => by rw [h.ask, ha] at x; simp at x)]
  have e : d.sendIDRequest iccidCommand = (d, false) := by
    unfold SimDev.sendIDRequest
    rw [if_neg (fun x => h.ext.id.elim x.1 fun y => y x.2.1)]
  rw [e]; rfl

theorem run_work {E : SimExt → Prop} (h : Talk c E t0 T q d) : run p d true = work p d := by
  unfold run
  rw [h.calm.isOpen, h.calm.lock, h.calm.reset]; rfl

theorem run_calm {E : SimExt → Prop} (h : Talk c E t0 T q d) (hs : q.snd ≠ .receiving) : run p d true = proceed d := by
  rw [run_work h]
  unfold work SimDev.fillLineBuffer
  rw [h.calm.fillLine]
  show proceed (flushIfDisconnecting d) = _
  unfold flushIfDisconnecting
  rw [if_neg (fun x => hs (h.snd ▸ x.2))]

theorem run_heard {E : SimExt → Prop} {u v : List Byte} (h : Talk (c.mid u) E t0 T q d) (hn : c.tx ≤ n) (hl : IsLine (u ++ v)) (hv : v ≠ []) (hr : 60 ≤ c.rx) :
    ∃ g, Talk (c.mid []) E t0 T q g ∧ LineDone g (u ++ v) ∧ g.ser.txFree = c.tx ∧ g.ipConnected = d.ipConnected ∧
      run p (hearing d n v) true = if (parseLine p g).2 then (parseLine p g).1 else proceed (parseLine p g).1 := by
  obtain ⟨g, e, h1, h2, h3, h4⟩ := h.heard hn hl hv hr (SimDev.lineStop d.rep)
    (fun m k x _ h1 h2 h3 => by
      unfold SimDev.lineStop
      rw [if_neg]; simp [h1, h2]; omega) (fun m k => rfl)
  refine ⟨g, h1, h2, h3, h4, ?_⟩
  have : run p (hearing d n v) true = work p (hearing d n v) := by
    unfold run
    rw [if_neg (by simp [h.calm.isOpen]), if_neg (by simp [h.calm.lock]), if_neg (by simp [h.calm.reset])]
  rw [this]
  unfold work SimDev.fillLineBuffer
  rw [show (hearing d n v).rep = d.rep from rfl, e]
  simp

/-- A piece of a line that does not complete it: as without input. -/
theorem run_more {E : SimExt → Prop} {u v w : List Byte} (h : Talk (c.mid u) E t0 T q d) (hn : c.tx ≤ n) (hl : IsLine (u ++ v ++ w)) (hw : w ≠ [])
    (hr : 60 ≤ c.rx) (hs : q.snd ≠ .receiving) :
    ∃ g, Talk (c.mid (u ++ v)) E t0 T q g ∧ g.ser.txFree = c.tx ∧ g.ipConnected = d.ipConnected ∧
      run p (hearing d n v) true = proceed g := by
  obtain ⟨g, e, h1, h3, h4⟩ := h.more (v := v) hn hl hw hr (SimDev.lineStop d.rep)
    (fun m k x _ h1 h2 h3 => by
      unfold SimDev.lineStop
      rw [if_neg]; simp [h1, h2]; omega)
  refine ⟨g, h1, h3, h4, ?_⟩
  have : run p (hearing d n v) true = work p (hearing d n v) := by
    unfold run
    rw [if_neg (by simp [h.calm.isOpen]), if_neg (by simp [h.calm.lock]), if_neg (by simp [h.calm.reset])]
  rw [this]
  unfold work SimDev.fillLineBuffer
  rw [show (hearing d n v).rep = d.rep from rfl, e]
  show proceed (flushIfDisconnecting g) = _
  unfold flushIfDisconnecting
  rw [if_neg (fun x => hs (h1.snd ▸ x.2))]

theorem step_irq (d : D) (hs : List Hw) : step p d (.irq hs) = { d with ser := d.ser.transfers hs } := rfl

/-! ### Lines -/

theorem isError_clear (hl : LineDone d l) (h : Clear errors800 l) : isError d = false := by
  unfold isError
  rw [hl.has_false (by decide) (h _ (by simp [errors800])), hl.has_false (by decide) (h _ (by simp [errors800])),
    hl.has_false (by decide) (h _ (by simp [errors800]))]
  rfl

theorem clear_of {w : List Byte} {bad : List (List Byte)} (hw : w <+: l) (h : ∀ b ∈ bad, ¬ w <+: b ∧ ¬ b <+: w) : Clear bad l :=
  fun b hb => not_prefix_of hw (h b hb).1 (h b hb).2

theorem checkState_low (hs : ¬ Snd.connected.idx ≤ d.snd.idx) : checkState d = d := by
  unfold checkState; rw [if_neg hs]

theorem checkState_clear (hl : LineDone d l) (h : Clear [b!"+CIPRXGET: 1,0", b!"0, CLOSED"] l) : checkState d = d := by
  unfold checkState SimDev.checkConnectionState
  rw [hl.has_false (by decide) (h _ (by simp)), hl.has_false (by decide) (h _ (by simp))]
  simp

theorem parseWait_clear {w : List Byte} (hl : LineDone d l) (hw : d.wait = some w) (h0 : (0 : Byte) ∉ w)
    (h1 : ¬ w <+: l) : parseWait d = d := by
  unfold parseWait
  rw [if_neg (by rw [hl.waitMatches_iff h0 hw]; exact h1)]

theorem parseWait_good {w : List Byte} (hl : LineDone d l) (hw : d.wait = some w) (h0 : (0 : Byte) ∉ w)
    (h1 : w <+: l) : parseWait d = { d with wait := none } := by
  unfold parseWait
  rw [if_pos (by rw [hl.waitMatches_iff h0 hw]; exact h1)]

theorem parseWait_none (hw : d.wait = none) : parseWait d = d := by
  unfold parseWait Dev.waitMatches
  rw [if_neg (by simp [hw])]

theorem parseLine_eq {a b : D} (h0 : isError d = false) (h1 : parseWait d = a) (h2 : parseReply p a = b) :
    parseLine p d = (checkState b, false) := by
  unfold parseLine
  rw [h0, h1, h2]
  simp

theorem parseReply_ok (hr : d.rep = .okReply) : parseReply p d = d := by
  unfold parseReply; rw [hr]

/-! ### The state machine -/

/-- The states of a dialogue. `dp`: a request to disconnect is pending. -/
abbrev at_ (s : Snd) (r : Rep) (w : Option (List Byte)) (cs : ConnState) (dp : Bool := false) : St Snd Rep := ⟨s, r, w, cs, dp, false, false⟩

/-- While waiting, nothing happens. -/
theorem wait_idle {E : SimExt → Prop} (p : Platform) (h : Talk c E t0 T q d) (hw : q.wait ≠ none ∨ q.rep ≠ .okReply) (hs : q.snd ≠ .receiving) :
    Talk c E t0 T q (step p d (.run true)) := by
  show Talk _ _ _ _ _ (run p d true)
  rw [run_calm h hs, proceed_wait h hw]; exact h

section
variable (p) (hr : 60 ≤ c.rx) (ht : 20 ≤ c.tx) (hn : c.tx ≤ n)
include hr ht hn

/-- A piece of a line. -/
theorem wait_more {E : SimExt → Prop} {u v w : List Byte} (h : Talk (c.mid u) E t0 T q d) (hw : q.wait ≠ none ∨ q.rep ≠ .okReply)
    (hs : q.snd ≠ .receiving) (hl : IsLine (u ++ v ++ w)) (hw0 : w ≠ []) :
    Talk (c.mid (u ++ v)) E t0 T q (step p (hearing d n v) (.run true)) := by
  obtain ⟨g, h1, h3, h4, e⟩ := run_more (p := p) h hn hl hw0 hr hs
  show Talk _ _ _ _ _ (run p _ true)
  rw [e, proceed_wait h1 hw]; exact h1

/-- An unimportant line. -/
theorem wait_noise {E : SimExt → Prop} {u v : List Byte} (h : Talk (c.mid u) E t0 T q d) (hw : q.wait ≠ none ∨ q.rep ≠ .okReply) (hl : IsLine (u ++ v))
    (hv : v ≠ []) (hp : ∀ g, Talk (c.mid []) E t0 T q g → LineDone g (u ++ v) → parseLine p g = (g, false)) :
    Talk (c.mid []) E t0 T q (step p (hearing d n v) (.run true)) := by
  obtain ⟨g, h1, h2, h3, h4, e⟩ := run_heard (p := p) h hn hl hv hr
  show Talk _ _ _ _ _ (run p _ true)
  rw [e, hp g h1 h2]
  simp only [Bool.false_eq_true, if_false]
  rw [proceed_wait h1 hw]; exact h1

variable (hw : c.part = [])
include hw

/-- A stage of a dialogue: the driver waits for a line and does the next step upon it. -/
theorem stage {dp : Bool} {s : Snd} {r : Rep} {w : List Byte} {cs : ConnState} {a : Await} {Q : D → Prop} (hs : s ≠ .receiving)
    (hi : ∀ g l, Chat c apn addr t0 T (at_ s r (some w) cs dp) g → LineDone g l → a.idle l → parseLine p g = (g, false))
    (hg : ∀ g l, Chat c apn addr t0 T (at_ s r (some w) cs dp) g → LineDone g l → a.good l →
      parseLine p g = ({ g with wait := none, rep := .okReply }, false))
    (ha : ∀ g, Chat c apn addr t0 T (at_ s .okReply none cs dp) g → g.ser.txFree = c.tx → Q (act g))
    (hq : ∀ d, Q d → Q (step p d (.run true)))
    (h : Chat c apn addr t0 T (at_ s r (some w) cs dp) d) {b : Beat} (hab : Answers a b) :
    Q (exec (step p) d (b.ops n)) := by
  have e0 := Conf.mid_nil hw
  refine exec_beat (P := fun u => Chat (c.mid u) apn addr t0 T (at_ s r (some w) cs dp)) step_irq
    (fun u d hd => wait_idle p hd (.inl (by simp)) hs)
    (fun u v w d hd hl hw _ => wait_more p hr ht hn hd (.inl (by simp)) hs hl hw)
    (fun u v d hd hl hv hx => wait_noise p hr ht hn hd (.inl (by simp)) hl hv fun g h1 h2 => hi g _ (e0 ▸ h1) h2 hx)
    (fun u v d hd hl hv hx => ?_) hq (e0.symm ▸ h) hab
  obtain ⟨g, h1, h2, h3, h4, e⟩ := run_heard (p := p) hd hn hl hv hr
  rw [e0] at h1
  show Q (run p _ true)
  have hg2 : Chat c apn addr t0 T (at_ s .okReply none cs dp) ({ g with wait := none, rep := .okReply } : D) :=
    (h1.set ({ g with wait := none, rep := .okReply } : D) rfl rfl rfl h1.calm.lineRead).at (by
      show (⟨g.snd, _, none, g.cs, g.disconnectPending, g.connectPending, decide (g.rssi = int16Max)⟩ : St _ _) = _
      simp [h1.snd, h1.cs, h1.disc, h1.conn, h1.ask])
  rw [e, hg g _ h1 h2 hx]
  simp only [Bool.false_eq_true, if_false]
  rw [proceed_act hg2 rfl rfl (by show 20 ≤ g.ser.txFree; omega)]
  exact ha _ hg2 h3

/-- A stage with a plain answer. -/
theorem stage_ok {dp : Bool} {s : Snd} {cs : ConnState} {w : List Byte} {Q : D → Prop} (hs : s ≠ .receiving)
    (hlow : ¬ Snd.connected.idx ≤ s.idx) (h0 : (0 : Byte) ∉ w) (hwe : ∀ b ∈ errors800, ¬ w <+: b ∧ ¬ b <+: w)
    (ha : ∀ g, Chat c apn addr t0 T (at_ s .okReply none cs dp) g → g.ser.txFree = c.tx → Q (act g))
    (hq : ∀ d, Q d → Q (step p d (.run true)))
    (h : Chat c apn addr t0 T (at_ s .okReply (some w) cs dp) d) {b : Beat} (hab : Answers (await w errors800) b) :
    Q (exec (step p) d (b.ops n)) := by
  refine stage p hr ht hn hw hs (fun g l hg hl hi => ?_) (fun g l hg hl hx => ?_) ha hq h hab
  · rw [parseLine_eq (isError_clear hl fun w hw => hi w (List.mem_cons_of_mem _ hw))
      (parseWait_clear hl hg.wait h0 (hi _ (by simp))) (parseReply_ok hg.rep),
      checkState_low (by rw [hg.snd]; exact hlow)]
  · rw [parseLine_eq (isError_clear hl (clear_of hx hwe)) (parseWait_good hl hg.wait h0 hx) (parseReply_ok hg.rep), checkState_low (by
      show ¬ _ ≤ g.snd.idx
      rw [hg.snd]; exact hlow)]
    have := hg.rep
    cases g; simp only at this; subst this; rfl

end

/-! ### The commands -/

section
variable {cs : ConnState}

theorem act_notConnected (h : Chat c apn addr t0 T ⟨.notConnected, .okReply, none, cs, false, true, false⟩ d) :
    Chat c apn addr t0 T (at_ .connecting .okReply none .notConnected) (act d) ∧ (act d).ser = d.ser := by
  unfold act
  rw [h.snd]
  show Chat _ _ _ _ _ _ (Dev.handleConnect _ _) ∧ (Dev.handleConnect _ _).ser = _
  unfold Dev.handleConnect
  rw [if_pos (show ({ d with delay := 10, cs := ConnState.notConnected } : D).connectPending = true from h.conn)]
  refine ⟨?_, rfl⟩
  moved h

theorem act_rest (h : Chat c apn addr t0 T (at_ .notConnected .okReply none cs) d) :
    Chat c apn addr t0 T (at_ .notConnected .okReply none .notConnected) (act d) ∧ (act d).ser = d.ser := by
  unfold act
  rw [h.snd]
  show Chat _ _ _ _ _ _ (Dev.handleConnect _ _) ∧ (Dev.handleConnect _ _).ser = _
  unfold Dev.handleConnect
  rw [if_neg (by show ¬ d.connectPending = true; rw [h.conn]; simp)]
  refine ⟨?_, rfl⟩
  moved h

theorem act_connecting {dp : Bool} (h : Chat c apn addr t0 T (at_ .connecting .okReply none cs dp) d)
    (hx : b!"ATE0\r\n".length ≤ d.ser.txFree) :
    Chat c apn addr t0 (T ++ [b!"ATE0\r\n"]) (at_ .sendCiprxget .okReply (some b!"OK") .intermediate dp) (act d) := by
  unfold act
  rw [h.snd]
  said h hx (Wrote.command h.calm.ser _ (by decide))

theorem act_ciprxget {dp : Bool} (h : Chat c apn addr t0 T (at_ .sendCiprxget .okReply none cs dp) d)
    (hx : b!"AT+CIPRXGET=1\r\n".length ≤ d.ser.txFree) :
    Chat c apn addr t0 (T ++ [b!"AT+CIPRXGET=1\r\n"]) (at_ .sendCipmux .okReply (some b!"OK") cs dp) (act d) := by
  unfold act
  rw [h.snd]
  said h hx (Wrote.command h.calm.ser _ (by decide))

theorem act_cipmux {dp : Bool} (h : Chat c apn addr t0 T (at_ .sendCipmux .okReply none cs dp) d)
    (hx : b!"AT+CIPMUX=1\r\n".length ≤ d.ser.txFree) :
    Chat c apn addr t0 (T ++ [b!"AT+CIPMUX=1\r\n"]) (at_ .sendCstt .okReply (some b!"OK") cs dp) (act d) := by
  unfold act
  rw [h.snd]
  said h hx (Wrote.command h.calm.ser _ (by decide))

theorem act_cstt {dp : Bool} {a : List Byte} (h : Chat c (some a) addr t0 T (at_ .sendCstt .okReply none cs dp) d) (h0 : (0 : Byte) ∉ a)
    (hx : (b!"AT+CSTT=\"" ++ a ++ b!"\"\r\n").length ≤ d.ser.txFree) :
    Chat c (some a) addr t0 (T ++ [b!"AT+CSTT=\"" ++ a ++ b!"\"\r\n"])
      (at_ .sendCiicr .okReply (some b!"OK") cs dp) (act d) := by
  unfold act
  rw [h.snd]
  show Chat _ _ _ _ _ _ (actCstt d)
  unfold actCstt
  rw [if_neg (by rw [h.ext.apn]; simp)]
  dsimp only
  rw [h.ext.apn]
  said h hx (((Wrote.cmdN h.calm.ser _).arg a h0).arg quoteEnd (by decide))

theorem act_ciicr {dp : Bool} (h : Chat c apn addr t0 T (at_ .sendCiicr .okReply none cs dp) d)
    (hx : b!"AT+CIICR\r\n".length ≤ d.ser.txFree) :
    Chat c apn addr t0 (T ++ [b!"AT+CIICR\r\n"]) (at_ .sendCifsr .okReply (some b!"OK") cs dp) (act d) := by
  unfold act
  rw [h.snd]
  said h hx (Wrote.command h.calm.ser _ (by decide))

theorem act_cifsr (h : Chat c apn addr t0 T (at_ .sendCifsr .okReply none cs) d)
    (hx : b!"AT+CIFSR\r\n".length ≤ d.ser.txFree) :
    Chat c apn addr t0 (T ++ [b!"AT+CIFSR\r\n"]) (at_ .sendDnsQuery .cifsr none cs) (act d) := by
  unfold act
  rw [h.snd]
  dsimp only
  rw [if_neg (by rw [h.disc]; simp)]
  said h hx ((Wrote.cmdN h.calm.ser _).arg lineEnd (by decide))

theorem act_dns {dp : Bool} {host : List Byte} (h : Chat c apn addr t0 T (at_ .sendDnsQuery .okReply none cs dp) d)
    (hc : c.host = some host) (h0 : (0 : Byte) ∉ host) (hs : host.length + 20 ≤ d.ser.txFree) :
    Chat c apn addr t0 (T ++ [b!"AT+CDNSGIP=\"" ++ host ++ b!"\"\r\n"]) (at_ .sendCipstart .cdnsgip (some b!"OK") cs dp) (act d) := by
  have hx : (b!"AT+CDNSGIP=\"" ++ host ++ b!"\"\r\n").length ≤ d.ser.txFree := by simp; omega
  have e : SimDev.sendDnsQuery d = (((d.cmd b!"AT+CDNSGIP=\"").arg host).arg quoteEnd, true) := by
    unfold SimDev.sendDnsQuery
    have hh : d.host = some host := h.host.trans hc
    simp only [hh, reduceCtorEq, if_false, Option.getD_some]
    rw [h.calm.serSpace, if_neg (by omega), h.calm.askSpace]
  unfold act
  rw [h.snd]
  dsimp only
  rw [e]
  simp only [if_true]
  said h hx (((Wrote.cmd h.calm.ser _ (by decide)).arg host h0).arg quoteEnd (by decide))

theorem act_cipstart {dp : Bool} {r : Peer} (h : Chat c apn (some r.addr) t0 T (at_ .sendCipstart .okReply none cs dp) d)
    (hp : c.port = r.port.toNat) (ht : c.typ = r.typ) (h0 : (0 : Byte) ∉ r.addr) (hx : (cipstart800 r).length ≤ d.ser.txFree) :
    Chat c apn (some r.addr) t0 (T ++ [cipstart800 r]) (at_ .finalizeConnect .cipstart (some b!"0, CONNECT OK") cs dp) (act d) := by
  have hd : dec5 d.port = decimals r.port.toNat := by
    rw [h.port, hp]; exact dec5_decimals (by have := r.port.toNat_lt; omega)
  have hz : (0 : Byte) ∉ decimals r.port.toNat := by
    rw [← hd]; intro hm; have := dec5_digits _ _ hm; simp [IsDigit] at this
  have ha := h.ext.addr _ rfl
  unfold act
  rw [h.snd]
  show Chat _ _ _ _ _ _ (actCipstart d)
  unfold actCipstart
  dsimp only
  unfold cipstart800 at *
  by_cases hu : r.typ = .udp
  · rw [if_pos hu] at hx ⊢
    rw [if_pos (show (Dev.cmd d _).typ = .udp from (h.typ.trans ht).trans hu),
      show (Dev.arg (Dev.cmd d b!"AT+CIPSTART") b!"=0,\"UDP\",\"").ext = d.ext from rfl, ha,
      show (Dev.arg (Dev.cmd d b!"AT+CIPSTART") b!"=0,\"UDP\",\"").port = d.port from rfl, hd]
    said h hx ((((((Wrote.cmd h.calm.ser b!"AT+CIPSTART" (by decide)).arg b!"=0,\"UDP\",\"" (by decide)).arg _ h0).arg b!"\"," (by decide)).arg _ hz).arg lineEnd (by decide))
  · rw [if_neg hu] at hx ⊢
    rw [if_neg (show ¬ (Dev.cmd d _).typ = .udp from fun x => hu ((h.typ.trans ht).symm.trans x)),
      show (Dev.arg (Dev.cmd d b!"AT+CIPSTART") b!"=0,\"TCP\",\"").ext = d.ext from rfl, ha,
      show (Dev.arg (Dev.cmd d b!"AT+CIPSTART") b!"=0,\"TCP\",\"").port = d.port from rfl, hd]
    said h hx ((((((Wrote.cmd h.calm.ser b!"AT+CIPSTART" (by decide)).arg b!"=0,\"TCP\",\"" (by decide)).arg _ h0).arg b!"\"," (by decide)).arg _ hz).arg lineEnd (by decide))

theorem act_finalizeConnect {dp : Bool} (h : Chat c apn addr t0 T (at_ .finalizeConnect .okReply none cs dp) d) :
    Chat c apn addr t0 T (at_ .connected .okReply none .connected dp) (act d) ∧ (act d).ipConnected = true ∧ (act d).ser = d.ser := by
  unfold act
  rw [h.snd]
  refine ⟨?_, rfl, rfl⟩
  moved h

theorem act_stay (hI : c.Idle) (h : Chat c apn addr t0 T (at_ .connected .okReply none cs) d) (hi : d.ipConnected = true) :
    Chat c apn addr t0 T (at_ .connected .okReply none .connected) (act d) ∧ (act d).ipConnected = true ∧ (act d).ser = d.ser := by
  unfold act
  rw [h.snd]
  show Chat _ _ _ _ _ _ (actConnected d) ∧ (actConnected d).ipConnected = _ ∧ (actConnected d).ser = _
  unfold actConnected
  rw [if_neg (by rw [h.wempty hI]; simp), if_neg (by rw [h.quiet hI]; simp), if_pos hi]
  unfold Dev.handleDisconnect
  rw [if_neg (by show ¬ d.disconnectPending = true; rw [h.disc]; simp)]
  refine ⟨?_, hi, rfl⟩
  moved h

theorem act_closed (hI : c.Idle) (h : Chat c apn addr t0 T (at_ .connected .okReply none cs) d) (hi : d.ipConnected = false) :
    Chat c apn addr t0 T (at_ .sendCipshut .okReply none .connected) (act d) ∧ (act d).ser = d.ser := by
  unfold act
  rw [h.snd]
  show Chat _ _ _ _ _ _ (actConnected d) ∧ (actConnected d).ser = _
  unfold actConnected
  rw [if_neg (by rw [h.wempty hI]; simp), if_neg (by rw [h.quiet hI]; simp), if_neg (by simp [hi])]
  refine ⟨?_, rfl⟩
  moved h

theorem act_hangUp (hI : c.Idle) (h : Chat c apn addr t0 T ⟨.connected, .okReply, none, cs, true, false, false⟩ d) (hi : d.ipConnected = true) :
    Chat c apn addr t0 T (at_ .sendCipclose .okReply none .connected) (act d) ∧ (act d).ser = d.ser ∧ (act d).ipConnected = true := by
  unfold act
  rw [h.snd]
  show Chat _ _ _ _ _ _ (actConnected d) ∧ (actConnected d).ser = _ ∧ (actConnected d).ipConnected = _
  unfold actConnected
  rw [if_neg (by rw [h.wempty hI]; simp), if_neg (by rw [h.quiet hI]; simp), if_pos hi]
  unfold Dev.handleDisconnect
  rw [if_pos (by show d.disconnectPending = true; rw [h.disc])]
  refine ⟨?_, rfl, hi⟩
  moved h

theorem act_cipclose (h : Chat c apn addr t0 T (at_ .sendCipclose .okReply none cs) d) (hi : d.ipConnected = true)
    (hx : b!"AT+CIPCLOSE=0\r\n".length ≤ d.ser.txFree) :
    Chat c apn addr t0 (T ++ [b!"AT+CIPCLOSE=0\r\n"])
      (at_ .sendCipshut .okReply (some b!"0, CLOSE OK") .intermediate) (act d) := by
  unfold act
  rw [h.snd]
  dsimp only
  rw [if_pos hi]
  said h hx (Wrote.command h.calm.ser _ (by decide))

theorem act_cipshut (h : Chat c apn addr t0 T (at_ .sendCipshut .okReply none cs) d)
    (hx : b!"AT+CIPSHUT\r\n".length ≤ d.ser.txFree) :
    Chat c apn addr t0 (T ++ [b!"AT+CIPSHUT\r\n"])
      (at_ .finalizeDisconnect .okReply (some b!"SHUT OK") .intermediate) (act d) := by
  unfold act
  rw [h.snd]
  said h hx (Wrote.command h.calm.ser _ (by decide))

theorem act_finalizeDisconnect (h : Chat c apn addr t0 T (at_ .finalizeDisconnect .okReply none cs) d) :
    Chat c apn addr t0 T (at_ .notConnected .okReply none .notConnected) (act d) ∧ (act d).ser = d.ser := by
  unfold act
  rw [h.snd]
  refine ⟨?_, rfl⟩
  moved h

end

/-! ### Dialogues -/

/-- Not connected. -/
def Down (c : Conf) (apn addr : Option (List Byte)) (t0 : List Ev) (T : List (List Byte)) (d : D) : Prop :=
  Chat c apn addr t0 T (at_ .notConnected .okReply none .notConnected) d ∧ d.ser.txFree = c.tx

/-- Connected. -/
def Up (c : Conf) (apn addr : Option (List Byte)) (t0 : List Ev) (T : List (List Byte)) (d : D) : Prop :=
  Chat c apn addr t0 T (at_ .connected .okReply none .connected) d ∧ d.ipConnected = true ∧ d.ser.txFree = c.tx

/-- The stages of the opening. `dp`: a request to disconnect is pending. -/
def StageD (dp : Bool) (c : Conf) (apn : List Byte) (r : Peer) (t0 : List Ev) (T : List (List Byte)) : Nat → D → Prop
  | 0 => Chat c (some apn) none t0 (T ++ says ((open800 apn r).take 0)) (at_ .sendCiprxget .okReply (some b!"OK") .intermediate dp)
  | 1 => Chat c (some apn) none t0 (T ++ says ((open800 apn r).take 1)) (at_ .sendCipmux .okReply (some b!"OK") .intermediate dp)
  | 2 => Chat c (some apn) none t0 (T ++ says ((open800 apn r).take 2)) (at_ .sendCstt .okReply (some b!"OK") .intermediate dp)
  | 3 => Chat c (some apn) none t0 (T ++ says ((open800 apn r).take 3)) (at_ .sendCiicr .okReply (some b!"OK") .intermediate dp)
  | 4 => Chat c (some apn) none t0 (T ++ says ((open800 apn r).take 4)) (at_ .sendCifsr .okReply (some b!"OK") .intermediate dp)
  | 5 => Chat c (some apn) none t0 (T ++ says ((open800 apn r).take 5)) (at_ .sendDnsQuery .cifsr none .intermediate dp)
  | 6 => Chat c (some apn) none t0 (T ++ says ((open800 apn r).take 6)) (at_ .sendCipstart .cdnsgip (some b!"OK") .intermediate dp)
  | 7 => Chat c (some apn) (some r.addr) t0 (T ++ says ((open800 apn r).take 7)) (at_ .sendCipstart .okReply (some b!"OK") .intermediate dp)
  | 8 => Chat c (some apn) (some r.addr) t0 (T ++ says ((open800 apn r).take 8)) (at_ .finalizeConnect .cipstart (some b!"0, CONNECT OK") .intermediate dp)
  | _ => Up c (some apn) (some r.addr) t0 (T ++ says (open800 apn r))

/-- The stages of the opening. -/
abbrev Stage (c : Conf) (apn : List Byte) (r : Peer) (t0 : List Ev) (T : List (List Byte)) : Nat → D → Prop := StageD false c apn r t0 T

theorem init_ok {rxm txm rmem wmem line ip id : List Byte} {ty : ConnType} (h1 : txm ≠ []) (h2 : line.length = 61)
    (h3 : ip.length = 16) (h4 : 2 ≤ id.length) :
    Down (.start rxm.length txm.length wmem.length rmem.length ty) none none [] []
      (step p (init (Ser.init rxm txm []) rmem wmem ty line ip id) (.run true)) := by
  refine ⟨⟨⟨rfl, rfl, rfl, rfl, ⟨h2, (show 0 < lineMax by decide), rfl⟩, ⟨rfl, rfl⟩, ?_⟩, ⟨[.apiReset], rfl, rfl, ?_, rfl, rfl⟩, rfl, rfl, rfl, rfl, rfl,
    Ring.rep_flush rfl rfl, rfl, Ring.rep_flush rfl rfl, rfl, rfl, rfl, rfl, ⟨rfl, h3, ?_, (by decide : 0 < 1460), by simp⟩⟩, rfl⟩
  · exact ⟨rfl, rfl, Ser.rxRep_flush (Ser.rxRep_init rxm txm []), ⟨[], LineBuf.rep_init txm, rfl⟩, List.length_pos_iff.mpr h1, rfl, rfl⟩
  · intro w g x; simp at x
  · refine .inl (show (((⟨id, false⟩ : Mem).store 0 0).store 1 0).get 1 = 0 from ?_)
    unfold Mem.get Mem.store
    simp [List.getD_eq_getElem?_getD, List.getElem?_set, show 1 < id.length by omega]

theorem setup_ok (h : Down c apn addr t0 T d) (a : List Byte) (r : Peer) :
    Down (c.to r) (some a) none t0 T
      (exec (step p) d (setup7x00 a r)) :=
  ⟨⟨⟨h.1.calm.isOpen, h.1.calm.lock, h.1.calm.reset, h.1.calm.lineRead,
      ⟨h.1.calm.line.len, h.1.calm.line.fill, h.1.calm.line.oob⟩, h.1.calm.fill, h.1.calm.ser⟩, h.1.told, h.1.st,
      rfl, rfl, rfl, h.1.data, h.1.wbuf, h.1.wcap, h.1.rbuf, h.1.rcap, h.1.rcv, h.1.rd, h.1.bw, ⟨rfl, h.1.ext.ip, h.1.ext.id, h.1.ext.max, by simp⟩⟩, h.2⟩

section
variable (p) (hr : 60 ≤ c.rx) (ht : 20 ≤ c.tx) (hn : c.tx ≤ n) (hI : c.Idle)
include hr ht hn hI

theorem down_idle (h : Down c apn addr t0 T d) : Down c apn addr t0 T (step p d (.run true)) := by
  show Down _ _ _ _ _ (run p d true)
  rw [run_calm h.1 (by simp), proceed_act h.1 rfl rfl (by rw [h.2]; exact ht)]
  have := act_rest h.1
  exact ⟨this.1, by rw [this.2]; exact h.2⟩

theorem down_more {u v w : List Byte} (h : Down (c.mid u) apn addr t0 T d) (hl : IsLine (u ++ v ++ w)) (hw : w ≠ []) :
    Down (c.mid (u ++ v)) apn addr t0 T (step p (hearing d n v) (.run true)) := by
  obtain ⟨g, h1, h3, h4, e⟩ := run_more (p := p) h.1 hn hl hw hr (by simp)
  show Down _ _ _ _ _ (run p _ true)
  rw [e, proceed_act h1 rfl rfl (by rw [h3]; exact ht)]
  have := act_rest h1
  exact ⟨this.1, by rw [this.2]; exact h3⟩

theorem down_noise {u v : List Byte} (h : Down (c.mid u) apn addr t0 T d) (hl : IsLine (u ++ v)) (hv : v ≠ []) (hs : Clear errors800 (u ++ v)) :
    Down (c.mid []) apn addr t0 T (step p (hearing d n v) (.run true)) := by
  obtain ⟨g, h1, h2, h3, h4, e⟩ := run_heard (p := p) h.1 hn hl hv hr
  show Down _ _ _ _ _ (run p _ true)
  rw [e, parseLine_eq (isError_clear h2 hs) (parseWait_none h1.wait) (parseReply_ok h1.rep), checkState_low (by rw [h1.snd]; decide)]
  simp only [Bool.false_eq_true, if_false]
  rw [proceed_act h1 rfl rfl (by rw [h3]; exact ht)]
  have := act_rest h1
  exact ⟨this.1, by rw [this.2]; exact h3⟩

theorem up_idle (h : Up c apn addr t0 T d) : Up c apn addr t0 T (step p d (.run true)) := by
  show Up _ _ _ _ _ (run p d true)
  rw [run_calm h.1 (by simp), proceed_act h.1 rfl rfl (by rw [h.2.2]; exact ht)]
  have := act_stay hI h.1 h.2.1
  exact ⟨this.1, this.2.1, by rw [this.2.2]; exact h.2.2⟩

theorem up_more {u v w : List Byte} (h : Up (c.mid u) apn addr t0 T d) (hl : IsLine (u ++ v ++ w)) (hw : w ≠ []) :
    Up (c.mid (u ++ v)) apn addr t0 T (step p (hearing d n v) (.run true)) := by
  obtain ⟨g, h1, h3, h4, e⟩ := run_more (p := p) h.1 hn hl hw hr (by simp)
  show Up _ _ _ _ _ (run p _ true)
  rw [e, proceed_act h1 rfl rfl (by rw [h3]; exact ht)]
  have := act_stay (c := c.mid (u ++ v)) hI h1 (h4.trans h.2.1)
  exact ⟨this.1, this.2.1, by rw [this.2.2]; exact h3⟩

theorem up_noise {u v : List Byte} (h : Up (c.mid u) apn addr t0 T d) (hl : IsLine (u ++ v)) (hv : v ≠ []) (hs : stay800 (u ++ v)) :
    Up (c.mid []) apn addr t0 T (step p (hearing d n v) (.run true)) := by
  obtain ⟨g, h1, h2, h3, h4, e⟩ := run_heard (p := p) h.1 hn hl hv hr
  show Up _ _ _ _ _ (run p _ true)
  rw [e, parseLine_eq (isError_clear h2 fun w hw => hs w (List.mem_cons_of_mem _ (List.mem_cons_of_mem _ hw)))
    (parseWait_none h1.wait) (parseReply_ok h1.rep), checkState_clear h2 (fun w hw => hs w (by
      simp only [List.mem_cons, List.not_mem_nil, or_false] at hw
      rcases hw with rfl | rfl <;> simp))]
  simp only [Bool.false_eq_true, if_false]
  rw [proceed_act h1 rfl rfl (by rw [h3]; exact ht)]
  have := act_stay (c := c.mid []) hI h1 (h4.trans h.2.1)
  exact ⟨this.1, this.2.1, by rw [this.2.2]; exact h3⟩

variable (hw : c.part = [])
include hw

/-- `connect()` and the first command. -/
theorem dial_ok {a : List Byte} (h : Down c (some a) addr t0 T d) (hh : c.host ≠ none) (hp : c.port ≠ 0) (k : Nat) :
    Chat c (some a) none t0 (T ++ [b!"ATE0\r\n"]) (at_ .sendCiprxget .okReply (some b!"OK") .intermediate)
      (exec (step p) d (dial k)) := by
  have e : step p d .connect = ({ d with connectPending := true } : D).log .apiConnect := by
    show Dev.logConnect (SimDev.connect d) = _
    unfold SimDev.connect
    rw [if_neg (by rw [h.1.ext.apn]; simp)]
    unfold Dev.ipConnect
    rw [if_neg (by rw [h.1.host, h.1.port]; simp [hh, hp])]
    rfl
  have h1 : Chat c (some a) none t0 T ⟨.notConnected, .okReply, none, .notConnected, false, true, false⟩ (step p d .connect) := by
    rw [e]
    refine Talk.log ?_ _ rfl rfl
    have h := h.1.ext_mono fun _ x => x.forget
    moved h
  have f1 : (step p d .connect).ser.txFree = c.tx := by rw [e]; exact h.2
  show Chat _ _ _ _ _ _ (exec (step p) (step p d .connect) (List.replicate (k + 2) (.run true)))
  generalize step p d .connect = d1 at h1 f1 ⊢
  have e2 : step p d1 (.run true) = act d1 := by
    show run p d1 true = _
    rw [run_calm h1 (by simp), proceed_act h1 rfl rfl (by omega)]
  have h2 := act_notConnected h1
  rw [← e2] at h2
  have f2 : (step p d1 (.run true)).ser.txFree = c.tx := by rw [h2.2]; exact f1
  have e3 : step p (step p d1 (.run true)) (.run true) = act (step p d1 (.run true)) := by
    show run p _ true = _
    rw [run_calm h2.1 (by simp), proceed_act h2.1 rfl rfl (by omega)]
  have h3 := act_connecting h2.1 (by simp; omega)
  rw [← e3] at h3
  exact exec_runs (step := step p) (fun d hd => wait_idle p hd (.inl (by simp)) (by simp)) h3 k

/-- `disconnect()` and the first command. -/
theorem hangUp_ok (h : Up c apn addr t0 T d) (k : Nat) :
    Chat c apn addr t0 (T ++ [b!"AT+CIPCLOSE=0\r\n"]) (at_ .sendCipshut .okReply (some b!"0, CLOSE OK") .intermediate)
      (exec (step p) d (hangUp k)) := by
  have e : step p d .disconnect = ({ d with disconnectPending := true } : D).log .apiDisconnect := by
    show (Dev.disconnect d).log .apiDisconnect = _
    unfold Dev.disconnect
    rw [if_neg (by unfold Dev.isIdle; rw [h.1.cs]; decide)]
  have h1 : Chat c apn addr t0 T ⟨.connected, .okReply, none, .connected, true, false, false⟩ (step p d .disconnect) := by
    rw [e]
    refine Talk.log ?_ _ rfl rfl
    have h := h.1
    moved h
  have f1 : (step p d .disconnect).ser.txFree = c.tx := by rw [e]; exact h.2.2
  show Chat _ _ _ _ _ _ (exec (step p) (step p d .disconnect) (List.replicate (k + 2) (.run true)))
  have g1 : (step p d .disconnect).ipConnected = true := by rw [e]; exact h.2.1
  generalize step p d .disconnect = d1 at h1 f1 g1 ⊢
  have e2 : step p d1 (.run true) = act d1 := by
    show run p d1 true = _
    rw [run_calm h1 (by simp), proceed_act h1 rfl rfl (by omega)]
  have h2 := act_hangUp hI h1 g1
  rw [← e2] at h2
  have f2 : (step p d1 (.run true)).ser.txFree = c.tx := by rw [h2.2.1]; exact f1
  have e3 : step p (step p d1 (.run true)) (.run true) = act (step p d1 (.run true)) := by
    show run p _ true = _
    rw [run_calm h2.1 (by simp), proceed_act h2.1 rfl rfl (by omega)]
  have h3 := act_cipclose h2.1 h2.2.2 (by simp; omega)
  rw [← e3] at h3
  exact exec_runs (step := step p) (fun d hd => wait_idle p hd (.inl (by simp)) (by simp)) h3 k

/-- A stage of the closing. -/
theorem close1 {Q : D → Prop} (ha : ∀ g, Chat c apn addr t0 T (at_ .sendCipshut .okReply none .intermediate) g → g.ser.txFree = c.tx → Q (act g))
    (hq : ∀ d, Q d → Q (step p d (.run true)))
    (h : Chat c apn addr t0 T (at_ .sendCipshut .okReply (some b!"0, CLOSE OK") .intermediate) d) {b : Beat}
    (hb : Answers (await b!"0, CLOSE OK" (b!"+CIPRXGET: 1,0" :: b!"0, CLOSED" :: errors800)) b) : Q (exec (step p) d (b.ops n)) := by
  refine stage p hr ht hn hw (by simp) (fun g l hg hl hi => ?_) (fun g l hg hl hx => ?_) ha hq h hb
  · rw [parseLine_eq (isError_clear hl fun w hw => hi w (List.mem_cons_of_mem _ (List.mem_cons_of_mem _ (List.mem_cons_of_mem _ hw))))
      (parseWait_clear hl hg.wait (by decide) (hi _ (by simp))) (parseReply_ok hg.rep),
      checkState_clear hl (fun w hw => hi w (by
        simp only [List.mem_cons, List.not_mem_nil, or_false] at hw
        rcases hw with rfl | rfl <;> simp))]
  · rw [parseLine_eq (isError_clear hl (clear_of hx (by decide))) (parseWait_good hl hg.wait (by decide) hx) (parseReply_ok hg.rep),
      checkState_clear (d := ({ g with wait := none } : D)) ⟨hl.text, hl.zero, hl.fill⟩ (clear_of hx (by decide))]
    have := hg.rep
    cases g; simp only at this; subst this; rfl

/-- A stage of the closing. -/
theorem close2 {Q : D → Prop} (ha : ∀ g, Chat c apn addr t0 T (at_ .finalizeDisconnect .okReply none .intermediate) g → g.ser.txFree = c.tx → Q (act g))
    (hq : ∀ d, Q d → Q (step p d (.run true)))
    (h : Chat c apn addr t0 T (at_ .finalizeDisconnect .okReply (some b!"SHUT OK") .intermediate) d) {b : Beat}
    (hb : Answers (await b!"SHUT OK" (b!"+CIPRXGET: 1,0" :: b!"0, CLOSED" :: errors800)) b) : Q (exec (step p) d (b.ops n)) := by
  refine stage p hr ht hn hw (by simp) (fun g l hg hl hi => ?_) (fun g l hg hl hx => ?_) ha hq h hb
  · rw [parseLine_eq (isError_clear hl fun w hw => hi w (List.mem_cons_of_mem _ (List.mem_cons_of_mem _ (List.mem_cons_of_mem _ hw))))
      (parseWait_clear hl hg.wait (by decide) (hi _ (by simp))) (parseReply_ok hg.rep),
      checkState_clear hl (fun w hw => hi w (by
        simp only [List.mem_cons, List.not_mem_nil, or_false] at hw
        rcases hw with rfl | rfl <;> simp))]
  · rw [parseLine_eq (isError_clear hl (clear_of hx (by decide))) (parseWait_good hl hg.wait (by decide) hx) (parseReply_ok hg.rep),
      checkState_clear (d := ({ g with wait := none } : D)) ⟨hl.text, hl.zero, hl.fill⟩ (clear_of hx (by decide))]
    have := hg.rep
    cases g; simp only at this; subst this; rfl

theorem shut_ok (h : Chat c apn addr t0 T (at_ .finalizeDisconnect .okReply (some b!"SHUT OK") .intermediate) d) {b : Beat}
    (hb : Answers (await b!"SHUT OK" (b!"+CIPRXGET: 1,0" :: b!"0, CLOSED" :: errors800)) b) :
    Down c apn addr t0 T (exec (step p) d (b.ops n)) := by
  refine close2 p hr ht hn hI hw (fun g hg hf => ?_) (fun d hd => down_idle p hr ht hn hI hd) h hb
  have := act_finalizeDisconnect hg
  exact ⟨this.1, by rw [this.2]; exact hf⟩

/-- Closing. -/
theorem close_ok (h : Chat c apn addr t0 T (at_ .sendCipshut .okReply (some b!"0, CLOSE OK") .intermediate) d) {bs : List Beat}
    (hb : Dialogue close800 bs) : Down c apn addr t0 (T ++ says close800) (exec (step p) d (Spec.ops n bs)) := by
  cases hb with
  | cons hb hbs =>
    rename_i b1 bs
    cases hbs with
    | cons hb2 hbs =>
      rename_i b2 bs
      cases hbs
      show Down _ _ _ _ _ (exec (step p) d (Beat.ops n _ ++ (Beat.ops n _ ++ [])))
      rw [List.append_nil, exec_append]
      have h1 := close1 p hr ht hn hI hw
        (Q := Chat c apn addr t0 (T ++ [b!"AT+CIPSHUT\r\n"]) (at_ .finalizeDisconnect .okReply (some b!"SHUT OK") .intermediate))
        (fun g hg hf => act_cipshut hg (by rw [hf]; simp; omega)) (fun d hd => wait_idle p hd (.inl (by simp)) (by simp)) h hb
      exact shut_ok p hr ht hn hI hw h1 hb2

theorem open_stageD {dp : Bool} {a : List Byte} {r : Peer} (hk : r.Ok) (h0 : (0 : Byte) ∉ a) (hc : c.host = some r.host) (hp : c.port = r.port.toNat)
    (hy : c.typ = r.typ) (hx : ∀ t ∈ says (open800 a r), t.length ≤ c.tx) (hd : r.host.length + 20 ≤ c.tx) :
    ∀ k (hk : k < (open800 a r).length) d b, (dp = false ∨ k ≠ 4 ∧ k ≠ 8) → StageD dp c a r t0 T k d → Answers (open800 a r)[k].await b →
      StageD dp c a r t0 T (k + 1) (exec (step p) d (b.ops n))
  | 0, _, d, b, _, h, hb => by
    have e := says_succ (open800 a r) T 0 (show 0 < 9 by omega)
    refine stage_ok p hr ht hn hw (Q := StageD dp c a r t0 T 1) (by simp) (by decide) (by decide) (by decide) (fun g hg hf => ?_)
      (fun d hd => wait_idle p hd (.inl (by simp)) (by simp)) h hb
    show Chat _ _ _ _ _ _ _
    rw [e]
    exact act_ciprxget hg (by rw [hf]; exact hx _ (says_mem (as := open800 a r) (k := 0) (show 0 < 9 by omega) (by simp [open800])))
  | 1, _, d, b, _, h, hb => by
    have e := says_succ (open800 a r) T 1 (show 1 < 9 by omega)
    refine stage_ok p hr ht hn hw (Q := StageD dp c a r t0 T 2) (by simp) (by decide) (by decide) (by decide) (fun g hg hf => ?_)
      (fun d hd => wait_idle p hd (.inl (by simp)) (by simp)) h hb
    show Chat _ _ _ _ _ _ _
    rw [e]
    exact act_cipmux hg (by rw [hf]; exact hx _ (says_mem (as := open800 a r) (k := 1) (show 1 < 9 by omega) (by simp [open800])))
  | 2, _, d, b, _, h, hb => by
    have e := says_succ (open800 a r) T 2 (show 2 < 9 by omega)
    refine stage_ok p hr ht hn hw (Q := StageD dp c a r t0 T 3) (by simp) (by decide) (by decide) (by decide) (fun g hg hf => ?_)
      (fun d hd => wait_idle p hd (.inl (by simp)) (by simp)) h hb
    show Chat _ _ _ _ _ _ _
    rw [e]
    exact act_cstt hg h0 (by rw [hf]; exact hx _ (says_mem (as := open800 a r) (k := 2) (show 2 < 9 by omega) (by simp [open800])))
  | 3, _, d, b, _, h, hb => by
    have e := says_succ (open800 a r) T 3 (show 3 < 9 by omega)
    refine stage_ok p hr ht hn hw (Q := StageD dp c a r t0 T 4) (by simp) (by decide) (by decide) (by decide) (fun g hg hf => ?_)
      (fun d hd => wait_idle p hd (.inl (by simp)) (by simp)) h hb
    show Chat _ _ _ _ _ _ _
    rw [e]
    exact act_ciicr hg (by rw [hf]; exact hx _ (says_mem (as := open800 a r) (k := 3) (show 3 < 9 by omega) (by simp [open800])))
  | 4, _, d, b, hs, h, hb => by
    obtain rfl : dp = false := hs.elim id fun x => absurd rfl x.1
    have e := says_succ (open800 a r) T 4 (show 4 < 9 by omega)
    refine stage_ok p hr ht hn hw (Q := StageD false c a r t0 T 5) (by simp) (by decide) (by decide) (by decide) (fun g hg hf => ?_)
      (fun d hd => wait_idle p hd (.inr (by simp)) (by simp)) h hb
    show Chat _ _ _ _ _ _ _
    rw [e]
    exact act_cifsr hg (by rw [hf]; exact hx _ (says_mem (as := open800 a r) (k := 4) (show 4 < 9 by omega) (by simp [open800])))
  | 5, _, d, b, _, h, hb => by
    have e := says_succ (open800 a r) T 5 (show 5 < 9 by omega)
    have hdots : ∀ g l, LineDone g l → IsLine l → ((cstr (g : D).line.cells).filter (· = 46)).length = (l.filter (· = 46)).length := by
      intro g l h2 hl
      obtain ⟨body, hb1, hb2, hb3, hb4⟩ := hl.text
      have hz : (0 : Byte) ∉ l := by rw [hb1]; simp [hb4, nl]
      obtain ⟨m, hcells⟩ := h2.cells
      rw [hcells, cstr_append_zero hz]
    have e0 := Conf.mid_nil hw
    refine exec_beat step_irq (Q := StageD dp c a r t0 T 6)
      (P := fun u => Chat (c.mid u) (some a) none t0 (T ++ says ((open800 a r).take 5)) (at_ .sendDnsQuery .cifsr none .intermediate dp))
      (fun u d hd => wait_idle p hd (.inr (by simp)) (by simp))
      (fun u v w d hd hl hw _ => wait_more p hr ht hn hd (.inr (by simp)) (by simp) hl hw)
      (fun u v d hd hl hv hi => wait_noise p hr ht hn hd (.inr (by simp)) hl hv fun g hg h2 => ?_)
      (fun u v d hd hl hv hx => ?_) (fun d hd => wait_idle p hd (.inl (by simp)) (by simp)) (e0.symm ▸ h) hb
    · refine (parseLine_eq (isError_clear h2 hi.2) (parseWait_none hg.wait) (b := g) ?_).trans ?_
      · unfold parseReply
        rw [hg.rep]
        dsimp only
        rw [if_neg (by rw [hdots g _ h2 hl]; exact hi.1)]
      · rw [checkState_low (by rw [hg.snd]; exact (by decide : ¬ Snd.connected.idx ≤ Snd.sendDnsQuery.idx))]
    · obtain ⟨g, h1, h2, h3, h4, e5⟩ := run_heard (p := p) hd hn hl hv hr
      rw [e0] at h1
      have hg : Chat c (some a) none t0 (T ++ says ((open800 a r).take 5)) (at_ .sendDnsQuery .okReply none .intermediate dp)
          ({ g with rep := .okReply } : D) := by
        moved h1
      have hpl : parseLine p g = ({ g with rep := .okReply }, false) := by
        refine (parseLine_eq (isError_clear h2 hx.2) (parseWait_none h1.wait) (b := { g with rep := .okReply }) ?_).trans ?_
        · unfold parseReply
          rw [h1.rep]
          dsimp only
          rw [if_pos (by rw [hdots g _ h2 hl]; exact hx.1)]
        · rw [checkState_low (by show ¬ _ ≤ g.snd.idx; rw [h1.snd]; exact (by decide : ¬ Snd.connected.idx ≤ Snd.sendDnsQuery.idx))]
      show StageD dp c a r t0 T 6 (run p _ true)
      rw [e5, hpl]
      simp only [Bool.false_eq_true, if_false]
      rw [proceed_act hg rfl rfl (by show 20 ≤ g.ser.txFree; omega)]
      show Chat _ _ _ _ _ _ _
      rw [e]
      exact act_dns hg hc hk.host (by show _ ≤ g.ser.txFree; omega)
  | 6, _, d, b, _, h, hb => by
    have e := (says_succ (open800 a r) T 6 (show 6 < 9 by omega)).trans (List.append_nil _)
    have e0 := Conf.mid_nil hw
    refine exec_beat step_irq (Q := StageD dp c a r t0 T 7)
      (P := fun u => Chat (c.mid u) (some a) none t0 (T ++ says ((open800 a r).take 6)) (at_ .sendCipstart .cdnsgip (some b!"OK") .intermediate dp))
      (fun u d hd => wait_idle p hd (.inl (by simp)) (by simp))
      (fun u v w d hd hl hw _ => wait_more p hr ht hn hd (.inl (by simp)) (by simp) hl hw)
      (fun u v d hd hl hv hi => wait_noise p hr ht hn hd (.inl (by simp)) hl hv fun g hg hl => ?_)
      (fun u v d hd hl hv hx => ?_) (fun d hd => wait_idle p hd (.inl (by simp)) (by simp)) (e0.symm ▸ h) hb
    · refine (parseLine_eq (isError_clear hl fun w hw => hi w (List.mem_cons_of_mem _ (List.mem_cons_of_mem _ (List.mem_cons_of_mem _ hw))))
        (parseWait_clear hl hg.wait (by decide) (hi _ (by simp))) (b := g) ?_).trans ?_
      · unfold parseReply
        rw [hg.rep]
        dsimp only
        unfold SimDev.parseDnsReply
        rw [hl.has_false (by decide) (hi _ (by simp)), hl.has_false (by decide) (hi _ (by simp))]
        simp
      · rw [checkState_low (by rw [hg.snd]; exact (by decide : ¬ Snd.connected.idx ≤ Snd.sendCipstart.idx))]
    · obtain ⟨g, h1, h2, h3, h4, e5⟩ := run_heard (p := p) hd hn hl hv hr
      obtain ⟨d1, d2, d3⟩ := SimDev.dns_heard h1 h2 hl hx hk.len .okReply
      rw [e0] at d3
      have hpl : parseLine p g = ({ (SimDev.parseDnsReply g).1 with rep := .okReply }, false) := by
        refine (parseLine_eq (isError_clear h2 (clear_of d1 (by decide))) (parseWait_clear h2 h1.wait (by decide)
          (not_prefix_of d1 (by decide) (by decide))) (b := { (SimDev.parseDnsReply g).1 with rep := .okReply }) ?_).trans ?_
        · unfold parseReply
          rw [h1.rep]
          dsimp only
          rw [d2]; rfl
        · rw [checkState_low]
          rw [d3.snd]
          show ¬ _ ≤ Snd.sendCipstart.idx
          decide
      show StageD dp c a r t0 T 7 (run p _ true)
      rw [e5, hpl]
      simp only [Bool.false_eq_true, if_false]
      have h6 : StageD dp c a r t0 T 7 ({ (SimDev.parseDnsReply g).1 with rep := .okReply } : D) := by
        show Chat _ _ _ _ _ _ _
        rw [e]
        exact d3
      rw [proceed_wait h6 (.inl (by simp))]
      exact h6
  | 7, _, d, b, _, h, hb => by
    have e := says_succ (open800 a r) T 7 (show 7 < 9 by omega)
    refine stage_ok p hr ht hn hw (Q := StageD dp c a r t0 T 8) (by simp) (by decide) (by decide) (by decide) (fun g hg hf => ?_)
      (fun d hd => wait_idle p hd (.inl (by simp)) (by simp)) h hb
    show Chat _ _ _ _ _ _ _
    rw [e]
    exact act_cipstart hg hp hy hk.addr (by rw [hf]; exact hx _ (says_mem (as := open800 a r) (k := 7) (show 7 < 9 by omega) (by simp [open800])))
  | 8, _, d, b, hs, h, hb => by
    obtain rfl : dp = false := hs.elim id fun x => absurd rfl x.2
    have e := (says_succ (open800 a r) T 8 (show 8 < 9 by omega)).trans (List.append_nil _)
    refine stage p hr ht hn hw (Q := StageD false c a r t0 T 9) (by simp) (fun g l hg hl hi => ?_) (fun g l hg hl hx => ?_)
      (fun g hg hf => ?_) (fun d hd => up_idle p hr ht hn hI hd) h hb
    · refine (parseLine_eq (isError_clear hl fun w hw => hi w (List.mem_cons_of_mem _ (List.mem_cons_of_mem _ hw)))
        (parseWait_clear hl hg.wait (by decide) (hi _ (by simp))) (b := g) ?_).trans ?_
      · unfold parseReply
        rw [hg.rep]
        dsimp only
        rw [if_neg (by rw [hg.disc]; simp), if_neg (by rw [hg.wait]; simp), hl.has_false (by decide) (hi _ (by simp))]
        simp
      · rw [checkState_low (by rw [hg.snd]; decide)]
    · refine (parseLine_eq (isError_clear hl (clear_of hx (by decide))) (parseWait_good hl hg.wait (by decide) hx)
        (b := { g with wait := none, rep := .okReply }) ?_).trans ?_
      · unfold parseReply
        rw [show ({ g with wait := none } : D).rep = .cipstart from hg.rep]
        dsimp only
        rw [if_neg (by show ¬ g.disconnectPending = true; rw [hg.disc]; simp), if_pos rfl]
      · rw [checkState_low (by show ¬ _ ≤ g.snd.idx; rw [hg.snd]; decide)]
    · show Up _ _ _ _ (T ++ says ((open800 a r).take 9)) _
      rw [e]
      have := act_finalizeConnect hg
      exact ⟨this.1, this.2.1, by rw [this.2.2]; exact hf⟩
  | k + 9, hk, _, _, _, _, _ => by simp [open800] at hk; omega

theorem open_stage {a : List Byte} {r : Peer} (hk : r.Ok) (h0 : (0 : Byte) ∉ a) (hc : c.host = some r.host) (hp : c.port = r.port.toNat)
    (hy : c.typ = r.typ) (hx : ∀ t ∈ says (open800 a r), t.length ≤ c.tx) (hd : r.host.length + 20 ≤ c.tx) :
    ∀ k (hk : k < (open800 a r).length) d b, Stage c a r t0 T k d → Answers (open800 a r)[k].await b →
      Stage c a r t0 T (k + 1) (exec (step p) d (b.ops n)) :=
  fun k hl d b h hb => open_stageD p hr ht hn hI hw hk h0 hc hp hy hx hd k hl d b (.inl rfl) h hb

/-- `connect()`, and the modem answers `k` times. -/
theorem arrive_ok {a : List Byte} {r : Peer} (hk : r.Ok) (h0 : (0 : Byte) ∉ a) (hx : ∀ t ∈ visit800 a r, t.length ≤ c.tx)
    (hd : r.host.length + 20 ≤ c.tx) (h : Down c apn addr t0 T d) (i : Nat) {k : Nat} (hle : k ≤ (open800 a r).length) {bs : List Beat}
    (hb : Dialogue ((open800 a r).take k) bs) :
    Stage (c.to r) a r t0 (T ++ [b!"ATE0\r\n"]) k (exec (step p) d (setup7x00 a r ++ (dial i ++ Spec.ops n bs))) := by
  have h1 := setup_ok (p := p) h a r
  rw [exec_append, exec_append]
  have h2 := dial_ok (c := c.to r) p hr ht hn hI hw h1 (by simp) (hk.port_ne) i
  refine exec_dialogue (open_stage (c := c.to r) p hr ht hn hI hw hk h0 rfl rfl rfl (fun t m => hx t (by unfold visit800; simp [m])) hd) hle hb ?_
  show Chat _ _ _ _ _ _ _
  rw [show says ((open800 a r).take 0) = [] from rfl, List.append_nil]
  exact h2

/-- A visit up to the connection. -/
theorem connect_ok {a : List Byte} {r : Peer} (hk : r.Ok) (h0 : (0 : Byte) ∉ a) (hx : ∀ t ∈ visit800 a r, t.length ≤ c.tx)
    (hd : r.host.length + 20 ≤ c.tx) (h : Down c apn addr t0 T d) (i : Nat) {bs : List Beat}
    (hb : Dialogue (open800 a r) bs) {xs : List Spoken} (hxs : ∀ x ∈ xs, x.Is stay800) :
    Up (c.to r) (some a) (some r.addr) t0 (T ++ [b!"ATE0\r\n"] ++ says (open800 a r))
      (exec (step p) d (setup7x00 a r ++ (dial i ++ Spec.ops n bs) ++ hearAll n xs)) := by
  have h1 := arrive_ok p hr ht hn hI hw hk h0 hx hd h i (Nat.le_refl _) (by rw [List.take_length]; exact hb)
  rw [exec_append]
  have e0 : (c.to r).mid [] = c.to r := Conf.mid_nil hw
  rw [← e0]
  exact exec_hearAll (P := fun u => Up ((c.to r).mid u) (some a) (some r.addr) t0 (T ++ [b!"ATE0\r\n"] ++ says (open800 a r))) step_irq
    (fun u d hd => up_idle (c := (c.to r).mid u) p hr ht hn hI hd)
    (fun u v w d hd hl hw0 _ => up_more (c := c.to r) p hr ht hn hI hd hl hw0)
    (fun u v d hd hl hv hs => up_noise (c := c.to r) p hr ht hn hI hd hl hv hs) (e0.symm ▸ h1) hxs

/-- From the connection to the end of the visit. -/
theorem leave_ok (h : Up c apn addr t0 T d) (i : Nat) {bs : List Beat} (hb : Dialogue close800 bs)
    {xs : List Spoken} (hxs : ∀ x ∈ xs, x.Is (Clear errors800)) :
    Down c apn addr t0 (T ++ [b!"AT+CIPCLOSE=0\r\n"] ++ says close800)
      (exec (step p) d (hangUp i ++ Spec.ops n bs ++ hearAll n xs)) := by
  rw [exec_append, exec_append]
  have e0 := Conf.mid_nil hw
  rw [← e0]
  exact exec_hearAll (P := fun u => Down (c.mid u) apn addr t0 (T ++ [b!"AT+CIPCLOSE=0\r\n"] ++ says close800)) step_irq
    (fun u d hd => down_idle (c := c.mid u) p hr ht hn hI hd)
    (fun u v w d hd hl hw0 _ => down_more p hr ht hn hI hd hl hw0)
    (fun u v d hd hl hv hs => down_noise p hr ht hn hI hd hl hv hs)
    (e0.symm ▸ close_ok p hr ht hn hI hw (hangUp_ok p hr ht hn hI hw h i) hb) hxs

/-- The whole visit. -/
theorem visit_ok {a : List Byte} {r : Peer} (hk : r.Ok) (h0 : (0 : Byte) ∉ a) (hx : ∀ t ∈ visit800 a r, t.length ≤ c.tx)
    (hd : r.host.length + 20 ≤ c.tx) (h : Down c apn addr t0 T d) {v : Visit}
    (hv : v.Ok (open800 a r) close800 stay800 (Clear errors800)) :
    Down (c.to r) (some a) (some r.addr) t0 (T ++ visit800 a r) (exec (step p) d (setup7x00 a r ++ v.ops n)) := by
  have h1 := connect_ok p hr ht hn hI hw hk h0 hx hd h v.dial hv.up hv.stay
  have h2 := leave_ok (c := c.to r) p hr ht hn hI hw h1 v.hangUp hv.down hv.rest
  rw [← exec_append] at h2
  have e : T ++ [b!"ATE0\r\n"] ++ says (open800 a r) ++ [b!"AT+CIPCLOSE=0\r\n"] ++ says close800 = T ++ visit800 a r := by
    simp [visit800]
  rw [e] at h2
  have e2 : setup7x00 a r ++ (dial v.dial ++ Spec.ops n v.up) ++ hearAll n v.stay ++
      (hangUp v.hangUp ++ Spec.ops n v.down ++ hearAll n v.rest) = setup7x00 a r ++ v.ops n := by
    simp [Visit.ops]
  rw [e2] at h2
  exact h2

/-- The peer closes the connection: the driver shuts down its side. -/
theorem peer_close (h : Up c apn addr t0 T d) {x : Spoken} (hx : x.Is (b!"0, CLOSED" <+: ·)) (hk : 0 < x.runs) :
    Chat c apn addr t0 (T ++ [b!"AT+CIPSHUT\r\n"]) (at_ .finalizeDisconnect .okReply (some b!"SHUT OK") .intermediate)
      (exec (step p) d (x.ops n)) := by
  have e0 := Conf.mid_nil hw
  obtain ⟨u, d, h, hl, hv, hs, e⟩ := exec_last (P := fun u => Up (c.mid u) apn addr t0 T) step_irq
    (fun u d hd => up_idle (c := c.mid u) p hr ht hn hI hd)
    (fun u v w d hd hl hw0 _ => up_more p hr ht hn hI hd hl hw0) (e0.symm ▸ h) hx
  rw [e]
  generalize x.last = v at *
  obtain ⟨k, hk⟩ : ∃ k, x.runs = k + 1 := ⟨x.runs - 1, by omega⟩
  rw [hk]
  have h0 : Chat c apn addr t0 T (at_ .sendCipshut .okReply none .connected) (step p (hearing d n v) (.run true)) ∧
      (step p (hearing d n v) (.run true)).ser.txFree = c.tx := by
    obtain ⟨g, h1, h2, h3, h4, e⟩ := run_heard (p := p) h.1 hn hl hv hr
    rw [e0] at h1
    have hc : checkState g = { g with wait := none, ipConnected := false } := by
      unfold checkState SimDev.checkConnectionState
      rw [if_pos (by rw [h1.snd]; decide), h2.has_false (by decide) (not_prefix_of hs (by decide) (by decide)),
        h2.has_true (by decide) hs]
      rfl
    have h5 : Chat c apn addr t0 T (at_ .connected .okReply none .connected) ({ g with wait := none, ipConnected := false } : D) := by
      moved h1
    show Chat _ _ _ _ _ _ (run p _ true) ∧ (run p _ true).ser.txFree = _
    rw [e, parseLine_eq (isError_clear h2 (clear_of hs (by decide))) (parseWait_none h1.wait) (parseReply_ok h1.rep), hc]
    simp only [Bool.false_eq_true, if_false]
    rw [proceed_act h5 rfl rfl (by show 20 ≤ g.ser.txFree; omega)]
    have := act_closed hI h5 rfl
    exact ⟨this.1, by rw [this.2]; exact h3⟩
  generalize step p (hearing d n v) (.run true) = d1 at h0
  have e3 : step p d1 (.run true) = act d1 := by
    show run p _ true = _
    rw [run_calm h0.1 (by simp), proceed_act h0.1 rfl rfl (by omega)]
  have h3 := act_cipshut h0.1 (by simp; omega)
  rw [← e3] at h3
  exact exec_runs (step := step p) (fun d hd => wait_idle p hd (.inl (by simp)) (by simp)) h3 k

end
end Sim800
end Verif
