import Verif.Lemmas.Chat

/-! The CC1352P7 driver in a dialogue. -/

namespace Verif

open Dev Spec

namespace CC1352P7

/-- The members of the driver: no request for the MAC address. -/
structure ChatExt (p : Platform) (x : CcExt) : Prop where
  mac : ¬ (Espressif.macMarked p x.mac = true ∧ x.mac.get 0 = 0)

variable {p : Platform} {c : Conf} {t0 : List Ev} {T : List (List Byte)} {q : St Snd Rep}
  {d g : D} {n : Nat} {l : List Byte}

abbrev Chat (p : Platform) (c : Conf) (t0 : List Ev) (T : List (List Byte)) (q : St Snd Rep) (d : D) : Prop :=
  Talk c (ChatExt p) t0 T q d

theorem proceed_wait {E : CcExt → Prop} (h : Talk c E t0 T q d) (hw : q.wait ≠ none ∨ q.rep ≠ .okReply) : proceed p d = d := by
  unfold proceed
  rw [h.wait, h.rep, if_pos hw]

theorem proceed_act (h : Chat p c t0 T q d) (hw : q.wait = none) (hr : q.rep = .okReply) (hs : 20 ≤ d.ser.txFree)
    (ha : q.ask = false := by rfl) :
    proceed p d = act d := by
  unfold proceed
  rw [h.wait, h.rep, if_neg (by simp [hw, hr]), h.calm.serSpace, if_neg (by omega), h.calm.askSpace]
  unfold sendNext
  rw [if_neg (fun x => by rw [h.ask, ha] at x; simp at x), if_neg (fun x => h.ext.mac ⟨x.1, x.2.1⟩)]

theorem run_work {E : CcExt → Prop} (h : Talk c E t0 T q d) : run p d true = work p d := by
  unfold run
  rw [h.calm.isOpen, h.calm.reset]; rfl

theorem run_calm {E : CcExt → Prop} (h : Talk c E t0 T q d) (hs : q.snd ≠ .receiving) : run p d true = proceed p d := by
  rw [run_work h]
  unfold work fillLineBuffer
  rw [h.calm.fillLine]
  show proceed p (flushIfDisconnecting d) = _
  unfold flushIfDisconnecting
  rw [if_neg (fun x => hs (h.snd ▸ x.2))]

theorem run_heard {E : CcExt → Prop} {u v : List Byte} (h : Talk (c.mid u) E t0 T q d) (hn : c.tx ≤ n) (hl : IsLine (u ++ v)) (hv : v ≠ []) (hr : 60 ≤ c.rx) :
    ∃ g, Talk (c.mid []) E t0 T q g ∧ LineDone g (u ++ v) ∧ g.ser.txFree = c.tx ∧ g.ipConnected = d.ipConnected ∧
      run p (hearing d n v) true = if (parseLine p g).2 then (parseLine p g).1 else proceed p (parseLine p g).1 := by
  obtain ⟨g, e, h1, h2, h3, h4⟩ := h.heard hn hl hv hr (lineStop d.rep)
    (fun m k x _ h1 h2 h3 => by
      unfold lineStop
      rw [if_neg]; simp [h1, h2]; omega) (fun m k => rfl)
  refine ⟨g, h1, h2, h3, h4, ?_⟩
  have : run p (hearing d n v) true = work p (hearing d n v) := by
    unfold run
    rw [if_neg (by simp [h.calm.isOpen]), if_neg (by simp [h.calm.reset])]
  rw [this]
  unfold work fillLineBuffer
  rw [show (hearing d n v).rep = d.rep from rfl, e]
  simp

/-- A piece of a line that does not complete it: as without input. -/
theorem run_more {E : CcExt → Prop} {u v z : List Byte} (h : Talk (c.mid u) E t0 T q d) (hn : c.tx ≤ n) (hl : IsLine (u ++ v ++ z)) (hz : z ≠ [])
    (hr : 60 ≤ c.rx) (hs : q.snd ≠ .receiving) :
    ∃ g, Talk (c.mid (u ++ v)) E t0 T q g ∧ g.ser.txFree = c.tx ∧ g.ipConnected = d.ipConnected ∧
      run p (hearing d n v) true = proceed p g := by
  obtain ⟨g, e, h1, h3, h4⟩ := h.more (v := v) hn hl hz hr (lineStop d.rep)
    (fun m k x _ h1 h2 h3 => by
      unfold lineStop
      rw [if_neg]; simp [h1, h2]; omega)
  refine ⟨g, h1, h3, h4, ?_⟩
  have : run p (hearing d n v) true = work p (hearing d n v) := by
    unfold run
    rw [if_neg (by simp [h.calm.isOpen]), if_neg (by simp [h.calm.reset])]
  rw [this]
  unfold work fillLineBuffer
  rw [show (hearing d n v).rep = d.rep from rfl, e]
  show proceed p (flushIfDisconnecting g) = _
  unfold flushIfDisconnecting
  rw [if_neg (fun x => hs (h1.snd ▸ x.2))]

theorem step_irq (d : D) (hs : List Hw) : step p d (.irq hs) = { d with ser := d.ser.transfers hs } := rfl

/-! ### Lines -/

theorem clear_of {w : List Byte} {bad : List (List Byte)} (hw : w <+: l) (h : ∀ b ∈ bad, ¬ w <+: b ∧ ¬ b <+: w) : Clear bad l :=
  fun b hb => not_prefix_of hw (h b hb).1 (h b hb).2

theorem clear_mono {a b : List (List Byte)} (h : Clear b l) (hs : a ⊆ b) : Clear a l := fun w hw => h w (hs hw)

theorem isError_low (hs : ¬ Snd.connected.idx ≤ d.snd.idx) (hl : LineDone d l) (h : ¬ b!"ERROR" <+: l) : isError d = false := by
  unfold isError
  rw [hl.has_false (by decide) h]
  simp [hs]

theorem isError_clear (hl : LineDone d l) (h : Clear [b!"ERROR", b!"SEND FAIL"] l) : isError d = false := by
  unfold isError
  rw [hl.has_false (by decide) (h _ (by simp)), hl.has_false (by decide) (h _ (by simp))]
  simp

theorem checkState_low (hs : ¬ Snd.connected.idx ≤ d.snd.idx) : checkState p d = d := by
  unfold checkState; rw [if_neg hs]

theorem ipd_false (hl : LineDone d l) (h : ¬ b!"+IPD" <+: l) : strncmpEq d.line.cells b!"+IPD," 4 = false :=
  (show strncmpEq d.line.cells b!"+IPD," 4 = d.has b!"+IPD" from rfl).trans (hl.has_false (by decide) h)

theorem checkState_clear (hl : LineDone d l) (h : Clear [b!"+IPD", b!"CLOSED"] l) : checkState p d = d := by
  unfold checkState
  rw [ipd_false hl (h _ (by simp)), hl.has_false (by decide) (h _ (by simp))]
  simp

theorem checkState_closed (hs : Snd.connected.idx ≤ d.snd.idx) (hl : LineDone d l) (h : b!"CLOSED" <+: l) :
    checkState p d = { d with ipConnected := false } := by
  unfold checkState
  rw [if_pos hs, ipd_false hl (not_prefix_of h (by decide) (by decide)), hl.has_true (by decide) h]
  simp

theorem checkState_high (hs : Snd.connected.idx ≤ d.snd.idx) (hl : LineDone d l) (h : ¬ b!"+IPD" <+: l) :
    checkState p d = d ∨ checkState p d = { d with ipConnected := false } := by
  by_cases hc : b!"CLOSED" <+: l
  · exact .inr (checkState_closed hs hl hc)
  · refine .inl (checkState_clear hl ?_)
    intro w hw
    simp only [List.mem_cons, List.not_mem_nil, or_false] at hw
    rcases hw with rfl | rfl
    · exact h
    · exact hc

theorem parseWait_clear {w : List Byte} (hl : LineDone d l) (hw : d.wait = some w) (h0 : (0 : Byte) ∉ w)
    (h1 : ¬ w <+: l) : parseWait d = d := by
  unfold parseWait
  rw [if_neg (by rw [hl.waitMatches_iff h0 hw]; exact h1)]

theorem parseWait_good {w : List Byte} (hl : LineDone d l) (hw : d.wait = some w) (h0 : (0 : Byte) ∉ w)
    (h1 : w <+: l) : parseWait d = { d with wait := none } := by
  unfold parseWait
  rw [if_pos (by rw [hl.waitMatches_iff h0 hw]; exact h1)]

theorem parseWait_none (hw : d.wait = none) : parseWait d = d := by
  unfold parseWait Dev.waitMatches
  rw [if_neg (by simp [hw])]

theorem parseLine_eq {a b : D} (h0 : isError d = false) (h1 : parseWait d = a)
    (h2 : parseReply p a = b) : parseLine p d = (checkState p b, false) := by
  unfold parseLine
  rw [h0, h1, h2]
  simp

theorem parseReply_ok (hr : d.rep = .okReply) : parseReply p d = d := by
  unfold parseReply; rw [hr]

/-! ### The state machine -/

/-- The states of a dialogue. `dp`: a request to disconnect is pending. -/
abbrev at_ (s : Snd) (r : Rep) (w : Option (List Byte)) (cs : ConnState) (dp : Bool := false) : St Snd Rep := ⟨s, r, w, cs, dp, false, false⟩

/-- While waiting, nothing happens. -/
theorem wait_idle {E : CcExt → Prop} (p : Platform) (h : Talk c E t0 T q d) (hw : q.wait ≠ none) (hs : q.snd ≠ .receiving) :
    Talk c E t0 T q (step p d (.run true)) := by
  show Talk _ _ _ _ _ (run p d true)
  rw [run_calm h hs, proceed_wait h (.inl hw)]; exact h

section
variable (p) (hr : 60 ≤ c.rx) (ht : 20 ≤ c.tx) (hn : c.tx ≤ n)
include hr ht hn

/-- A piece of a line. -/
theorem wait_more {E : CcExt → Prop} {u v z : List Byte} (h : Talk (c.mid u) E t0 T q d) (hw : q.wait ≠ none)
    (hs : q.snd ≠ .receiving) (hl : IsLine (u ++ v ++ z)) (hz : z ≠ []) :
    Talk (c.mid (u ++ v)) E t0 T q (step p (hearing d n v) (.run true)) := by
  obtain ⟨g, h1, h3, h4, e⟩ := run_more (p := p) h hn hl hz hr hs
  show Talk _ _ _ _ _ (run p _ true)
  rw [e, proceed_wait h1 (.inl hw)]; exact h1

variable (hm : c.part = [])
include hm

/-- A stage of a dialogue: the driver waits for a line and does the next step upon it. -/
theorem stage {dp : Bool} {s : Snd} {x : List Byte} {cs : ConnState} {a : Await} {Q : D → Prop} (hs : s ≠ .receiving)
    (hi : ∀ g l, Chat p c t0 T (at_ s .okReply (some x) cs dp) g → LineDone g l → a.idle l →
      parseLine p g = (g, false) ∨ parseLine p g = ({ g with ipConnected := false }, false))
    (hg : ∀ g l, Chat p c t0 T (at_ s .okReply (some x) cs dp) g → LineDone g l → a.good l →
      parseLine p g = ({ g with wait := none }, false))
    (ha : ∀ g, Chat p c t0 T (at_ s .okReply none cs dp) g → g.ser.txFree = c.tx → Q (act g))
    (hq : ∀ d, Q d → Q (step p d (.run true)))
    (h : Chat p c t0 T (at_ s .okReply (some x) cs dp) d) {b : Beat} (hab : Answers a b) :
    Q (exec (step p) d (b.ops n)) := by
  have e0 := Conf.mid_nil hm
  refine exec_beat (P := fun u => Chat p (c.mid u) t0 T (at_ s .okReply (some x) cs dp)) step_irq
    (fun u d hd => wait_idle p hd (by simp) hs)
    (fun u v z d hd hl hz ho => wait_more p hr ht hn hd (by simp) hs hl hz)
    (fun u v d hd hl hv hx => ?_) (fun u v d hd hl hv hx => ?_) hq (e0.symm ▸ h) hab
  · obtain ⟨g, h1, h2, h3, h4, e⟩ := run_heard (p := p) hd hn hl hv hr
    rw [e0] at h1
    show Talk (c.mid []) _ _ _ _ (run p _ true)
    rw [e0]
    rcases hi g _ h1 h2 hx with y | y
    · rw [e, y]
      simp only [Bool.false_eq_true, if_false]
      rw [proceed_wait h1 (.inl (by simp))]; exact h1
    · have h5 : Chat p c t0 T (at_ s .okReply (some x) cs dp) ({ g with ipConnected := false } : D) := by moved h1
      rw [e, y]
      simp only [Bool.false_eq_true, if_false]
      rw [proceed_wait h5 (.inl (by simp))]; exact h5
  · obtain ⟨g, h1, h2, h3, h4, e⟩ := run_heard (p := p) hd hn hl hv hr
    rw [e0] at h1
    show Q (run p _ true)
    have hg2 : Chat p c t0 T (at_ s .okReply none cs dp) ({ g with wait := none } : D) := by moved h1
    rw [e, hg g _ h1 h2 hx]
    simp only [Bool.false_eq_true, if_false]
    rw [proceed_act hg2 rfl rfl (by show 20 ≤ g.ser.txFree; omega)]
    exact ha _ hg2 h3

/-- A stage of the opening. -/
theorem stage_ok {dp : Bool} {s : Snd} {cs : ConnState} {Q : D → Prop} (hlow : ¬ Snd.connected.idx ≤ s.idx)
    (ha : ∀ g, Chat p c t0 T (at_ s .okReply none cs dp) g → g.ser.txFree = c.tx → Q (act g))
    (hq : ∀ d, Q d → Q (step p d (.run true)))
    (h : Chat p c t0 T (at_ s .okReply (some b!"OK") cs dp) d) {b : Beat} (hab : Answers (await b!"OK" [b!"ERROR"]) b) :
    Q (exec (step p) d (b.ops n)) := by
  refine stage p hr ht hn hm (fun x => hlow (by rw [x]; decide)) (fun g l hg hl hi => .inl ?_)
    (fun g l hg hl hx => ?_) ha hq h hab
  · rw [parseLine_eq (isError_low (by rw [hg.snd]; exact hlow) hl (hi _ (by simp)))
      (parseWait_clear hl hg.wait (by decide) (hi _ (by simp))) (parseReply_ok hg.rep), checkState_low (by rw [hg.snd]; exact hlow)]
  · rw [parseLine_eq (isError_low (by rw [hg.snd]; exact hlow) hl (not_prefix_of hx (by decide) (by decide)))
      (parseWait_good hl hg.wait (by decide) hx) (parseReply_ok hg.rep), checkState_low (by
        show ¬ _ ≤ g.snd.idx
        rw [hg.snd]; exact hlow)]

end

/-! ### The commands -/

section
variable {cs : ConnState}

theorem act_notConnected (h : Chat p c t0 T ⟨.notConnected, .okReply, none, cs, false, true, false⟩ d) :
    Chat p c t0 T (at_ .connecting .okReply none .notConnected) (act d) ∧ (act d).ser = d.ser := by
  unfold act
  rw [h.snd]
  show Chat _ _ _ _ _ (Dev.handleConnect _ _) ∧ (Dev.handleConnect _ _).ser = _
  unfold Dev.handleConnect
  rw [if_pos (show ({ d with cs := ConnState.notConnected } : D).connectPending = true from h.conn)]
  refine ⟨?_, rfl⟩
  moved h

theorem act_rest (h : Chat p c t0 T (at_ .notConnected .okReply none cs) d) :
    Chat p c t0 T (at_ .notConnected .okReply none .notConnected) (act d) ∧ (act d).ser = d.ser := by
  unfold act
  rw [h.snd]
  show Chat _ _ _ _ _ (Dev.handleConnect _ _) ∧ (Dev.handleConnect _ _).ser = _
  unfold Dev.handleConnect
  rw [if_neg (by show ¬ d.connectPending = true; rw [h.conn]; simp)]
  refine ⟨?_, rfl⟩
  moved h

theorem act_connecting {dp : Bool} (h : Chat p c t0 T (at_ .connecting .okReply none cs dp) d)
    (hx : b!"ATE0\r\n".length ≤ d.ser.txFree) :
    Chat p c t0 (T ++ [b!"ATE0\r\n"]) (at_ .sendCipstart .okReply (some b!"OK") .intermediate dp) (act d) := by
  unfold act
  rw [h.snd]
  said h hx (Wrote.command h.calm.ser _ (by decide))

theorem act_cipstart {dp : Bool} {r : Peer} (h : Chat p c t0 T (at_ .sendCipstart .okReply none cs dp) d) (hc : c.host = some r.host)
    (hp : c.port = r.port.toNat) (h0 : (0 : Byte) ∉ r.host)
    (hx : ((if c.typ = .udp then b!"AT+CIPSTART=\"UDP\",\"" else b!"AT+CIPSTART=\"TCP\",\"") ++ r.host ++ b!"\"," ++ decimals r.port.toNat ++ b!"\r\n").length ≤ d.ser.txFree) :
    Chat p c t0 (T ++ [(if c.typ = .udp then b!"AT+CIPSTART=\"UDP\",\"" else b!"AT+CIPSTART=\"TCP\",\"") ++ r.host ++ b!"\"," ++ decimals r.port.toNat ++ b!"\r\n"])
      (at_ .finalizeConnect .okReply (some b!"OK") cs dp) (act d) := by
  have hd : dec5 d.port = decimals r.port.toNat := by
    rw [h.port, hp]; exact dec5_decimals (by have := r.port.toNat_lt; omega)
  have hz : (0 : Byte) ∉ decimals r.port.toNat := by
    rw [← hd]; intro hm; have := dec5_digits _ _ hm; simp [IsDigit] at this
  have hh : d.host = some r.host := h.host.trans hc
  unfold act
  rw [h.snd]
  show Chat _ _ _ _ _ (actCipstart d)
  unfold actCipstart
  rw [if_neg (show ¬ d.host = none by rw [hh]; simp)]
  dsimp only
  by_cases hu : c.typ = .udp
  · rw [if_pos hu] at hx ⊢
    rw [if_pos (show (Dev.cmd d _).typ = .udp from h.typ.trans hu)]
    rw [show (Dev.arg (Dev.cmd d b!"AT+CIPSTART") b!"=\"UDP\",\"").host = d.host from rfl, hh, Option.getD_some, show (Dev.arg (Dev.cmd d b!"AT+CIPSTART") b!"=\"UDP\",\"").port = d.port from rfl, hd]
    said h hx ((((((Wrote.cmd h.calm.ser b!"AT+CIPSTART" (by decide)).arg b!"=\"UDP\",\"" (by decide)).arg _ h0).arg b!"\"," (by decide)).arg _ hz).arg lineEnd (by decide))
  · rw [if_neg hu] at hx ⊢
    rw [if_neg (show ¬ (Dev.cmd d _).typ = .udp from fun x => hu (h.typ.symm.trans x))]
    rw [show (Dev.arg (Dev.cmd d b!"AT+CIPSTART") b!"=\"TCP\",\"").host = d.host from rfl, hh, Option.getD_some, show (Dev.arg (Dev.cmd d b!"AT+CIPSTART") b!"=\"TCP\",\"").port = d.port from rfl, hd]
    said h hx ((((((Wrote.cmd h.calm.ser b!"AT+CIPSTART" (by decide)).arg b!"=\"TCP\",\"" (by decide)).arg _ h0).arg b!"\"," (by decide)).arg _ hz).arg lineEnd (by decide))

theorem act_finalizeConnect {dp : Bool} (h : Chat p c t0 T (at_ .finalizeConnect .okReply none cs dp) d) :
    Chat p c t0 T (at_ .connected .okReply none .connected dp) (act d) ∧ (act d).ipConnected = true ∧ (act d).ser = d.ser := by
  unfold act
  rw [h.snd]
  refine ⟨?_, rfl, rfl⟩
  moved h

theorem act_stay (hI : c.Idle) (h : Chat p c t0 T (at_ .connected .okReply none cs) d) (hi : d.ipConnected = true) :
    Chat p c t0 T (at_ .connected .okReply none .connected) (act d) ∧ (act d).ipConnected = true ∧ (act d).ser = d.ser := by
  unfold act
  rw [h.snd]
  show Chat _ _ _ _ _ (actConnected d) ∧ (actConnected d).ipConnected = _ ∧ (actConnected d).ser = _
  unfold actConnected
  rw [if_neg (by rw [h.wempty hI]; simp), if_neg (by rw [h.quiet hI]; simp), if_pos hi]
  unfold Dev.handleDisconnect
  rw [if_neg (by show ¬ d.disconnectPending = true; rw [h.disc]; simp)]
  refine ⟨?_, hi, rfl⟩
  moved h

theorem act_closed (hI : c.Idle) (h : Chat p c t0 T (at_ .connected .okReply none cs) d) (hi : d.ipConnected = false) :
    Chat p c t0 T (at_ .finalizeDisconnect .okReply none .connected) (act d) ∧ (act d).ser = d.ser := by
  unfold act
  rw [h.snd]
  show Chat _ _ _ _ _ (actConnected d) ∧ (actConnected d).ser = _
  unfold actConnected
  rw [if_neg (by rw [h.wempty hI]; simp), if_neg (by rw [h.quiet hI]; simp), if_neg (by simp [hi])]
  refine ⟨?_, rfl⟩
  moved h

theorem act_hangUp (hI : c.Idle) (h : Chat p c t0 T ⟨.connected, .okReply, none, cs, true, false, false⟩ d) (hi : d.ipConnected = true) :
    Chat p c t0 T (at_ .sendCipclose .okReply none .connected) (act d) ∧ (act d).ser = d.ser ∧ (act d).ipConnected = true := by
  unfold act
  rw [h.snd]
  show Chat _ _ _ _ _ (actConnected d) ∧ (actConnected d).ser = _ ∧ (actConnected d).ipConnected = _
  unfold actConnected
  rw [if_neg (by rw [h.wempty hI]; simp), if_neg (by rw [h.quiet hI]; simp), if_pos hi]
  unfold Dev.handleDisconnect
  rw [if_pos (by show d.disconnectPending = true; rw [h.disc])]
  refine ⟨?_, rfl, hi⟩
  moved h

theorem act_cipclose (h : Chat p c t0 T (at_ .sendCipclose .okReply none cs) d)
    (hx : b!"AT+CIPCLOSE\r\n".length ≤ d.ser.txFree) :
    Chat p c t0 (T ++ [b!"AT+CIPCLOSE\r\n"])
      (at_ .finalizeDisconnect .okReply (some b!"OK") .intermediate) (act d) := by
  unfold act
  rw [h.snd]
  
  said h hx (Wrote.command h.calm.ser _ (by decide))

theorem act_finalizeDisconnect (h : Chat p c t0 T (at_ .finalizeDisconnect .okReply none cs) d) :
    Chat p c t0 T (at_ .notConnected .okReply none .notConnected) (act d) ∧ (act d).ser = d.ser := by
  unfold act
  rw [h.snd]
  refine ⟨?_, rfl⟩
  moved h

end

/-! ### Dialogues -/

/-- Not connected. -/
def Down (p : Platform) (c : Conf) (t0 : List Ev) (T : List (List Byte)) (d : D) : Prop :=
  Chat p c t0 T (at_ .notConnected .okReply none .notConnected) d ∧ d.ser.txFree = c.tx

/-- Connected. -/
def Up (p : Platform) (c : Conf) (t0 : List Ev) (T : List (List Byte)) (d : D) : Prop :=
  Chat p c t0 T (at_ .connected .okReply none .connected) d ∧ d.ipConnected = true ∧ d.ser.txFree = c.tx

/-- The stages of the opening. `dp`: a request to disconnect is pending. -/
def StageD (dp : Bool) (p : Platform) (c : Conf) (r : Peer) (t0 : List Ev) (T : List (List Byte)) : Nat → D → Prop
  | 0 => Chat p c t0 (T ++ says ((openCC r).take 0)) (at_ .sendCipstart .okReply (some b!"OK") .intermediate dp)
  | 1 => Chat p c t0 (T ++ says ((openCC r).take 1)) (at_ .finalizeConnect .okReply (some b!"OK") .intermediate dp)
  | _ => Up p c t0 (T ++ says (openCC r))

/-- The stages of the opening. -/
abbrev Stage (p : Platform) (c : Conf) (r : Peer) (t0 : List Ev) (T : List (List Byte)) : Nat → D → Prop := StageD false p c r t0 T

theorem init_ok {rxm txm rmem wmem line mac : List Byte} {ty : ConnType} (h1 : txm ≠ []) (h2 : line.length = 61)
    (h3 : ¬ (p.charSigned = false ∧ mac.getD 1 0 = 255 ∧ mac.getD 0 0 = 0)) :
    Down p (.start rxm.length txm.length wmem.length rmem.length ty) [] []
      (step p (init (Ser.init rxm txm []) rmem wmem ty line mac) (.run true)) := by
  refine ⟨⟨⟨rfl, rfl, rfl, rfl, ⟨h2, (show 0 < lineMax by decide), rfl⟩, ⟨rfl, rfl⟩, ?_⟩, ⟨[.apiReset], rfl, rfl, ?_, rfl, rfl⟩, rfl, rfl, rfl, rfl, rfl,
    Ring.rep_flush rfl rfl, rfl, Ring.rep_flush rfl rfl, rfl, rfl, rfl, rfl, ⟨?_⟩⟩, rfl⟩
  · exact ⟨rfl, rfl, Ser.rxRep_flush (Ser.rxRep_init rxm txm []), ⟨[], LineBuf.rep_init txm, rfl⟩, List.length_pos_iff.mpr h1, rfl, rfl⟩
  · intro w g x; simp at x
  · show ¬ (Espressif.macMarked p (⟨mac, false⟩ : Mem) = true ∧ (⟨mac, false⟩ : Mem).get 0 = 0)
    unfold Espressif.macMarked Mem.get
    simpa [and_assoc] using h3

theorem setup_ok (h : Down p c t0 T d) (r : Peer) :
    Down p (c.to r) t0 T
      (exec (step p) d (setupCC r)) :=
  ⟨⟨⟨h.1.calm.isOpen, h.1.calm.lock, h.1.calm.reset, h.1.calm.lineRead,
      ⟨h.1.calm.line.len, h.1.calm.line.fill, h.1.calm.line.oob⟩, h.1.calm.fill, h.1.calm.ser⟩, h.1.told, h.1.st,
      rfl, rfl, rfl, h.1.data, h.1.wbuf, h.1.wcap, h.1.rbuf, h.1.rcap, h.1.rcv, h.1.rd, h.1.bw, h.1.ext⟩, h.2⟩

section
variable (p) (hr : 60 ≤ c.rx) (ht : 20 ≤ c.tx) (hn : c.tx ≤ n) (hI : c.Idle)
include hr ht hn hI

theorem down_idle (h : Down p c t0 T d) : Down p c t0 T (step p d (.run true)) := by
  show Down _ _ _ _ (run p d true)
  rw [run_calm h.1 (by simp), proceed_act h.1 rfl rfl (by rw [h.2]; exact ht)]
  have := act_rest h.1
  exact ⟨this.1, by rw [this.2]; exact h.2⟩

theorem down_more {u v z : List Byte} (h : Down p (c.mid u) t0 T d) (hl : IsLine (u ++ v ++ z)) (hz : z ≠ []) :
    Down p (c.mid (u ++ v)) t0 T (step p (hearing d n v) (.run true)) := by
  obtain ⟨g, h1, h3, h4, e⟩ := run_more (p := p) h.1 hn hl hz hr (by simp)
  show Down _ _ _ _ (run p _ true)
  rw [e, proceed_act h1 rfl rfl (by rw [h3]; exact ht)]
  have := act_rest h1
  exact ⟨this.1, by rw [this.2]; exact h3⟩

theorem down_noise {u v : List Byte} (h : Down p (c.mid u) t0 T d) (hl : IsLine (u ++ v)) (hv : v ≠ []) (hs : Clear [b!"ERROR"] (u ++ v)) :
    Down p (c.mid []) t0 T (step p (hearing d n v) (.run true)) := by
  obtain ⟨g, h1, h2, h3, h4, e⟩ := run_heard (p := p) h.1 hn hl hv hr
  show Down _ _ _ _ (run p _ true)
  rw [e, parseLine_eq (isError_low (by rw [h1.snd]; decide) h2 (hs _ (by simp))) (parseWait_none h1.wait) (parseReply_ok h1.rep), checkState_low (by rw [h1.snd]; decide)]
  simp only [Bool.false_eq_true, if_false]
  rw [proceed_act h1 rfl rfl (by rw [h3]; exact ht)]
  have := act_rest h1
  exact ⟨this.1, by rw [this.2]; exact h3⟩

theorem up_idle (h : Up p c t0 T d) : Up p c t0 T (step p d (.run true)) := by
  show Up _ _ _ _ (run p d true)
  rw [run_calm h.1 (by simp), proceed_act h.1 rfl rfl (by rw [h.2.2]; exact ht)]
  have := act_stay hI h.1 h.2.1
  exact ⟨this.1, this.2.1, by rw [this.2.2]; exact h.2.2⟩

theorem up_more {u v z : List Byte} (h : Up p (c.mid u) t0 T d) (hl : IsLine (u ++ v ++ z)) (hz : z ≠ []) :
    Up p (c.mid (u ++ v)) t0 T (step p (hearing d n v) (.run true)) := by
  obtain ⟨g, h1, h3, h4, e⟩ := run_more (p := p) h.1 hn hl hz hr (by simp)
  show Up _ _ _ _ (run p _ true)
  rw [e, proceed_act h1 rfl rfl (by rw [h3]; exact ht)]
  have := act_stay (c := c.mid (u ++ v)) hI h1 (h4.trans h.2.1)
  exact ⟨this.1, this.2.1, by rw [this.2.2]; exact h3⟩

theorem up_noise {u v : List Byte} (h : Up p (c.mid u) t0 T d) (hl : IsLine (u ++ v)) (hv : v ≠ []) (hs : stayCC (u ++ v)) :
    Up p (c.mid []) t0 T (step p (hearing d n v) (.run true)) := by
  obtain ⟨g, h1, h2, h3, h4, e⟩ := run_heard (p := p) h.1 hn hl hv hr
  show Up _ _ _ _ (run p _ true)
  rw [e, parseLine_eq (isError_clear h2 (clear_mono hs (by simp)))
    (parseWait_none h1.wait) (parseReply_ok h1.rep), checkState_clear h2 (clear_mono hs (by simp))]
  simp only [Bool.false_eq_true, if_false]
  rw [proceed_act h1 rfl rfl (by rw [h3]; exact ht)]
  have := act_stay (c := c.mid []) hI h1 (h4.trans h.2.1)
  exact ⟨this.1, this.2.1, by rw [this.2.2]; exact h3⟩

variable (hm : c.part = [])
include hm

/-- `connect()` and the first command. -/
theorem dial_ok (h : Down p c t0 T d) (hh : c.host ≠ none) (hp : c.port ≠ 0) (k : Nat) :
    Chat p c t0 (T ++ [b!"ATE0\r\n"]) (at_ .sendCipstart .okReply (some b!"OK") .intermediate)
      (exec (step p) d (dial k)) := by
  have e : step p d .connect = ({ d with connectPending := true } : D).log .apiConnect := by
    show Dev.logConnect d.ipConnect = _
    unfold Dev.ipConnect
    rw [if_neg (by rw [h.1.host, h.1.port]; simp [hh, hp])]
    rfl
  have h1 : Chat p c t0 T ⟨.notConnected, .okReply, none, .notConnected, false, true, false⟩ (step p d .connect) := by
    rw [e]
    refine Talk.log ?_ _ rfl rfl
    have h := h.1
    moved h
  have f1 : (step p d .connect).ser.txFree = c.tx := by rw [e]; exact h.2
  show Chat _ _ _ _ _ (exec (step p) (step p d .connect) (List.replicate (k + 2) (.run true)))
  generalize step p d .connect = d1 at h1 f1 ⊢
  have e2 : step p d1 (.run true) = act d1 := by
    show run p d1 true = _
    rw [run_calm h1 (by simp), proceed_act h1 rfl rfl (by omega)]
  have h2 := act_notConnected h1
  rw [← e2] at h2
  have f2 : (step p d1 (.run true)).ser.txFree = c.tx := by rw [h2.2]; exact f1
  have e3 : step p (step p d1 (.run true)) (.run true) = act (step p d1 (.run true)) := by
    show run p _ true = _
    rw [run_calm h2.1 (by simp), proceed_act h2.1 rfl rfl (by omega)]
  have h3 := act_connecting h2.1 (by simp; omega)
  rw [← e3] at h3
  exact exec_runs (step := step p) (fun d hd => wait_idle p hd (by simp) (by simp)) h3 k

/-- `disconnect()` and the first command. -/
theorem hangUp_ok (h : Up p c t0 T d) (k : Nat) :
    Chat p c t0 (T ++ [b!"AT+CIPCLOSE\r\n"]) (at_ .finalizeDisconnect .okReply (some b!"OK") .intermediate)
      (exec (step p) d (hangUp k)) := by
  have e : step p d .disconnect = ({ d with disconnectPending := true } : D).log .apiDisconnect := by
    show (Dev.disconnect d).log .apiDisconnect = _
    unfold Dev.disconnect
    rw [if_neg (by unfold Dev.isIdle; rw [h.1.cs]; decide)]
  have h1 : Chat p c t0 T ⟨.connected, .okReply, none, .connected, true, false, false⟩ (step p d .disconnect) := by
    rw [e]
    refine Talk.log ?_ _ rfl rfl
    have h := h.1
    moved h
  have f1 : (step p d .disconnect).ser.txFree = c.tx := by rw [e]; exact h.2.2
  have g1 : (step p d .disconnect).ipConnected = true := by rw [e]; exact h.2.1
  show Chat _ _ _ _ _ (exec (step p) (step p d .disconnect) (List.replicate (k + 2) (.run true)))
  generalize step p d .disconnect = d1 at h1 f1 g1 ⊢
  have e2 : step p d1 (.run true) = act d1 := by
    show run p d1 true = _
    rw [run_calm h1 (by simp), proceed_act h1 rfl rfl (by omega)]
  have h2 := act_hangUp hI h1 g1
  rw [← e2] at h2
  have f2 : (step p d1 (.run true)).ser.txFree = c.tx := by rw [h2.2.1]; exact f1
  have e3 : step p (step p d1 (.run true)) (.run true) = act (step p d1 (.run true)) := by
    show run p _ true = _
    rw [run_calm h2.1 (by simp), proceed_act h2.1 rfl rfl (by omega)]
  have h3 := act_cipclose h2.1 (by simp; omega)
  rw [← e3] at h3
  exact exec_runs (step := step p) (fun d hd => wait_idle p hd (by simp) (by simp)) h3 k

/-- Closing. -/
theorem close_ok (h : Chat p c t0 T (at_ .finalizeDisconnect .okReply (some b!"OK") .intermediate) d) {bs : List Beat}
    (hb : Dialogue closeCC bs) : Down p c t0 (T ++ says closeCC) (exec (step p) d (Spec.ops n bs)) := by
  cases hb with
  | cons hb hbs =>
    rename_i b1 bs
    cases hbs
    show Down _ _ _ _ (exec (step p) d (Beat.ops n _ ++ []))
    rw [List.append_nil, show says closeCC = [] from rfl, List.append_nil]
    refine stage p hr ht hn hm (by simp) (fun g l hg hl hi => ?_) (fun g l hg hl hx => ?_) (fun g hg hf => ?_)
      (fun d hd => down_idle p hr ht hn hI hd) h hb
    · rw [parseLine_eq (isError_clear hl (clear_mono hi (by simp)))
        (parseWait_clear hl hg.wait (by decide) (hi _ (by simp))) (parseReply_ok hg.rep)]
      rcases checkState_high (p := p) (by rw [hg.snd]; decide) hl (hi _ (by simp)) with x | x
      · exact .inl (by rw [x])
      · exact .inr (by rw [x])
    · rw [parseLine_eq (isError_clear hl (clear_of hx (by decide)))
        (parseWait_good hl hg.wait (by decide) hx) (parseReply_ok hg.rep),
        checkState_clear (d := ({ g with wait := none } : D)) ⟨hl.text, hl.zero, hl.fill⟩ (clear_of hx (by decide))]
    · have := act_finalizeDisconnect hg
      exact ⟨this.1, by rw [this.2]; exact hf⟩

theorem open_stageD {dp : Bool} {r : Peer} (hk : r.Ok) (hc : c.host = some r.host) (hp : c.port = r.port.toNat)
    (hy : c.typ = r.typ) (hx : ∀ t ∈ says (openCC r), t.length ≤ c.tx) :
    ∀ k (hk : k < (openCC r).length) d b, (dp = false ∨ k ≠ 1) → StageD dp p c r t0 T k d → Answers (openCC r)[k].await b →
      StageD dp p c r t0 T (k + 1) (exec (step p) d (b.ops n))
  | 0, _, d, b, _, h, hb => by
    have e := says_succ (openCC r) T 0 (show 0 < 2 by omega)
    refine stage_ok p hr ht hn hm (Q := StageD dp p c r t0 T 1) (by decide) (fun g hg hf => ?_)
      (fun d hd => wait_idle p hd (by simp) (by simp)) h (hb)
    show Chat _ _ _ _ _ _
    rw [e]
    show Chat _ _ _ (_ ++ [(if r.typ = .udp then b!"AT+CIPSTART=\"UDP\",\"" else b!"AT+CIPSTART=\"TCP\",\"") ++ r.host ++ b!"\"," ++ decimals r.port.toNat ++ b!"\r\n"]) _ _
    have := hx _ (says_mem (as := (openCC r)) (k := 0) (show 0 < 2 by omega) (List.mem_singleton.mpr rfl))
    rw [← hy] at this ⊢
    exact act_cipstart hg hc hp hk.host (by rw [hf]; exact this)
  | 1, _, d, b, hs, h, hb => by
    obtain rfl : dp = false := hs.elim id fun x => absurd rfl x
    have e := (says_succ (openCC r) T 1 (show 1 < 2 by omega)).trans (List.append_nil _)
    refine stage_ok p hr ht hn hm (Q := StageD false p c r t0 T 2) (by decide) (fun g hg hf => ?_)
      (fun d hd => up_idle p hr ht hn hI hd) h (hb)
    show Up _ _ _ (T ++ says ((openCC r).take 2)) _
    rw [e]
    have := act_finalizeConnect hg
    exact ⟨this.1, this.2.1, by rw [this.2.2]; exact hf⟩
  | k + 2, hk, _, _, _, _, _ => by simp [openCC] at hk; omega

theorem open_stage {r : Peer} (hk : r.Ok) (hc : c.host = some r.host) (hp : c.port = r.port.toNat)
    (hy : c.typ = r.typ) (hx : ∀ t ∈ says (openCC r), t.length ≤ c.tx) :
    ∀ k (hk : k < (openCC r).length) d b, Stage p c r t0 T k d → Answers (openCC r)[k].await b →
      Stage p c r t0 T (k + 1) (exec (step p) d (b.ops n)) :=
  fun k hl d b h hb => open_stageD p hr ht hn hI hm hk hc hp hy hx k hl d b (.inl rfl) h hb

/-- `connect()`, and the modem answers `k` times. -/
theorem arrive_ok {r : Peer} (hk : r.Ok) (hx : ∀ t ∈ visitCC r, t.length ≤ c.tx)
    (h : Down p c t0 T d) (i : Nat) {k : Nat} (hle : k ≤ (openCC r).length) {bs : List Beat}
    (hb : Dialogue ((openCC r).take k) bs) :
    Stage p (c.to r) r t0 (T ++ [b!"ATE0\r\n"]) k (exec (step p) d (setupCC r ++ (dial i ++ Spec.ops n bs))) := by
  have h1 := setup_ok (p := p) h r
  rw [exec_append, exec_append]
  have h2 := dial_ok (c := c.to r) p hr ht hn hI hm h1 (by simp) (hk.port_ne) i
  refine exec_dialogue (open_stage (c := c.to r) p hr ht hn hI hm hk rfl rfl rfl (fun t m => hx t (by unfold visitCC; simp [m]))) hle hb ?_
  show Chat _ _ _ _ _ _
  rw [show says ((openCC r).take 0) = [] from rfl, List.append_nil]
  exact h2

/-- A visit up to the connection. -/
theorem connect_ok {r : Peer} (hk : r.Ok) (hx : ∀ t ∈ visitCC r, t.length ≤ c.tx)
    (h : Down p c t0 T d) (i : Nat) {bs : List Beat}
    (hb : Dialogue (openCC r) bs) {xs : List Spoken} (hxs : ∀ x ∈ xs, x.Is (stayCC)) :
    Up p (c.to r) t0 (T ++ [b!"ATE0\r\n"] ++ says (openCC r))
      (exec (step p) d (setupCC r ++ (dial i ++ Spec.ops n bs) ++ hearAll n xs)) := by
  have h1 := arrive_ok p hr ht hn hI hm hk hx h i (Nat.le_refl _) (by rw [List.take_length]; exact hb)
  rw [exec_append]
  have e0 : (c.to r).mid [] = c.to r := Conf.mid_nil hm
  rw [← e0]
  exact exec_hearAll (P := fun u => Up p ((c.to r).mid u) t0 (T ++ [b!"ATE0\r\n"] ++ says (openCC r))) step_irq
    (fun u d hd => up_idle (c := (c.to r).mid u) p hr ht hn hI hd)
    (fun u v z d hd hl hz ho => up_more (c := c.to r) p hr ht hn hI hd hl hz)
    (fun u v d hd hl hv hs => up_noise (c := c.to r) p hr ht hn hI hd hl hv hs) (e0.symm ▸ h1) hxs

/-- From the connection to the end of the visit. -/
theorem leave_ok (h : Up p c t0 T d) (i : Nat) {bs : List Beat} (hb : Dialogue closeCC bs)
    {xs : List Spoken} (hxs : ∀ x ∈ xs, x.Is (Clear [b!"ERROR"])) :
    Down p c t0 (T ++ [b!"AT+CIPCLOSE\r\n"] ++ says closeCC)
      (exec (step p) d (hangUp i ++ Spec.ops n bs ++ hearAll n xs)) := by
  rw [exec_append, exec_append]
  have e0 := Conf.mid_nil hm
  rw [← e0]
  exact exec_hearAll (P := fun u => Down p (c.mid u) t0 (T ++ [b!"AT+CIPCLOSE\r\n"] ++ says closeCC)) step_irq
    (fun u d hd => down_idle (c := c.mid u) p hr ht hn hI hd)
    (fun u v z d hd hl hz ho => down_more p hr ht hn hI hd hl hz)
    (fun u v d hd hl hv hs => down_noise p hr ht hn hI hd hl hv hs)
    (e0.symm ▸ close_ok p hr ht hn hI hm (hangUp_ok p hr ht hn hI hm h i) hb) hxs

/-- The whole visit. -/
theorem visit_ok {r : Peer} (hk : r.Ok) (hx : ∀ t ∈ visitCC r, t.length ≤ c.tx)
    (h : Down p c t0 T d) {u : Visit}
    (hv : u.Ok (openCC r) closeCC stayCC (Clear [b!"ERROR"])) :
    Down p (c.to r) t0 (T ++ visitCC r) (exec (step p) d (setupCC r ++ u.ops n)) := by
  have h1 := connect_ok p hr ht hn hI hm hk hx h u.dial hv.up hv.stay
  have h2 := leave_ok (c := c.to r) p hr ht hn hI hm h1 u.hangUp hv.down hv.rest
  rw [← exec_append] at h2
  have e : T ++ [b!"ATE0\r\n"] ++ says (openCC r) ++ [b!"AT+CIPCLOSE\r\n"] ++ says closeCC = T ++ visitCC r := by
    simp [visitCC]
  rw [e] at h2
  have e2 : setupCC r ++ (dial u.dial ++ Spec.ops n u.up) ++ hearAll n u.stay ++
      (hangUp u.hangUp ++ Spec.ops n u.down ++ hearAll n u.rest) = setupCC r ++ u.ops n := by
    simp [Visit.ops]
  rw [e2] at h2
  exact h2

/-- The peer closes the connection: the driver is idle. -/
theorem peer_close (h : Up p c t0 T d) {x : Spoken} (hx : x.Is (b!"CLOSED" <+: ·)) (hk : 0 < x.runs) :
    Down p c t0 T
      (exec (step p) d (x.ops n)) := by
  have e0 := Conf.mid_nil hm
  obtain ⟨u, d, h, hl, hv, hs, e⟩ := exec_last (P := fun u => Up p (c.mid u) t0 T) step_irq
    (fun u d hd => up_idle (c := c.mid u) p hr ht hn hI hd)
    (fun u v z d hd hl hz ho => up_more p hr ht hn hI hd hl hz) (e0.symm ▸ h) hx
  rw [e]
  generalize x.last = v at *
  obtain ⟨k, hk⟩ : ∃ k, x.runs = k + 1 := ⟨x.runs - 1, by omega⟩
  rw [hk]
  have h0 : Chat p c t0 T (at_ .finalizeDisconnect .okReply none .connected) (step p (hearing d n v) (.run true)) ∧
      (step p (hearing d n v) (.run true)).ser.txFree = c.tx := by
    obtain ⟨g, h1, h2, h3, h4, e⟩ := run_heard (p := p) h.1 hn hl hv hr
    rw [e0] at h1
    have h5 : Chat p c t0 T (at_ .connected .okReply none .connected) ({ g with ipConnected := false } : D) := by
      moved h1
    show Chat _ _ _ _ _ (run p _ true) ∧ (run p _ true).ser.txFree = _
    rw [e, parseLine_eq (isError_clear h2 (clear_of hs (by decide))) (parseWait_none h1.wait) (parseReply_ok h1.rep),
      checkState_closed (by rw [h1.snd]; decide) h2 hs]
    simp only [Bool.false_eq_true, if_false]
    rw [proceed_act h5 rfl rfl (by show 20 ≤ g.ser.txFree; omega)]
    have := act_closed hI h5 rfl
    exact ⟨this.1, by rw [this.2]; exact h3⟩
  generalize step p (hearing d n v) (.run true) = d1 at h0
  have e3 : step p d1 (.run true) = act d1 := by
    show run p _ true = _
    rw [run_calm h0.1 (by simp), proceed_act h0.1 rfl rfl (by omega)]
  have h3 := act_finalizeDisconnect h0.1
  rw [← e3] at h3
  exact exec_runs (step := step p) (fun d hd => down_idle p hr ht hn hI hd) ⟨h3.1, by rw [h3.2]; exact h0.2⟩ k

end
end CC1352P7
end Verif
