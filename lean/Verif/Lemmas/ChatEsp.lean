import Verif.Lemmas.Chat

/-! The Espressif driver in a dialogue. -/

namespace Verif

open Dev Spec

namespace Espressif

/-- The members of the driver: no request for the MAC address; `w` was set. -/
structure ChatExt (p : Platform) (w : Option Wifi) (x : EspExt) : Prop where
  mac : ¬ (macMarked p x.mac = true ∧ x.mac.get 0 = 0)
  wifi : ∀ v, w = some v → x.ssid = .str v.ssid ∧ x.passwd = .str v.passwd

variable {p : Platform} {c : Conf} {w : Option Wifi} {t0 : List Ev} {T : List (List Byte)} {q : St Snd Rep}
  {d g : D} {n : Nat} {l : List Byte}

abbrev Chat (p : Platform) (c : Conf) (w : Option Wifi) (t0 : List Ev) (T : List (List Byte)) (q : St Snd Rep) (d : D) : Prop :=
  Talk c (ChatExt p w) t0 T q d

theorem proceed_wait {E : EspExt → Prop} (h : Talk c E t0 T q d) (hw : q.wait ≠ none ∨ q.rep ≠ .okReply) : proceed p d = d := by
  unfold proceed
  rw [h.wait, h.rep, if_pos hw]

theorem proceed_act (h : Chat p c w t0 T q d) (hw : q.wait = none) (hr : q.rep = .okReply) (hs : 20 ≤ d.ser.txFree)
    (ha : q.ask = false := by rfl) :
    proceed p d = act d := by
  unfold proceed
  rw [h.wait, h.rep, if_neg (by simp [hw, hr]), h.calm.serSpace, if_neg (by omega), h.calm.askSpace]
  unfold sendNext
  rw [if_neg (fun x => by rw [h.ask, ha] at x; simp at x), if_neg (fun x => h.ext.mac ⟨x.1, x.2.1⟩)]

theorem run_work {E : EspExt → Prop} (h : Talk c E t0 T q d) : run p d true = work p d := by
  unfold run
  rw [h.calm.isOpen, h.calm.reset]; rfl

theorem run_calm {E : EspExt → Prop} (h : Talk c E t0 T q d) (hs : q.snd ≠ .receiving) : run p d true = proceed p d := by
  rw [run_work h]
  unfold work fillLineBuffer
  rw [h.calm.fillLine]
  show proceed p (flushIfDisconnecting d) = _
  unfold flushIfDisconnecting
  rw [if_neg (fun x => hs (h.snd ▸ x.2))]

theorem run_heard {E : EspExt → Prop} {u v : List Byte} (h : Talk (c.mid u) E t0 T q d) (hn : c.tx ≤ n) (hl : IsLine (u ++ v)) (hv : v ≠ []) (hr : 60 ≤ c.rx) (hp : Spec.plain c.typ (u ++ v)) (hrep : q.rep = .okReply) :
    ∃ g, Talk (c.mid []) E t0 T q g ∧ LineDone g (u ++ v) ∧ g.ser.txFree = c.tx ∧ g.ipConnected = d.ipConnected ∧
      run p (hearing d n v) true = if (parseLine p g).2 then (parseLine p g).1 else proceed p (parseLine p g).1 := by
  obtain ⟨g, e, h1, h2, h3, h4⟩ := h.heard hn hl hv hr (lineStop d.typ d.rep)
    (fun m k x hx h1 h2 h3 => by
      unfold lineStop
      rw [if_neg, if_neg]
      · rw [h.rep, hrep]; simp
      · rw [h.typ]
        rintro (y | y | y | y)
        · exact h1 y
        · exact h2 y
        · rcases hp with z | z
          · exact y.1 z
          · exact z (y.2.2.2.2 ▸ hx)
        · omega) (fun m k => by unfold lineStop; rw [if_pos (.inl rfl)])
  refine ⟨g, h1, h2, h3, h4, ?_⟩
  have : run p (hearing d n v) true = work p (hearing d n v) := by
    unfold run
    rw [if_neg (by simp [h.calm.isOpen]), if_neg (by simp [h.calm.reset])]
  rw [this]
  unfold work fillLineBuffer
  rw [show (hearing d n v).rep = d.rep from rfl, show (hearing d n v).typ = d.typ from rfl, e]
  simp

/-- A piece of a line that does not complete it: as without input. -/
theorem run_more {E : EspExt → Prop} {u v z : List Byte} (h : Talk (c.mid u) E t0 T q d) (hn : c.tx ≤ n) (hl : IsLine (u ++ v ++ z)) (hz : z ≠ [])
    (hr : 60 ≤ c.rx) (hp : Spec.plain c.typ (u ++ v ++ z)) (hrep : q.rep = .okReply) (hs : q.snd ≠ .receiving) :
    ∃ g, Talk (c.mid (u ++ v)) E t0 T q g ∧ g.ser.txFree = c.tx ∧ g.ipConnected = d.ipConnected ∧
      run p (hearing d n v) true = proceed p g := by
  obtain ⟨g, e, h1, h3, h4⟩ := h.more (v := v) hn hl hz hr (lineStop d.typ d.rep)
    (fun m k x hx h1 h2 h3 => by
      unfold lineStop
      rw [if_neg, if_neg]
      · rw [h.rep, hrep]; simp
      · rw [h.typ]
        rintro (y | y | y | y)
        · exact h1 y
        · exact h2 y
        · rcases hp with z | z
          · exact y.1 z
          · exact z (y.2.2.2.2 ▸ List.mem_append_left _ hx)
        · omega)
  refine ⟨g, h1, h3, h4, ?_⟩
  have : run p (hearing d n v) true = work p (hearing d n v) := by
    unfold run
    rw [if_neg (by simp [h.calm.isOpen]), if_neg (by simp [h.calm.reset])]
  rw [this]
  unfold work fillLineBuffer
  rw [show (hearing d n v).rep = d.rep from rfl, show (hearing d n v).typ = d.typ from rfl, e]
  show proceed p (flushIfDisconnecting g) = _
  unfold flushIfDisconnecting
  rw [if_neg (fun x => hs (h1.snd ▸ x.2))]

theorem step_irq (d : D) (hs : List Hw) : step p d (.irq hs) = { d with ser := d.ser.transfers hs } := rfl

/-! ### Lines -/

theorem clear_of {w : List Byte} {bad : List (List Byte)} (hw : w <+: l) (h : ∀ b ∈ bad, ¬ w <+: b ∧ ¬ b <+: w) : Clear bad l :=
  fun b hb => not_prefix_of hw (h b hb).1 (h b hb).2

theorem clear_mono {a b : List (List Byte)} (h : Clear b l) (hs : a ⊆ b) : Clear a l := fun w hw => h w (hs hw)

theorem isError_clear (hl : LineDone d l) (h : Clear errorsEsp l) : isError d = false := by
  unfold isError
  rw [hl.has_false (by decide) (h _ (by simp [errorsEsp])), hl.has_false (by decide) (h _ (by simp [errorsEsp]))]
  rfl

theorem sendFail_not (h : d.snd ≠ .connected) : parseSendFail d = d := by
  unfold parseSendFail; rw [if_neg (fun x => h x.1)]

theorem sendFail_clear (hl : LineDone d l) (h : ¬ b!"SEND FAIL" <+: l) : parseSendFail d = d := by
  unfold parseSendFail; rw [hl.has_false (by decide) h]; simp

theorem checkState_low (hs : ¬ Snd.connected.idx ≤ d.snd.idx) : checkState p d = d := by
  unfold checkState; rw [if_neg hs]

theorem ipd_false (hl : LineDone d l) (h : ¬ b!"+IPD" <+: l) : strncmpEq d.line.cells b!"+IPD," 4 = false :=
  (show strncmpEq d.line.cells b!"+IPD," 4 = d.has b!"+IPD" from rfl).trans (hl.has_false (by decide) h)

theorem checkState_clear (hl : LineDone d l) (h : Clear [b!"+IPD", b!"CLOSED", b!"WIFI DISCONNECT"] l) : checkState p d = d := by
  unfold checkState
  rw [ipd_false hl (h _ (by simp)), hl.has_false (by decide) (h _ (by simp)), hl.has_false (by decide) (h _ (by simp))]
  simp

theorem checkState_closed (hs : Snd.connected.idx ≤ d.snd.idx) (hl : LineDone d l) (h : b!"CLOSED" <+: l) :
    checkState p d = { d with ipConnected := false } := by
  unfold checkState
  rw [if_pos hs, ipd_false hl (not_prefix_of h (by decide) (by decide)), hl.has_true (by decide) h]
  simp

theorem checkState_high (hs : Snd.connected.idx ≤ d.snd.idx) (hl : LineDone d l) (h : Clear [b!"+IPD", b!"WIFI DISCONNECT"] l) :
    checkState p d = d ∨ checkState p d = { d with ipConnected := false } := by
  by_cases hc : b!"CLOSED" <+: l
  · exact .inr (checkState_closed hs hl hc)
  · refine .inl (checkState_clear hl ?_)
    intro w hw
    simp only [List.mem_cons, List.not_mem_nil, or_false] at hw
    rcases hw with rfl | rfl | rfl
    · exact h _ (by simp)
    · exact hc
    · exact h _ (by simp)

theorem checkState_wifi (hs : Snd.connected.idx ≤ d.snd.idx) (hl : LineDone d l) (h : b!"WIFI DISCONNECT" <+: l) :
    checkState p d = { d with snd := .finalizeDisconnect, wait := none } := by
  unfold checkState
  rw [if_pos hs, ipd_false hl (not_prefix_of h (by decide) (by decide)),
    hl.has_false (by decide) (not_prefix_of h (by decide) (by decide)), hl.has_true (by decide) h]
  simp

theorem parseWait_clear {w : List Byte} (hl : LineDone d l) (hw : d.wait = some w) (h0 : (0 : Byte) ∉ w)
    (h1 : ¬ w <+: l) : parseWait d = d := by
  unfold parseWait
  rw [if_neg (by rw [hl.waitMatches_iff h0 hw]; exact h1)]

theorem parseWait_good {w : List Byte} (hl : LineDone d l) (hw : d.wait = some w) (h0 : (0 : Byte) ∉ w)
    (h1 : w <+: l) : parseWait d = { d with wait := none } := by
  unfold parseWait
  rw [if_pos (by rw [hl.waitMatches_iff h0 hw]; exact h1)]

theorem parseWait_none (hw : d.wait = none) : parseWait d = d := by
  unfold parseWait Dev.waitMatches
  rw [if_neg (by simp [hw])]

theorem parseLine_eq {a b : D} (h0 : isError d = false) (hf : parseSendFail d = d) (h1 : parseWait d = a)
    (h2 : parseReply p a = b) : parseLine p d = (checkState p b, false) := by
  unfold parseLine
  rw [h0, hf, h1, h2]
  simp

theorem parseReply_ok (hr : d.rep = .okReply) : parseReply p d = d := by
  unfold parseReply; rw [hr]

/-! ### The state machine -/

/-- The states of a dialogue. `dp`: a request to disconnect is pending. -/
abbrev at_ (s : Snd) (r : Rep) (w : Option (List Byte)) (cs : ConnState) (dp : Bool := false) : St Snd Rep := ⟨s, r, w, cs, dp, false, false⟩

/-- While waiting, nothing happens. -/
theorem wait_idle {E : EspExt → Prop} (p : Platform) (h : Talk c E t0 T q d) (hw : q.wait ≠ none) (hs : q.snd ≠ .receiving) :
    Talk c E t0 T q (step p d (.run true)) := by
  show Talk _ _ _ _ _ (run p d true)
  rw [run_calm h hs, proceed_wait h (.inl hw)]; exact h

section
variable (p) (hr : 60 ≤ c.rx) (ht : 20 ≤ c.tx) (hn : c.tx ≤ n)
include hr ht hn

/-- A piece of a line. -/
theorem wait_more {E : EspExt → Prop} {u v z : List Byte} (h : Talk (c.mid u) E t0 T q d) (hw : q.wait ≠ none)
    (hs : q.snd ≠ .receiving) (hl : IsLine (u ++ v ++ z)) (hz : z ≠ []) (hp : Spec.plain c.typ (u ++ v ++ z)) (hrep : q.rep = .okReply) :
    Talk (c.mid (u ++ v)) E t0 T q (step p (hearing d n v) (.run true)) := by
  obtain ⟨g, h1, h3, h4, e⟩ := run_more (p := p) h hn hl hz hr hp hrep hs
  show Talk _ _ _ _ _ (run p _ true)
  rw [e, proceed_wait h1 (.inl hw)]; exact h1

variable (hm : c.part = [])
include hm

/-- A stage of a dialogue: the driver waits for a line and does the next step upon it. -/
theorem stage {dp : Bool} {s : Snd} {x : List Byte} {cs : ConnState} {a : Await} {Q : D → Prop} (hs : s ≠ .receiving)
    (hpi : ∀ l, a.idle l → Spec.plain c.typ l) (hpg : ∀ l, a.good l → Spec.plain c.typ l)
    (hi : ∀ g l, Chat p c w t0 T (at_ s .okReply (some x) cs dp) g → LineDone g l → a.idle l →
      parseLine p g = (g, false) ∨ parseLine p g = ({ g with ipConnected := false }, false))
    (hg : ∀ g l, Chat p c w t0 T (at_ s .okReply (some x) cs dp) g → LineDone g l → a.good l →
      parseLine p g = ({ g with wait := none }, false))
    (ha : ∀ g, Chat p c w t0 T (at_ s .okReply none cs dp) g → g.ser.txFree = c.tx → Q (act g))
    (hq : ∀ d, Q d → Q (step p d (.run true)))
    (h : Chat p c w t0 T (at_ s .okReply (some x) cs dp) d) {b : Beat} (hab : Answers a b) :
    Q (exec (step p) d (b.ops n)) := by
  have e0 := Conf.mid_nil hm
  refine exec_beat (P := fun u => Chat p (c.mid u) w t0 T (at_ s .okReply (some x) cs dp)) step_irq
    (fun u d hd => wait_idle p hd (by simp) hs)
    (fun u v z d hd hl hz ho => wait_more p hr ht hn hd (by simp) hs hl hz (ho.elim (hpi _) (hpg _)) rfl)
    (fun u v d hd hl hv hx => ?_) (fun u v d hd hl hv hx => ?_) hq (e0.symm ▸ h) hab
  · obtain ⟨g, h1, h2, h3, h4, e⟩ := run_heard (p := p) hd hn hl hv hr (hpi _ hx) rfl
    rw [e0] at h1
    show Talk (c.mid []) _ _ _ _ (run p _ true)
    rw [e0]
    rcases hi g _ h1 h2 hx with y | y
    · rw [e, y]
      simp only [Bool.false_eq_true, if_false]
      rw [proceed_wait h1 (.inl (by simp))]; exact h1
    · have h5 : Chat p c w t0 T (at_ s .okReply (some x) cs dp) ({ g with ipConnected := false } : D) := by moved h1
      rw [e, y]
      simp only [Bool.false_eq_true, if_false]
      rw [proceed_wait h5 (.inl (by simp))]; exact h5
  · obtain ⟨g, h1, h2, h3, h4, e⟩ := run_heard (p := p) hd hn hl hv hr (hpg _ hx) rfl
    rw [e0] at h1
    show Q (run p _ true)
    have hg2 : Chat p c w t0 T (at_ s .okReply none cs dp) ({ g with wait := none } : D) := by moved h1
    rw [e, hg g _ h1 h2 hx]
    simp only [Bool.false_eq_true, if_false]
    rw [proceed_act hg2 rfl rfl (by show 20 ≤ g.ser.txFree; omega)]
    exact ha _ hg2 h3

/-- A stage of the opening. -/
theorem stage_ok {dp : Bool} {s : Snd} {cs : ConnState} {Q : D → Prop} (hlow : ¬ Snd.connected.idx ≤ s.idx)
    (ha : ∀ g, Chat p c w t0 T (at_ s .okReply none cs dp) g → g.ser.txFree = c.tx → Q (act g))
    (hq : ∀ d, Q d → Q (step p d (.run true)))
    (h : Chat p c w t0 T (at_ s .okReply (some b!"OK") cs dp) d) {b : Beat} (hab : Answers (awaitPlain c.typ b!"OK" errorsEsp) b) :
    Q (exec (step p) d (b.ops n)) := by
  have hne : s ≠ .connected := fun x => hlow (by rw [x]; exact Nat.le_refl _)
  refine stage p hr ht hn hm (a := awaitPlain c.typ b!"OK" errorsEsp) (fun x => hlow (by rw [x]; decide)) (fun l h => h.2) (fun l h => h.2) (fun g l hg hl hi => .inl ?_)
    (fun g l hg hl hx => ?_) ha hq h hab
  · rw [parseLine_eq (isError_clear hl (clear_mono hi.1 (by simp))) (sendFail_not (by rw [hg.snd]; exact hne))
      (parseWait_clear hl hg.wait (by decide) (hi.1 _ (by simp))) (parseReply_ok hg.rep), checkState_low (by rw [hg.snd]; exact hlow)]
  · rw [parseLine_eq (isError_clear hl (clear_of hx.1 (by decide))) (sendFail_not (by rw [hg.snd]; exact hne))
      (parseWait_good hl hg.wait (by decide) hx.1) (parseReply_ok hg.rep), checkState_low (by
        show ¬ _ ≤ g.snd.idx
        rw [hg.snd]; exact hlow)]

end

/-! ### The commands -/

section
variable {cs : ConnState}

theorem act_notConnected (h : Chat p c w t0 T ⟨.notConnected, .okReply, none, cs, false, true, false⟩ d) :
    Chat p c w t0 T (at_ .connecting .okReply none .notConnected) (act d) ∧ (act d).ser = d.ser := by
  unfold act
  rw [h.snd]
  show Chat _ _ _ _ _ _ (Dev.handleConnect _ _) ∧ (Dev.handleConnect _ _).ser = _
  unfold Dev.handleConnect
  rw [if_pos (show ({ d with delay := 10, cs := ConnState.notConnected } : D).connectPending = true from h.conn)]
  refine ⟨?_, rfl⟩
  moved h

theorem act_rest (h : Chat p c w t0 T (at_ .notConnected .okReply none cs) d) :
    Chat p c w t0 T (at_ .notConnected .okReply none .notConnected) (act d) ∧ (act d).ser = d.ser := by
  unfold act
  rw [h.snd]
  show Chat _ _ _ _ _ _ (Dev.handleConnect _ _) ∧ (Dev.handleConnect _ _).ser = _
  unfold Dev.handleConnect
  rw [if_neg (by show ¬ d.connectPending = true; rw [h.conn]; simp)]
  refine ⟨?_, rfl⟩
  moved h

theorem act_connecting {dp : Bool} (h : Chat p c w t0 T (at_ .connecting .okReply none cs dp) d)
    (hx : b!"ATE0\r\n".length ≤ d.ser.txFree) :
    Chat p c w t0 (T ++ [b!"ATE0\r\n"]) (at_ .sendCwmode .okReply (some b!"OK") .intermediate dp) (act d) := by
  unfold act
  rw [h.snd]
  said h hx (Wrote.command h.calm.ser _ (by decide))

theorem act_cwmode {dp : Bool} (h : Chat p c w t0 T (at_ .sendCwmode .okReply none cs dp) d)
    (hx : b!"AT+CWMODE=1\r\n".length ≤ d.ser.txFree) :
    Chat p c w t0 (T ++ [b!"AT+CWMODE=1\r\n"]) (at_ .sendCwjap .okReply (some b!"OK") cs dp) (act d) := by
  unfold act
  rw [h.snd]
  said h hx ((Wrote.cmd h.calm.ser _ (by decide)).arg lineEnd (by decide))

theorem act_cwjap {dp : Bool} {v : Wifi} (h : Chat p c (some v) t0 T (at_ .sendCwjap .okReply none cs dp) d)
    (hx : (b!"AT+CWJAP=\"" ++ v.ssid ++ b!"\",\"" ++ v.passwd ++ b!"\"\r\n").length ≤ d.ser.txFree) :
    Chat p c (some v) t0 (T ++ [b!"AT+CWJAP=\"" ++ v.ssid ++ b!"\",\"" ++ v.passwd ++ b!"\"\r\n"])
      (at_ .sendCipmux .okReply (some b!"OK") cs dp) (act d) := by
  unfold act
  rw [h.snd]
  show Chat _ _ _ _ _ _ (actCwjap d)
  unfold actCwjap
  rw [(h.ext.wifi v rfl).1, (h.ext.wifi v rfl).2]
  said h hx (((((Wrote.cmd h.calm.ser _ (by decide)).argN v.ssid).arg _ (by decide)).argN v.passwd).arg quoteEnd (by decide))

theorem act_cipmux {dp : Bool} (h : Chat p c w t0 T (at_ .sendCipmux .okReply none cs dp) d)
    (hx : b!"AT+CIPMUX=0\r\n".length ≤ d.ser.txFree) :
    Chat p c w t0 (T ++ [b!"AT+CIPMUX=0\r\n"]) (at_ .sendCiprecvmode .okReply (some b!"OK") cs dp) (act d) := by
  unfold act
  rw [h.snd]
  said h hx (Wrote.command h.calm.ser _ (by decide))

theorem act_recvmode {dp : Bool} (h : Chat p c w t0 T (at_ .sendCiprecvmode .okReply none cs dp) d)
    (hx : (recvmode c.typ).length ≤ d.ser.txFree) :
    Chat p c w t0 (T ++ [recvmode c.typ]) (at_ .sendCipmode .okReply (some b!"OK") cs dp) (act d) := by
  unfold act
  rw [h.snd]
  have e : recvmode c.typ = (if d.typ = .tcp then b!"AT+CIPRECVMODE=1" else b!"AT+CIPRECVMODE=0") ++ b!"\r\n" := by
    rw [h.typ]; cases c.typ <;> rfl
  rw [e] at hx ⊢
  said h hx (Wrote.command h.calm.ser _ (by split <;> decide))

theorem act_cipmode {dp : Bool} (h : Chat p c w t0 T (at_ .sendCipmode .okReply none cs dp) d)
    (hx : b!"AT+CIPMODE=0\r\n".length ≤ d.ser.txFree) :
    Chat p c w t0 (T ++ [b!"AT+CIPMODE=0\r\n"]) (at_ .sendCipstart .okReply (some b!"OK") cs dp) (act d) := by
  unfold act
  rw [h.snd]
  said h hx (Wrote.command h.calm.ser _ (by decide))

theorem act_cipstart {dp : Bool} {r : Peer} (h : Chat p c w t0 T (at_ .sendCipstart .okReply none cs dp) d) (hc : c.host = some r.host)
    (hp : c.port = r.port.toNat) (h0 : (0 : Byte) ∉ r.host)
    (hx : (b!"AT+CIPSTART=\"" ++ protocol c.typ ++ b!"\",\"" ++ r.host ++ b!"\"," ++ decimals r.port.toNat ++ b!"\r\n").length ≤ d.ser.txFree) :
    Chat p c w t0 (T ++ [b!"AT+CIPSTART=\"" ++ protocol c.typ ++ b!"\",\"" ++ r.host ++ b!"\"," ++ decimals r.port.toNat ++ b!"\r\n"])
      (at_ .finalizeConnect .okReply (some b!"OK") cs dp) (act d) := by
  have hd : dec5 d.port = decimals r.port.toNat := by
    rw [h.port, hp]; exact dec5_decimals (by have := r.port.toNat_lt; omega)
  have hz : (0 : Byte) ∉ decimals r.port.toNat := by
    rw [← hd]; intro hm; have := dec5_digits _ _ hm; simp [IsDigit] at this
  have hh : d.host = some r.host := h.host.trans hc
  have e : b!"AT+CIPSTART=\"" ++ protocol c.typ ++ b!"\",\"" = b!"AT+CIPSTART" ++ protoStr d.typ := by
    rw [h.typ]; cases c.typ <;> rfl
  have hs : (0 : Byte) ∉ protoStr d.typ := by cases d.typ <;> decide
  rw [e] at hx ⊢
  unfold act
  rw [h.snd]
  show Chat _ _ _ _ _ _ (actCipstart d)
  unfold actCipstart
  rw [if_neg (show ¬ d.host = none by rw [hh]; simp)]
  dsimp only
  rw [show (Dev.arg (Dev.cmd d b!"AT+CIPSTART") (protoStr d.typ)).host = d.host from rfl, hh, Option.getD_some,
    show (Dev.arg (Dev.cmd d b!"AT+CIPSTART") (protoStr d.typ)).port = d.port from rfl, hd]
  said h hx ((((((Wrote.cmd h.calm.ser b!"AT+CIPSTART" (by decide)).arg _ hs).arg _ h0).arg b!"\"," (by decide)).arg _ hz).arg lineEnd (by decide))

theorem act_finalizeConnect {dp : Bool} (h : Chat p c w t0 T (at_ .finalizeConnect .okReply none cs dp) d) :
    Chat p c w t0 T (at_ .connected .okReply none .connected dp) (act d) ∧ (act d).ipConnected = true ∧ (act d).ser = d.ser := by
  unfold act
  rw [h.snd]
  refine ⟨?_, rfl, rfl⟩
  moved h

theorem act_stay (hI : c.Idle) (h : Chat p c w t0 T (at_ .connected .okReply none cs) d) (hi : d.ipConnected = true) :
    Chat p c w t0 T (at_ .connected .okReply none .connected) (act d) ∧ (act d).ipConnected = true ∧ (act d).ser = d.ser := by
  unfold act
  rw [h.snd]
  show Chat _ _ _ _ _ _ (actConnected d) ∧ (actConnected d).ipConnected = _ ∧ (actConnected d).ser = _
  unfold actConnected
  rw [if_neg (by rw [h.wempty hI]; simp), if_neg (by rw [h.quiet hI]; simp), if_pos hi]
  rw [if_neg (by show ¬ d.disconnectPending = true; rw [h.disc]; simp)]
  refine ⟨?_, hi, rfl⟩
  moved h

theorem act_closed (hI : c.Idle) (h : Chat p c w t0 T (at_ .connected .okReply none cs) d) (hi : d.ipConnected = false) :
    Chat p c w t0 T (at_ .sendCwqap .okReply none .connected) (act d) ∧ (act d).ser = d.ser := by
  unfold act
  rw [h.snd]
  show Chat _ _ _ _ _ _ (actConnected d) ∧ (actConnected d).ser = _
  unfold actConnected
  rw [if_neg (by rw [h.wempty hI]; simp), if_neg (by rw [h.quiet hI]; simp), if_neg (by simp [hi])]
  refine ⟨?_, rfl⟩
  moved h

theorem act_hangUp (hI : c.Idle) (h : Chat p c w t0 T ⟨.connected, .okReply, none, cs, true, false, false⟩ d) (hi : d.ipConnected = true) :
    Chat p c w t0 T (at_ .sendCipclose .okReply none .connected) (act d) ∧ (act d).ser = d.ser ∧ (act d).ipConnected = true := by
  unfold act
  rw [h.snd]
  show Chat _ _ _ _ _ _ (actConnected d) ∧ (actConnected d).ser = _ ∧ (actConnected d).ipConnected = _
  unfold actConnected
  rw [if_neg (by rw [h.wempty hI]; simp), if_neg (by rw [h.quiet hI]; simp), if_pos hi]
  rw [if_pos (by rw [h.disc])]
  unfold Dev.handleDisconnect
  rw [if_pos (by show d.disconnectPending = true; rw [h.disc])]
  refine ⟨?_, rfl, hi⟩
  moved h

theorem act_cipclose (h : Chat p c w t0 T (at_ .sendCipclose .okReply none cs) d) (hi : d.ipConnected = true)
    (hx : b!"AT+CIPCLOSE\r\n".length ≤ d.ser.txFree) :
    Chat p c w t0 (T ++ [b!"AT+CIPCLOSE\r\n"])
      (at_ .sendCwqap .okReply (some b!"OK") .intermediate) (act d) := by
  unfold act
  rw [h.snd]
  dsimp only
  rw [if_pos hi]
  said h hx (Wrote.command h.calm.ser _ (by decide))

theorem act_cwqap (h : Chat p c w t0 T (at_ .sendCwqap .okReply none cs) d)
    (hx : b!"AT+CWQAP\r\n".length ≤ d.ser.txFree) :
    Chat p c w t0 (T ++ [b!"AT+CWQAP\r\n"]) (at_ .finalizeDisconnect .okReply (some b!"WIFI DISCONNECT") .intermediate) (act d) := by
  unfold act
  rw [h.snd]
  said h hx (Wrote.command h.calm.ser _ (by decide))

theorem act_finalizeDisconnect (h : Chat p c w t0 T (at_ .finalizeDisconnect .okReply none cs) d) :
    Chat p c w t0 T (at_ .notConnected .okReply none .notConnected) (act d) ∧ (act d).ser = d.ser := by
  unfold act
  rw [h.snd]
  refine ⟨?_, rfl⟩
  moved h

end

/-! ### Dialogues -/

/-- Not connected. -/
def Down (p : Platform) (c : Conf) (w : Option Wifi) (t0 : List Ev) (T : List (List Byte)) (d : D) : Prop :=
  Chat p c w t0 T (at_ .notConnected .okReply none .notConnected) d ∧ d.ser.txFree = c.tx

/-- Connected. -/
def Up (p : Platform) (c : Conf) (w : Option Wifi) (t0 : List Ev) (T : List (List Byte)) (d : D) : Prop :=
  Chat p c w t0 T (at_ .connected .okReply none .connected) d ∧ d.ipConnected = true ∧ d.ser.txFree = c.tx

/-- The stages of the opening. `dp`: a request to disconnect is pending. -/
def StageD (dp : Bool) (p : Platform) (c : Conf) (w : Wifi) (r : Peer) (t0 : List Ev) (T : List (List Byte)) : Nat → D → Prop
  | 0 => Chat p c (some w) t0 (T ++ says ((openEsp w r).take 0)) (at_ .sendCwmode .okReply (some b!"OK") .intermediate dp)
  | 1 => Chat p c (some w) t0 (T ++ says ((openEsp w r).take 1)) (at_ .sendCwjap .okReply (some b!"OK") .intermediate dp)
  | 2 => Chat p c (some w) t0 (T ++ says ((openEsp w r).take 2)) (at_ .sendCipmux .okReply (some b!"OK") .intermediate dp)
  | 3 => Chat p c (some w) t0 (T ++ says ((openEsp w r).take 3)) (at_ .sendCiprecvmode .okReply (some b!"OK") .intermediate dp)
  | 4 => Chat p c (some w) t0 (T ++ says ((openEsp w r).take 4)) (at_ .sendCipmode .okReply (some b!"OK") .intermediate dp)
  | 5 => Chat p c (some w) t0 (T ++ says ((openEsp w r).take 5)) (at_ .sendCipstart .okReply (some b!"OK") .intermediate dp)
  | 6 => Chat p c (some w) t0 (T ++ says ((openEsp w r).take 6)) (at_ .finalizeConnect .okReply (some b!"OK") .intermediate dp)
  | _ => Up p c (some w) t0 (T ++ says (openEsp w r))

/-- The stages of the opening. -/
abbrev Stage (p : Platform) (c : Conf) (w : Wifi) (r : Peer) (t0 : List Ev) (T : List (List Byte)) : Nat → D → Prop := StageD false p c w r t0 T

theorem init_ok {rxm txm rmem wmem line mac : List Byte} {ty : ConnType} {ssid passwd : CPtr} (h1 : txm ≠ []) (h2 : line.length = 61)
    (h3 : ¬ (p.charSigned = false ∧ mac.getD 1 0 = 255 ∧ mac.getD 0 0 = 0)) :
    Down p (.start rxm.length txm.length wmem.length rmem.length ty) none [] []
      (step p (init (Ser.init rxm txm []) rmem wmem ty line mac ssid passwd) (.run true)) := by
  refine ⟨⟨⟨rfl, rfl, rfl, rfl, ⟨h2, (show 0 < lineMax by decide), rfl⟩, ⟨rfl, rfl⟩, ?_⟩, ⟨[.apiReset], rfl, rfl, ?_, rfl, rfl⟩, rfl, rfl, rfl, rfl, rfl,
    Ring.rep_flush rfl rfl, rfl, Ring.rep_flush rfl rfl, rfl, rfl, rfl, rfl, ⟨?_, by simp⟩⟩, rfl⟩
  · exact ⟨rfl, rfl, Ser.rxRep_flush (Ser.rxRep_init rxm txm []), ⟨[], LineBuf.rep_init txm, rfl⟩, List.length_pos_iff.mpr h1, rfl, rfl⟩
  · intro w g x; simp at x
  · show ¬ (Espressif.macMarked p (⟨mac, false⟩ : Mem) = true ∧ (⟨mac, false⟩ : Mem).get 0 = 0)
    unfold Espressif.macMarked Mem.get
    simpa [and_assoc] using h3

theorem setup_ok (h : Down p c w t0 T d) (v : Wifi) (r : Peer) :
    Down p (c.to r) (some v) t0 T
      (exec (step p) d (setupEsp v r)) :=
  ⟨⟨⟨h.1.calm.isOpen, h.1.calm.lock, h.1.calm.reset, h.1.calm.lineRead,
      ⟨h.1.calm.line.len, h.1.calm.line.fill, h.1.calm.line.oob⟩, h.1.calm.fill, h.1.calm.ser⟩, h.1.told, h.1.st,
      rfl, rfl, rfl, h.1.data, h.1.wbuf, h.1.wcap, h.1.rbuf, h.1.rcap, h.1.rcv, h.1.rd, h.1.bw, ⟨h.1.ext.mac, fun u e => by cases e; exact ⟨rfl, rfl⟩⟩⟩, h.2⟩

section
variable (p) (hr : 60 ≤ c.rx) (ht : 20 ≤ c.tx) (hn : c.tx ≤ n) (hI : c.Idle)
include hr ht hn hI

theorem down_idle (h : Down p c w t0 T d) : Down p c w t0 T (step p d (.run true)) := by
  show Down _ _ _ _ _ (run p d true)
  rw [run_calm h.1 (by simp), proceed_act h.1 rfl rfl (by rw [h.2]; exact ht)]
  have := act_rest h.1
  exact ⟨this.1, by rw [this.2]; exact h.2⟩

theorem down_more {u v z : List Byte} (h : Down p (c.mid u) w t0 T d) (hl : IsLine (u ++ v ++ z)) (hz : z ≠ []) (hp : Spec.plain c.typ (u ++ v ++ z)) :
    Down p (c.mid (u ++ v)) w t0 T (step p (hearing d n v) (.run true)) := by
  obtain ⟨g, h1, h3, h4, e⟩ := run_more (p := p) h.1 hn hl hz hr hp rfl (by simp)
  show Down _ _ _ _ _ (run p _ true)
  rw [e, proceed_act h1 rfl rfl (by rw [h3]; exact ht)]
  have := act_rest h1
  exact ⟨this.1, by rw [this.2]; exact h3⟩

theorem down_noise {u v : List Byte} (h : Down p (c.mid u) w t0 T d) (hl : IsLine (u ++ v)) (hv : v ≠ []) (hs : Clear errorsEsp (u ++ v) ∧ Spec.plain c.typ (u ++ v)) :
    Down p (c.mid []) w t0 T (step p (hearing d n v) (.run true)) := by
  obtain ⟨g, h1, h2, h3, h4, e⟩ := run_heard (p := p) h.1 hn hl hv hr hs.2 rfl
  show Down _ _ _ _ _ (run p _ true)
  rw [e, parseLine_eq (isError_clear h2 hs.1) (sendFail_not (by rw [h1.snd]; simp)) (parseWait_none h1.wait) (parseReply_ok h1.rep), checkState_low (by rw [h1.snd]; decide)]
  simp only [Bool.false_eq_true, if_false]
  rw [proceed_act h1 rfl rfl (by rw [h3]; exact ht)]
  have := act_rest h1
  exact ⟨this.1, by rw [this.2]; exact h3⟩

theorem up_idle (h : Up p c w t0 T d) : Up p c w t0 T (step p d (.run true)) := by
  show Up _ _ _ _ _ (run p d true)
  rw [run_calm h.1 (by simp), proceed_act h.1 rfl rfl (by rw [h.2.2]; exact ht)]
  have := act_stay hI h.1 h.2.1
  exact ⟨this.1, this.2.1, by rw [this.2.2]; exact h.2.2⟩

theorem up_more {u v z : List Byte} (h : Up p (c.mid u) w t0 T d) (hl : IsLine (u ++ v ++ z)) (hz : z ≠ []) (hp : Spec.plain c.typ (u ++ v ++ z)) :
    Up p (c.mid (u ++ v)) w t0 T (step p (hearing d n v) (.run true)) := by
  obtain ⟨g, h1, h3, h4, e⟩ := run_more (p := p) h.1 hn hl hz hr hp rfl (by simp)
  show Up _ _ _ _ _ (run p _ true)
  rw [e, proceed_act h1 rfl rfl (by rw [h3]; exact ht)]
  have := act_stay (c := c.mid (u ++ v)) hI h1 (h4.trans h.2.1)
  exact ⟨this.1, this.2.1, by rw [this.2.2]; exact h3⟩

theorem up_noise {r : Peer} (hy : c.typ = r.typ) {u v : List Byte} (h : Up p (c.mid u) w t0 T d) (hl : IsLine (u ++ v)) (hv : v ≠ []) (hs : stayEsp r (u ++ v)) :
    Up p (c.mid []) w t0 T (step p (hearing d n v) (.run true)) := by
  obtain ⟨g, h1, h2, h3, h4, e⟩ := run_heard (p := p) h.1 hn hl hv hr (by rw [hy]; exact hs.2) rfl
  show Up _ _ _ _ _ (run p _ true)
  rw [e, parseLine_eq (isError_clear h2 (clear_mono hs.1 (by simp [errorsEsp])))
    (sendFail_clear h2 (hs.1 _ (by simp))) (parseWait_none h1.wait) (parseReply_ok h1.rep), checkState_clear h2 (clear_mono hs.1 (by simp))]
  simp only [Bool.false_eq_true, if_false]
  rw [proceed_act h1 rfl rfl (by rw [h3]; exact ht)]
  have := act_stay (c := c.mid []) hI h1 (h4.trans h.2.1)
  exact ⟨this.1, this.2.1, by rw [this.2.2]; exact h3⟩

variable (hm : c.part = [])
include hm

/-- `connect()` and the first command. -/
theorem dial_ok {w : Wifi} (hw : w.Ok) (h : Down p c (some w) t0 T d) (hh : c.host ≠ none) (hp : c.port ≠ 0) (k : Nat) :
    Chat p c (some w) t0 (T ++ [b!"ATE0\r\n"]) (at_ .sendCwmode .okReply (some b!"OK") .intermediate)
      (exec (step p) d (dial k)) := by
  have e : step p d .connect = ({ d with connectPending := true } : D).log .apiConnect := by
    show Dev.logConnect (connect d) = _
    have hx := h.1.ext.wifi w rfl
    unfold connect
    dsimp only
    rw [if_neg (show ¬ (d.ext.ssid = .uninit ∨ d.ext.passwd = .uninit) by rw [hx.1, hx.2]; simp),
      if_neg (show ¬ (d.ext.ssid = .null ∨ d.ext.passwd = .null ∨ d.ext.ssid = .str []) by rw [hx.1, hx.2]; simp [hw.ne])]
    unfold Dev.ipConnect
    rw [if_neg (by rw [h.1.host, h.1.port]; simp [hh, hp])]
    rfl
  have h1 : Chat p c (some w) t0 T ⟨.notConnected, .okReply, none, .notConnected, false, true, false⟩ (step p d .connect) := by
    rw [e]
    refine Talk.log ?_ _ rfl rfl
    have h := h.1
    moved h
  have f1 : (step p d .connect).ser.txFree = c.tx := by rw [e]; exact h.2
  show Chat _ _ _ _ _ _ (exec (step p) (step p d .connect) (List.replicate (k + 2) (.run true)))
  generalize step p d .connect = d1 at h1 f1 ⊢
  have e2 : step p d1 (.run true) = act d1 := by
    show run p d1 true = _
    rw [run_calm h1 (by simp), proceed_act h1 rfl rfl (by omega)]
  have h2 := act_notConnected h1
  rw [← e2] at h2
  have f2 : (step p d1 (.run true)).ser.txFree = c.tx := by rw [h2.2]; exact f1
  have e3 : step p (step p d1 (.run true)) (.run true) = act (step p d1 (.run true)) := by
    show run p _ true = _
    rw [run_calm h2.1 (by simp), proceed_act h2.1 rfl rfl (by omega)]
  have h3 := act_connecting h2.1 (by simp; omega)
  rw [← e3] at h3
  exact exec_runs (step := step p) (fun d hd => wait_idle p hd (by simp) (by simp)) h3 k

/-- `disconnect()` and the first command. -/
theorem hangUp_ok (h : Up p c w t0 T d) (k : Nat) :
    Chat p c w t0 (T ++ [b!"AT+CIPCLOSE\r\n"]) (at_ .sendCwqap .okReply (some b!"OK") .intermediate)
      (exec (step p) d (hangUp k)) := by
  have e : step p d .disconnect = ({ d with disconnectPending := true } : D).log .apiDisconnect := by
    show (Dev.disconnect d).log .apiDisconnect = _
    unfold Dev.disconnect
    rw [if_neg (by unfold Dev.isIdle; rw [h.1.cs]; decide)]
  have h1 : Chat p c w t0 T ⟨.connected, .okReply, none, .connected, true, false, false⟩ (step p d .disconnect) := by
    rw [e]
    refine Talk.log ?_ _ rfl rfl
    have h := h.1
    moved h
  have f1 : (step p d .disconnect).ser.txFree = c.tx := by rw [e]; exact h.2.2
  have g1 : (step p d .disconnect).ipConnected = true := by rw [e]; exact h.2.1
  show Chat _ _ _ _ _ _ (exec (step p) (step p d .disconnect) (List.replicate (k + 2) (.run true)))
  generalize step p d .disconnect = d1 at h1 f1 g1 ⊢
  have e2 : step p d1 (.run true) = act d1 := by
    show run p d1 true = _
    rw [run_calm h1 (by simp), proceed_act h1 rfl rfl (by omega)]
  have h2 := act_hangUp hI h1 g1
  rw [← e2] at h2
  have f2 : (step p d1 (.run true)).ser.txFree = c.tx := by rw [h2.2.1]; exact f1
  have e3 : step p (step p d1 (.run true)) (.run true) = act (step p d1 (.run true)) := by
    show run p _ true = _
    rw [run_calm h2.1 (by simp), proceed_act h2.1 rfl rfl (by omega)]
  have h3 := act_cipclose h2.1 h2.2.2 (by simp; omega)
  rw [← e3] at h3
  exact exec_runs (step := step p) (fun d hd => wait_idle p hd (by simp) (by simp)) h3 k

/-- The wireless network is left. -/
theorem quit_ok {r : Peer} (hy : c.typ = r.typ)
    (h : Chat p c w t0 T (at_ .finalizeDisconnect .okReply (some b!"WIFI DISCONNECT") .intermediate) d) {b : Beat}
    (hb : Answers (awaitPlain r.typ b!"WIFI DISCONNECT" (b!"+IPD" :: errorsEsp)) b) :
    Down p c w t0 T (exec (step p) d (b.ops n)) := by
  refine stage p hr ht hn hm (by simp) (fun l h => by rw [hy]; exact h.2) (fun l h => by rw [hy]; exact h.2)
    (fun g l hg hl hi => ?_) (fun g l hg hl hx => ?_) (fun g hg hf => ?_) (fun d hd => down_idle p hr ht hn hI hd) h hb
  · rw [parseLine_eq (isError_clear hl (clear_mono hi.1 (by simp [errorsEsp]))) (sendFail_not (by rw [hg.snd]; simp))
      (parseWait_clear hl hg.wait (by decide) (hi.1 _ (by simp))) (parseReply_ok hg.rep)]
    rcases checkState_high (p := p) (by rw [hg.snd]; decide) hl (clear_mono hi.1 (by simp)) with x | x
    · exact .inl (by rw [x])
    · exact .inr (by rw [x])
  · rw [parseLine_eq (isError_clear hl (clear_of hx.1 (by decide))) (sendFail_not (by rw [hg.snd]; simp))
      (parseWait_good hl hg.wait (by decide) hx.1) (parseReply_ok hg.rep),
      checkState_wifi (d := ({ g with wait := none } : D)) (by show _ ≤ g.snd.idx; rw [hg.snd]; decide) ⟨hl.text, hl.zero, hl.fill⟩ hx.1]
    have := hg.snd
    cases g; simp only at this; subst this; rfl
  · have := act_finalizeDisconnect hg
    exact ⟨this.1, by rw [this.2]; exact hf⟩

/-- Closing. -/
theorem close_ok {r : Peer} (hy : c.typ = r.typ)
    (h : Chat p c w t0 T (at_ .sendCwqap .okReply (some b!"OK") .intermediate) d) {bs : List Beat}
    (hb : Dialogue (closeEsp r) bs) : Down p c w t0 (T ++ says (closeEsp r)) (exec (step p) d (Spec.ops n bs)) := by
  cases hb with
  | cons hb hbs =>
    rename_i b1 bs
    cases hbs with
    | cons hb2 hbs =>
      rename_i b2 bs
      cases hbs
      show Down _ _ _ _ _ (exec (step p) d (Beat.ops n _ ++ (Beat.ops n _ ++ [])))
      rw [List.append_nil, exec_append]
      refine quit_ok p hr ht hn hI hm hy (stage p hr ht hn hm
        (Q := Chat p c w t0 (T ++ [b!"AT+CWQAP\r\n"]) (at_ .finalizeDisconnect .okReply (some b!"WIFI DISCONNECT") .intermediate))
        (by simp) (fun l h => by rw [hy]; exact h.2) (fun l h => by rw [hy]; exact h.2)
        (fun g l hg hl hi => ?_) (fun g l hg hl hx => ?_) (fun g hg hf => act_cwqap hg (by rw [hf]; simp; omega))
        (fun d hd => wait_idle p hd (by simp) (by simp)) h hb) hb2
      · rw [parseLine_eq (isError_clear hl (clear_mono hi.1 (by simp [errorsEsp]))) (sendFail_not (by rw [hg.snd]; simp))
          (parseWait_clear hl hg.wait (by decide) (hi.1 _ (by simp))) (parseReply_ok hg.rep)]
        rcases checkState_high (p := p) (by rw [hg.snd]; decide) hl (clear_mono hi.1 (by simp)) with x | x
        · exact .inl (by rw [x])
        · exact .inr (by rw [x])
      · rw [parseLine_eq (isError_clear hl (clear_of hx.1 (by decide))) (sendFail_not (by rw [hg.snd]; simp))
          (parseWait_good hl hg.wait (by decide) hx.1) (parseReply_ok hg.rep),
          checkState_clear (d := ({ g with wait := none } : D)) ⟨hl.text, hl.zero, hl.fill⟩ (clear_of hx.1 (by decide))]

theorem open_stageD {dp : Bool} {w : Wifi} {r : Peer} (hk : r.Ok) (hc : c.host = some r.host) (hp : c.port = r.port.toNat)
    (hy : c.typ = r.typ) (hx : ∀ t ∈ says (openEsp w r), t.length ≤ c.tx) :
    ∀ k (hk : k < (openEsp w r).length) d b, (dp = false ∨ k ≠ 6) → StageD dp p c w r t0 T k d → Answers (openEsp w r)[k].await b →
      StageD dp p c w r t0 T (k + 1) (exec (step p) d (b.ops n))
  | 0, _, d, b, _, h, hb => by
    have e := says_succ (openEsp w r) T 0 (show 0 < 7 by omega)
    refine stage_ok p hr ht hn hm (Q := StageD dp p c w r t0 T 1) (by decide) (fun g hg hf => ?_)
      (fun d hd => wait_idle p hd (by simp) (by simp)) h (hy ▸ hb)
    show Chat _ _ _ _ _ _ _
    rw [e]
    exact act_cwmode hg (by rw [hf]; exact hx _ (says_mem (as := (openEsp w r)) (k := 0) (show 0 < 7 by omega) (by simp [openEsp])))
  | 1, _, d, b, _, h, hb => by
    have e := says_succ (openEsp w r) T 1 (show 1 < 7 by omega)
    refine stage_ok p hr ht hn hm (Q := StageD dp p c w r t0 T 2) (by decide) (fun g hg hf => ?_)
      (fun d hd => wait_idle p hd (by simp) (by simp)) h (hy ▸ hb)
    show Chat _ _ _ _ _ _ _
    rw [e]
    exact act_cwjap hg (by rw [hf]; exact hx _ (says_mem (as := (openEsp w r)) (k := 1) (show 1 < 7 by omega) (by simp [openEsp])))
  | 2, _, d, b, _, h, hb => by
    have e := says_succ (openEsp w r) T 2 (show 2 < 7 by omega)
    refine stage_ok p hr ht hn hm (Q := StageD dp p c w r t0 T 3) (by decide) (fun g hg hf => ?_)
      (fun d hd => wait_idle p hd (by simp) (by simp)) h (hy ▸ hb)
    show Chat _ _ _ _ _ _ _
    rw [e]
    exact act_cipmux hg (by rw [hf]; exact hx _ (says_mem (as := (openEsp w r)) (k := 2) (show 2 < 7 by omega) (by simp [openEsp])))
  | 3, _, d, b, _, h, hb => by
    have e := says_succ (openEsp w r) T 3 (show 3 < 7 by omega)
    refine stage_ok p hr ht hn hm (Q := StageD dp p c w r t0 T 4) (by decide) (fun g hg hf => ?_)
      (fun d hd => wait_idle p hd (by simp) (by simp)) h (hy ▸ hb)
    show Chat _ _ _ _ _ _ _
    rw [e]
    show Chat _ _ _ _ (_ ++ [recvmode r.typ]) _ _
    rw [← hy]
    exact act_recvmode hg (by rw [hf, hy]; exact hx _ (says_mem (as := (openEsp w r)) (k := 3) (show 3 < 7 by omega) (by simp [openEsp])))
  | 4, _, d, b, _, h, hb => by
    have e := says_succ (openEsp w r) T 4 (show 4 < 7 by omega)
    refine stage_ok p hr ht hn hm (Q := StageD dp p c w r t0 T 5) (by decide) (fun g hg hf => ?_)
      (fun d hd => wait_idle p hd (by simp) (by simp)) h (hy ▸ hb)
    show Chat _ _ _ _ _ _ _
    rw [e]
    exact act_cipmode hg (by rw [hf]; exact hx _ (says_mem (as := (openEsp w r)) (k := 4) (show 4 < 7 by omega) (by simp [openEsp])))
  | 5, _, d, b, _, h, hb => by
    have e := says_succ (openEsp w r) T 5 (show 5 < 7 by omega)
    refine stage_ok p hr ht hn hm (Q := StageD dp p c w r t0 T 6) (by decide) (fun g hg hf => ?_)
      (fun d hd => wait_idle p hd (by simp) (by simp)) h (hy ▸ hb)
    show Chat _ _ _ _ _ _ _
    rw [e]
    show Chat _ _ _ _ (_ ++ [b!"AT+CIPSTART=\"" ++ protocol r.typ ++ b!"\",\"" ++ r.host ++ b!"\"," ++ decimals r.port.toNat ++ b!"\r\n"]) _ _
    have := hx _ (says_mem (as := (openEsp w r)) (k := 5) (show 5 < 7 by omega) (List.mem_singleton.mpr rfl))
    rw [← hy] at this ⊢
    exact act_cipstart hg hc hp hk.host (by rw [hf]; exact this)
  | 6, _, d, b, hs, h, hb => by
    obtain rfl : dp = false := hs.elim id fun x => absurd rfl x
    have e := (says_succ (openEsp w r) T 6 (show 6 < 7 by omega)).trans (List.append_nil _)
    refine stage_ok p hr ht hn hm (Q := StageD false p c w r t0 T 7) (by decide) (fun g hg hf => ?_)
      (fun d hd => up_idle p hr ht hn hI hd) h (hy ▸ hb)
    show Up _ _ _ _ (T ++ says ((openEsp w r).take 7)) _
    rw [e]
    have := act_finalizeConnect hg
    exact ⟨this.1, this.2.1, by rw [this.2.2]; exact hf⟩
  | k + 7, hk, _, _, _, _, _ => by simp [openEsp] at hk; omega

theorem open_stage {w : Wifi} {r : Peer} (hk : r.Ok) (hc : c.host = some r.host) (hp : c.port = r.port.toNat)
    (hy : c.typ = r.typ) (hx : ∀ t ∈ says (openEsp w r), t.length ≤ c.tx) :
    ∀ k (hk : k < (openEsp w r).length) d b, Stage p c w r t0 T k d → Answers (openEsp w r)[k].await b →
      Stage p c w r t0 T (k + 1) (exec (step p) d (b.ops n)) :=
  fun k hl d b h hb => open_stageD p hr ht hn hI hm hk hc hp hy hx k hl d b (.inl rfl) h hb

/-- `connect()`, and the modem answers `k` times. -/
theorem arrive_ok {v : Option Wifi} {w : Wifi} {r : Peer} (hk : r.Ok) (hw : w.Ok) (hx : ∀ t ∈ visitEsp w r, t.length ≤ c.tx)
    (h : Down p c v t0 T d) (i : Nat) {k : Nat} (hle : k ≤ (openEsp w r).length) {bs : List Beat}
    (hb : Dialogue ((openEsp w r).take k) bs) :
    Stage p (c.to r) w r t0 (T ++ [b!"ATE0\r\n"]) k (exec (step p) d (setupEsp w r ++ (dial i ++ Spec.ops n bs))) := by
  have h1 := setup_ok (p := p) h w r
  rw [exec_append, exec_append]
  have h2 := dial_ok (c := c.to r) p hr ht hn hI hm hw h1 (by simp) (hk.port_ne) i
  refine exec_dialogue (open_stage (c := c.to r) p hr ht hn hI hm hk rfl rfl rfl (fun t m => hx t (by unfold visitEsp; simp [m]))) hle hb ?_
  show Chat _ _ _ _ _ _ _
  rw [show says ((openEsp w r).take 0) = [] from rfl, List.append_nil]
  exact h2

/-- A visit up to the connection. -/
theorem connect_ok {v : Option Wifi} {w : Wifi} {r : Peer} (hk : r.Ok) (hw : w.Ok) (hx : ∀ t ∈ visitEsp w r, t.length ≤ c.tx)
    (h : Down p c v t0 T d) (i : Nat) {bs : List Beat}
    (hb : Dialogue (openEsp w r) bs) {xs : List Spoken} (hxs : ∀ x ∈ xs, x.Is (stayEsp r)) :
    Up p (c.to r) (some w) t0 (T ++ [b!"ATE0\r\n"] ++ says (openEsp w r))
      (exec (step p) d (setupEsp w r ++ (dial i ++ Spec.ops n bs) ++ hearAll n xs)) := by
  have h1 := arrive_ok p hr ht hn hI hm hk hw hx h i (Nat.le_refl _) (by rw [List.take_length]; exact hb)
  rw [exec_append]
  have e0 : (c.to r).mid [] = c.to r := Conf.mid_nil hm
  rw [← e0]
  exact exec_hearAll (P := fun u => Up p ((c.to r).mid u) (some w) t0 (T ++ [b!"ATE0\r\n"] ++ says (openEsp w r))) step_irq
    (fun u d hd => up_idle (c := (c.to r).mid u) p hr ht hn hI hd)
    (fun u v z d hd hl hz ho => up_more (c := c.to r) p hr ht hn hI hd hl hz ho.2)
    (fun u v d hd hl hv hs => up_noise (c := c.to r) p hr ht hn hI rfl hd hl hv hs) (e0.symm ▸ h1) hxs

/-- From the connection to the end of the visit. -/
theorem leave_ok {r : Peer} (hy : c.typ = r.typ) (h : Up p c w t0 T d) (i : Nat) {bs : List Beat} (hb : Dialogue (closeEsp r) bs)
    {xs : List Spoken} (hxs : ∀ x ∈ xs, x.Is (restEsp r)) :
    Down p c w t0 (T ++ [b!"AT+CIPCLOSE\r\n"] ++ says (closeEsp r))
      (exec (step p) d (hangUp i ++ Spec.ops n bs ++ hearAll n xs)) := by
  rw [exec_append, exec_append]
  have e0 := Conf.mid_nil hm
  rw [← e0]
  exact exec_hearAll (P := fun u => Down p (c.mid u) w t0 (T ++ [b!"AT+CIPCLOSE\r\n"] ++ says (closeEsp r))) step_irq
    (fun u d hd => down_idle (c := c.mid u) p hr ht hn hI hd)
    (fun u v z d hd hl hz ho => down_more p hr ht hn hI hd hl hz (by rw [hy]; exact ho.2))
    (fun u v d hd hl hv hs => down_noise p hr ht hn hI hd hl hv ⟨hs.1, by rw [hy]; exact hs.2⟩)
    (e0.symm ▸ close_ok p hr ht hn hI hm hy (hangUp_ok p hr ht hn hI hm h i) hb) hxs

/-- The whole visit. -/
theorem visit_ok {v : Option Wifi} {w : Wifi} {r : Peer} (hk : r.Ok) (hw : w.Ok) (hx : ∀ t ∈ visitEsp w r, t.length ≤ c.tx)
    (h : Down p c v t0 T d) {u : Visit}
    (hv : u.Ok (openEsp w r) (closeEsp r) (stayEsp r) (restEsp r)) :
    Down p (c.to r) (some w) t0 (T ++ visitEsp w r) (exec (step p) d (setupEsp w r ++ u.ops n)) := by
  have h1 := connect_ok p hr ht hn hI hm hk hw hx h u.dial hv.up hv.stay
  have h2 := leave_ok (c := c.to r) p hr ht hn hI hm rfl h1 u.hangUp hv.down hv.rest
  rw [← exec_append] at h2
  have e : T ++ [b!"ATE0\r\n"] ++ says (openEsp w r) ++ [b!"AT+CIPCLOSE\r\n"] ++ says (closeEsp r) = T ++ visitEsp w r := by
    simp [visitEsp]
  rw [e] at h2
  have e2 : setupEsp w r ++ (dial u.dial ++ Spec.ops n u.up) ++ hearAll n u.stay ++
      (hangUp u.hangUp ++ Spec.ops n u.down ++ hearAll n u.rest) = setupEsp w r ++ u.ops n := by
    simp [Visit.ops]
  rw [e2] at h2
  exact h2

/-- The peer closes the connection: the driver leaves the wireless network. -/
theorem peer_close (h : Up p c w t0 T d) {x : Spoken} (hx : x.Is fun l => b!"CLOSED" <+: l ∧ Spec.plain c.typ l) (hk : 0 < x.runs) :
    Chat p c w t0 (T ++ [b!"AT+CWQAP\r\n"]) (at_ .finalizeDisconnect .okReply (some b!"WIFI DISCONNECT") .intermediate)
      (exec (step p) d (x.ops n)) := by
  have e0 := Conf.mid_nil hm
  obtain ⟨u, d, h, hl, hv, ⟨hs, hp⟩, e⟩ := exec_last (P := fun u => Up p (c.mid u) w t0 T) step_irq
    (fun u d hd => up_idle (c := c.mid u) p hr ht hn hI hd)
    (fun u v z d hd hl hz ho => up_more p hr ht hn hI hd hl hz ho.2) (e0.symm ▸ h) hx
  rw [e]
  generalize x.last = v at *
  obtain ⟨k, hk⟩ : ∃ k, x.runs = k + 1 := ⟨x.runs - 1, by omega⟩
  rw [hk]
  have h0 : Chat p c w t0 T (at_ .sendCwqap .okReply none .connected) (step p (hearing d n v) (.run true)) ∧
      (step p (hearing d n v) (.run true)).ser.txFree = c.tx := by
    obtain ⟨g, h1, h2, h3, h4, e⟩ := run_heard (p := p) h.1 hn hl hv hr hp rfl
    rw [e0] at h1
    have h5 : Chat p c w t0 T (at_ .connected .okReply none .connected) ({ g with ipConnected := false } : D) := by
      moved h1
    show Chat _ _ _ _ _ _ (run p _ true) ∧ (run p _ true).ser.txFree = _
    rw [e, parseLine_eq (isError_clear h2 (clear_of hs (by decide))) (sendFail_clear h2 (not_prefix_of hs (by decide) (by decide))) (parseWait_none h1.wait) (parseReply_ok h1.rep),
      checkState_closed (by rw [h1.snd]; decide) h2 hs]
    simp only [Bool.false_eq_true, if_false]
    rw [proceed_act h5 rfl rfl (by show 20 ≤ g.ser.txFree; omega)]
    have := act_closed hI h5 rfl
    exact ⟨this.1, by rw [this.2]; exact h3⟩
  generalize step p (hearing d n v) (.run true) = d1 at h0
  have e3 : step p d1 (.run true) = act d1 := by
    show run p _ true = _
    rw [run_calm h0.1 (by simp), proceed_act h0.1 rfl rfl (by omega)]
  have h3 := act_cwqap h0.1 (by simp; omega)
  rw [← e3] at h3
  exact exec_runs (step := step p) (fun d hd => wait_idle p hd (by simp) (by simp)) h3 k

end
end Espressif
end Verif
