import Verif.Spec.Confirmed
import Verif.Lemmas.EndedSim7x00

/-! `writeBufferProcessed()` and the confirmations of the modem. -/

namespace Verif.Spec

variable {ts rs : List (List Byte)} {q : Bool}

@[simp] theorem unconfirmed_pay (b : List Byte) : (unconfirmed ts rs).step q (.pay b) = true := rfl
theorem unconfirmed_line (l : List Byte) : (unconfirmed ts rs).step q (.line l) = (q && !(ts.any (begins · l))) := rfl
@[simp] theorem unconfirmed_cmd (w g : List Byte) : (unconfirmed ts rs).step false (.cmd w g) = false := rfl
@[simp] theorem unconfirmed_arg (w g : List Byte) : (unconfirmed ts rs).step q (.arg w g) = q := rfl
@[simp] theorem unconfirmed_data (b : List Byte) : (unconfirmed ts rs).step q (.data b) = q := rfl
@[simp] theorem unconfirmed_drop (b : List Byte) : (unconfirmed ts rs).step q (.drop b) = q := rfl
@[simp] theorem unconfirmed_flush : (unconfirmed ts rs).step q .flush = q := rfl
@[simp] theorem unconfirmed_conn : (unconfirmed ts rs).step q .apiConnect = q := rfl
@[simp] theorem unconfirmed_disc : (unconfirmed ts rs).step q .apiDisconnect = q := rfl
@[simp] theorem unconfirmed_write (b : List Byte) : (unconfirmed ts rs).step q (.apiWrite b) = q := rfl
@[simp] theorem unconfirmed_read (b : List Byte) : (unconfirmed ts rs).step q (.apiRead b) = q := rfl
@[simp] theorem unconfirmed_reset : (unconfirmed ts rs).step q .apiReset = false := rfl
@[simp] theorem unconfirmed_userTx (b : List Byte) : (unconfirmed ts rs).step q (.userTx b) = q := rfl
@[simp] theorem unconfirmed_userRx (b : List Byte) : (unconfirmed ts rs).step q (.userRx b) = q := rfl

end Verif.Spec

namespace Verif.Sim7x00

open Dev Spec

abbrev awaits : Observer Bool := unconfirmed [b!"OK", b!"ERROR", b!"+IPCLOSE: 0,"] [b!"AT+CRESET"]

/-- While a transmission is under way the driver says so. -/
structure Conf (d : D) : Prop where
  sent : awaits.after d.trace = true → d.cs = .transmitting ∧ d.rep = .okReply ∧ d.wait = some okStr
  send : d.snd = .sendData → d.resetPending = true ∨
    d.cs = .transmitting ∧ (d.rep = .okReply ∨ d.rep = .csq ∨ d.rep = .requestID)

theorem Conf.same {d e : D} (h : Conf d) (h1 : e.snd = d.snd := by rfl)
    (h2 : e.cs = d.cs := by rfl) (h3 : e.rep = d.rep := by rfl)
    (h4 : e.resetPending = d.resetPending := by rfl) (h5 : e.wait = d.wait := by rfl)
    (h6 : awaits.after e.trace = awaits.after d.trace := by rfl) : Conf e := by
  refine ⟨?_, ?_⟩
  · rw [h6, h2, h3, h5]; exact h.sent
  · rw [h1, h2, h3, h4]; exact h.send

theorem conf_calls : Calls Conf where
  io _ _ _ _ _ h := h.same
  isOpen _ _ h := h.same
  host _ _ _ _ h := h.same
  conn _ h _ _ := h.same (h6 := by simp [log])
  disc0 _ h _ := h.same (h6 := by simp [log])
  disc _ h _ := h.same (h6 := by simp [log])
  write0 _ h _ := h.same (h6 := by simp [log])
  write _ _ h _ := h.same (h6 := by simp [log])
  read _ _ h := h.same (h6 := by simp [log])
  rssi _ h := h.same
  userTx _ _ _ _ h := h.same (h6 := by simp)
  userRx _ _ _ _ h := h.same (h6 := by simp)

theorem conf_own : Own Conf where
  reset _ _ := ⟨by simp [SimDev.resetStates], by simp [SimDev.resetStates]⟩
  ext _ _ h := h.same
  lock _ h _ _ := h.same
  unlock _ h := h.same

/-- A question of the driver, nothing being under way. -/
theorem Conf.none {d : D} (h : Conf d) (hw : d.wait = none) : awaits.after d.trace = false := by
  cases e : awaits.after d.trace with
  | false => rfl
  | true => have := (h.sent e).2.2; rw [hw] at this; cases this

theorem awaits_ident {d : D} (h : awaits.after d.trace = false) :
    awaits.after (SimDev.sendIDRequest d iccidCommand).1.trace = false := by
  cases hq : (SimDev.sendIDRequest d iccidCommand).2 with
  | false => rw [(SimDev.sendIDRequest_false hq).1]; exact h
  | true =>
    obtain ⟨w, hm, g1, g2, e⟩ := SimDev.sendIDRequest_true hq
    rw [e]
    simp [h]

theorem awaits_prepare {d : D} (h : awaits.after d.trace = false) (b : Bool) : awaits.after (d.prepareSending b).1.trace = false := by
  cases hq : (d.prepareSending b).2 with
  | false => rw [(prepareSending_trace_false hq).1]; exact h
  | true =>
    obtain ⟨_, _, g1, g2, g3, e⟩ := prepareSending_true hq
    rw [e]
    cases b <;> simp [h]

theorem awaits_receive {d : D} (h : awaits.after d.trace = false) : awaits.after d.receive.1.trace = false := by
  cases hq : d.receive.2 with
  | false => rw [(receive_trace_false hq).1]; exact h
  | true => rw [(receive_true hq).1]; simp [h]

theorem awaits_get {d : D} (h : awaits.after d.trace = false) : awaits.after (SimDev.sendCiprxget2 d).1.trace = false := by
  cases hq : (SimDev.sendCiprxget2 d).2 with
  | false => rw [SimDev.sendCiprxget2_false hq]; exact h
  | true =>
    obtain ⟨g1, g2, g3, e⟩ := SimDev.sendCiprxget2_true hq
    rw [e]
    simp [h]

theorem awaits_dns {d : D} (h : awaits.after d.trace = false) : awaits.after (SimDev.sendDnsQuery d).1.trace = false := by
  cases hq : (SimDev.sendDnsQuery d).2 with
  | false => rw [SimDev.sendDnsQuery_false hq]; exact h
  | true =>
    obtain ⟨g1, g2, g3, e⟩ := SimDev.sendDnsQuery_true hq
    rw [e]
    simp [h]

theorem act_conf {d : D} (h : Conf d) (hr : d.resetPending = false)
    (hw : d.wait = none) (hp : d.rep = .okReply) : Conf (act d) := by
  have h0 := h.none hw
  have key : ∀ e : D, awaits.after e.trace = false → e.snd ≠ .sendData → Conf e :=
    fun e h1 h2 => ⟨fun c => absurd (h1.symm.trans c) Bool.noConfusion, fun c => absurd c h2⟩
  cases hs : d.snd
  case sendData =>
    have h1 : d.cs = .transmitting := by
      rcases h.send hs with c | c
      · rw [hr] at c; cases c
      · exact c.1
    refine ⟨fun _ => ?_, ?_⟩
    · simp [act, hs, h1, hp]
    · simp [act, hs]
  case connected =>
    have e := awaits_prepare h0 true
    by_cases ha : d.wbuf.bytesAvailable ≠ 0
    · by_cases hb : (d.prepareSending true).2 = true
      · refine ⟨fun c => ?_, fun _ => Or.inr ?_⟩
        · exfalso
          have : awaits.after (act d).trace = false := by
            simp only [act, hs, actConnected, if_pos ha, if_pos hb]
            split <;> simp [e]
          rw [this] at c; cases c
        · simp only [act, hs, actConnected, if_pos ha, if_pos hb]
          split <;> simp [hp]
      · refine key _ ?_ ?_
        · simp only [act, hs, actConnected, if_pos ha, if_neg hb]; exact e
        · simp only [act, hs, actConnected, if_pos ha, if_neg hb]; simp [hs]
    · refine key _ ?_ ?_
      · simp only [act, hs, actConnected, if_neg ha]
        split <;> simp [h0]
      · simp only [act, hs, actConnected, if_neg ha]
        split
        · simp
        · unfold handleDisconnect; split <;> simp [hs]
  case sendDnsQuery =>
    have e := awaits_dns h0
    refine key _ ?_ ?_
    · simp only [act, hs]; split <;> exact e
    · simp only [act, hs]; split <;> simp [hs]
  case sendCiprxget2 =>
    have e := awaits_get h0
    refine key _ ?_ ?_
    · simp only [act, hs, actCiprxget2]; (repeat' split) <;> simp_all
    · simp only [act, hs, actCiprxget2]; (repeat' split) <;> simp_all [handleDisconnect]
  case receiving =>
    have e := awaits_receive h0
    refine key _ ?_ ?_
    · simp only [act, hs, actReceiving]; (repeat' split) <;> simp_all
    · simp only [act, hs, actReceiving]; (repeat' split) <;> simp_all
  case sendCgsockcont =>
    refine key _ ?_ ?_
    · simp only [act, hs, actCgsockcont]; split <;> simp [h0]
    · simp [act, hs, actCgsockcont]
  case sendCipopen =>
    refine key _ ?_ ?_
    · simp only [act, hs, actCipopen]; split <;> simp [h0]
    · simp [act, hs, actCipopen]
  all_goals
    refine key _ ?_ ?_
    · simp only [act, hs]; (repeat' split) <;> simp [h0, hs, handleConnect, handleDisconnect] <;> (repeat' split) <;> simp [h0]
    · simp only [act, hs]; (repeat' split) <;> simp [hs, handleConnect, handleDisconnect] <;> (repeat' split) <;> simp [hs]

/-- A line other than the awaited one. -/
theorem parse_conf (p : Platform) {d : D} (hrep : d.rep = .okReply) (hw : d.wait ≠ none)
    (hm : d.waitMatches = false) (he : d.has b!"ERROR" = false) (hc : d.has b!"+IPCLOSE: 0," = false) :
    (parseLine p d).1.rep = .okReply ∧ (parseLine p d).1.cs = d.cs ∧ (parseLine p d).1.wait = d.wait := by
  unfold parseLine parseWait
  simp only [hw, hm, he, ne_eq, not_false_eq_true, if_true, Bool.false_eq_true, if_false, parseReply, hrep]
  unfold checkState SimDev.checkConnectionState
  by_cases h1 : Snd.connected.idx ≤ d.snd.idx
  · by_cases h2 : d.has b!"+CIPRXGET: 1,0" = true <;> simp [h1, h2, hc, hrep]
  · simp [h1, hrep]

/-- A line while payload is to be sent. -/
theorem parse_send (p : Platform) {d : D} (hrep : d.rep = .okReply ∨ d.rep = .csq ∨ d.rep = .requestID) :
    (parseLine p d).1.resetPending = true ∨ (parseLine p d).1.cs = d.cs ∧
      ((parseLine p d).1.rep = .okReply ∨ (parseLine p d).1.rep = .csq ∨ (parseLine p d).1.rep = .requestID) := by
  have hw : (parseWait d).1.rep = d.rep ∧ ((parseWait d).2 = true ∧ (parseWait d).1.resetPending = true ∨
      (parseWait d).2 = false ∧ (parseWait d).1.cs = d.cs) := by
    unfold parseWait
    (repeat' split) <;> simp
  have hr : ∀ e : D, (e.rep = .okReply ∨ e.rep = .csq ∨ e.rep = .requestID) → (parseReply p e).1.cs = e.cs ∧
      ((parseReply p e).1.rep = .okReply ∨ (parseReply p e).1.rep = .csq ∨ (parseReply p e).1.rep = .requestID) := by
    intro e he
    unfold parseReply
    rcases he with he | he | he <;> simp only [he] <;> (repeat' split) <;> simp_all
  have hc : ∀ e : D, (checkState e).cs = e.cs ∧ (checkState e).rep = e.rep := by
    intro e
    unfold checkState
    split <;> simp
  unfold parseLine
  dsimp only
  obtain ⟨a1, a2⟩ := hw
  rcases a2 with ⟨a2, a3⟩ | ⟨a2, a3⟩
  · rw [if_pos a2]; exact Or.inl a3
  · rw [if_neg (by rw [a2]; exact Bool.noConfusion)]
    obtain ⟨b1, b2⟩ := hr (parseWait d).1 (by rw [a1]; exact hrep)
    right
    split
    · exact ⟨b1.trans a3, b2⟩
    · obtain ⟨c1, c2⟩ := hc (parseReply p (parseWait d).1).1
      exact ⟨(c1.trans b1).trans a3, by rw [c2]; exact b2⟩

theorem parse_snd (p : Platform) {d : D} (h : (parseLine p d).1.snd = .sendData) : d.snd = .sendData := by
  have hw : (parseWait d).1.snd = d.snd := by
    unfold parseWait
    (repeat' split) <;> simp
  have hr : ∀ e : D, (parseReply p e).1.snd = .sendData → e.snd = .sendData := by
    intro e
    unfold parseReply
    split <;> (try dsimp only) <;> (repeat' split) <;> simp_all
  have hc : ∀ e : D, (checkState e).snd = e.snd := by
    intro e
    unfold checkState
    split <;> simp
  unfold parseLine at h
  dsimp only at h
  split at h
  · rw [hw] at h; exact h
  · split at h
    · rw [← hw]; exact hr _ h
    · rw [hc] at h; rw [← hw]; exact hr _ h

theorem conf_sections (p : Platform) : Sections p Conf where
  fail d h _ := ⟨h.sent, fun c => by cases c⟩
  reset d h hr _ := by
    refine ⟨fun c => ?_, fun c => ?_⟩
    · exfalso
      have : awaits.after (handleReset d).trace = false := by
        simp [handleReset, unconfirmed]
      rw [this] at c; cases c
    · exfalso
      have key : ∀ (q : Prop) (i : Decidable q), (@ite _ q i Snd.connecting .notConnected) ≠ .sendData := by
        intro q i
        cases i <;> exact Snd.noConfusion
      simp [handleReset] at c
      exact key _ _ c
  line d s m l _ h hr _ hl _ := by
    constructor
    · rw [parseLine_trace, Observer.after_snoc, unconfirmed_line]
      intro c
      simp at c
      obtain ⟨c0, c1, c2, c3⟩ := c
      obtain ⟨a1, a2, a3⟩ := h.sent c0
      have := parse_conf p (d := d.gotLine s m d.rep l) a2 (show d.wait ≠ Option.none by rw [a3]; simp)
        (waits_of_begins hl (by decide) a3 c1) (has_of_begins hl (by decide) c2) (has_of_begins hl (by decide) c3)
      exact ⟨this.2.1.trans a1, this.1, this.2.2.trans a3⟩
    · intro c
      have c := parse_snd p c
      rcases h.send c with b | ⟨b1, b2⟩
      · rw [hr] at b; cases b
      · rcases parse_send p (d := d.gotLine s m d.rep l) b2 with a | ⟨a1, a2⟩
        · exact Or.inl a
        · exact Or.inr ⟨a1.trans b1, a2⟩
  drop d h _ _ _ := h.same (h6 := by simp)
  csq d h hr hw _ _ _ _ := by
    have h0 := h.none hw
    refine ⟨fun c => ?_, fun c => ?_⟩
    · simp [h0] at c
    · rcases h.send (by simpa using c) with b | ⟨b1, _⟩
      · rw [hr] at b; cases b
      · exact Or.inr ⟨by simpa using b1, Or.inr (Or.inl rfl)⟩
  ident d h hr hw _ _ _ := by
    have h0 := awaits_ident (h.none hw)
    refine ⟨fun c => ?_, fun c => ?_⟩
    · exact absurd (h0.symm.trans c) Bool.noConfusion
    · rcases h.send (by simpa using c) with b | ⟨b1, _⟩
      · rw [hr] at b; cases b
      · exact Or.inr ⟨by simpa using b1, Or.inr (Or.inr rfl)⟩
  identNone d h hq :=
    h.same (by simp) (by simp) (by simp) (by simp) (by simp) (by rw [(SimDev.sendIDRequest_false hq).1])
  act d h hr hw hp _ := act_conf h hr hw hp

end Verif.Sim7x00
