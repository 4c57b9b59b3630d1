import Verif.Lemmas.Confirmed
import Verif.Lemmas.EndedEspressif

/-! The same as in `Lemmas/Confirmed.lean` for the Espressif. -/

namespace Verif.Espressif

open Dev Spec

abbrev awaits : Observer Bool := unconfirmed [b!"SEND OK", b!"ERROR", b!"FAIL", b!"SEND FAIL", b!"WIFI DISCONNECT"] [b!"AT+RST"]

/-- While a transmission is under way the driver says so. -/
structure Conf (d : D) : Prop where
  sent : awaits.after d.trace = true → d.cs = .transmitting ∧ d.rep = .okReply ∧ d.wait = some b!"SEND OK" ∧ d.resetPending = false
  send : d.snd = .sendDataState → d.resetPending = true ∨
    d.cs = .transmitting ∧ (d.rep = .okReply ∨ d.rep = .rssi ∨ d.rep = .reqMac)

theorem Conf.same {d e : D} (h : Conf d) (h1 : e.snd = d.snd := by rfl)
    (h2 : e.cs = d.cs := by rfl) (h3 : e.rep = d.rep := by rfl)
    (h4 : e.resetPending = d.resetPending := by rfl) (h5 : e.wait = d.wait := by rfl)
    (h6 : awaits.after e.trace = awaits.after d.trace := by rfl) : Conf e := by
  refine ⟨?_, ?_⟩
  · rw [h6, h2, h3, h4, h5]; exact h.sent
  · rw [h1, h2, h3, h4]; exact h.send

theorem conf_calls : Calls Conf where
  io _ _ _ _ _ h := h.same
  isOpen _ _ h := h.same
  host _ _ _ _ h := h.same
  conn _ h _ _ := h.same (h6 := by simp [log])
  disc0 _ h _ := h.same (h6 := by simp [log])
  disc _ h _ := h.same (h6 := by simp [log])
  write0 _ h _ := h.same (h6 := by simp [log])
  write _ _ h _ := h.same (h6 := by simp [log])
  read _ _ h := h.same (h6 := by simp [log])
  rssi _ h := h.same
  userTx _ _ _ _ h := h.same (h6 := by simp)
  userRx _ _ _ _ h := h.same (h6 := by simp)

theorem conf_own : Own Conf where
  reset _ _ := ⟨by simp [resetStates], by simp [resetStates]⟩
  ext _ _ h := h.same
  ub _ h := h.same

/-- A question of the driver, nothing being under way. -/
theorem Conf.none {d : D} (h : Conf d) (hw : d.wait = none) : awaits.after d.trace = false := by
  cases e : awaits.after d.trace with
  | false => rfl
  | true => have := (h.sent e).2.2.1; rw [hw] at this; cases this

theorem awaits_prepare {d : D} (h : awaits.after d.trace = false) (b : Bool) : awaits.after (d.prepareSending b).1.trace = false := by
  cases hq : (d.prepareSending b).2 with
  | false => rw [(prepareSending_trace_false hq).1]; exact h
  | true =>
    obtain ⟨_, _, g1, g2, g3, e⟩ := prepareSending_true hq
    rw [e]
    cases b <;> simp [h]

theorem awaits_receive {d : D} (h : awaits.after d.trace = false) : awaits.after d.receive.1.trace = false := by
  cases hq : d.receive.2 with
  | false => rw [(receive_trace_false hq).1]; exact h
  | true => rw [(receive_true hq).1]; simp [h]

theorem awaits_get {d : D} (h : awaits.after d.trace = false) : awaits.after (sendCiprcvdata d).1.trace = false := by
  cases hq : (sendCiprcvdata d).2 with
  | false => rw [sendCiprcvdata_false hq]; exact h
  | true =>
    obtain ⟨g1, g2, g3, e⟩ := sendCiprcvdata_true hq
    rw [e]
    simp [h]

theorem act_conf {d : D} (h : Conf d) (hr : d.resetPending = false)
    (hw : d.wait = none) (hp : d.rep = .okReply) : Conf (act d) := by
  have h0 := h.none hw
  have key : ∀ e : D, awaits.after e.trace = false → e.snd ≠ .sendDataState → Conf e :=
    fun e h1 h2 => ⟨fun c => absurd (h1.symm.trans c) Bool.noConfusion, fun c => absurd c h2⟩
  cases hs : d.snd
  case sendDataState =>
    have h1 : d.cs = .transmitting := by
      rcases h.send hs with c | c
      · rw [hr] at c; cases c
      · exact c.1
    refine ⟨fun _ => ?_, ?_⟩
    · simp [act, hs, h1, hp, hr]
    · simp [act, hs]
  case connected =>
    have e := awaits_prepare h0 false
    by_cases ha : d.wbuf.bytesAvailable ≠ 0
    · by_cases hb : (d.prepareSending false).2 = true
      · refine ⟨fun c => ?_, fun _ => Or.inr ?_⟩
        · exfalso
          have : awaits.after (act d).trace = false := by
            simp only [act, hs, actConnected, if_pos ha, if_pos hb]
            simp [e]
          rw [this] at c; cases c
        · simp only [act, hs, actConnected, if_pos ha, if_pos hb]
          simp [hp]
      · refine key _ ?_ ?_
        · simp only [act, hs, actConnected, if_pos ha, if_neg hb]; exact e
        · simp only [act, hs, actConnected, if_pos ha, if_neg hb]; simp [hs]
    · refine key _ ?_ ?_
      · simp only [act, hs, actConnected, if_neg ha]
        unfold handleDisconnect
        (repeat' split) <;> exact h0
      · simp only [act, hs, actConnected, if_neg ha]
        unfold handleDisconnect
        (repeat' split) <;> simp [hs]
  case sendCiprecvdata =>
    have e := awaits_get h0
    refine key _ ?_ ?_
    · simp only [act, hs, actCiprecvdata]; (repeat' split) <;> simp_all
    · simp only [act, hs, actCiprecvdata]; (repeat' split) <;> simp_all [handleDisconnect]
  case receiving =>
    have e := awaits_receive h0
    refine key _ ?_ ?_
    · simp only [act, hs, actReceiving]; (repeat' split) <;> simp_all
    · simp only [act, hs, actReceiving]; (repeat' split) <;> simp_all
  case sendCwjap =>
    refine key _ ?_ ?_
    · simp [act, hs, actCwjap, h0]
    · simp [act, hs, actCwjap]
  case sendCipstart =>
    refine key _ ?_ ?_
    · simp only [act, hs, actCipstart]; split <;> simp [h0]
    · simp [act, hs, actCipstart]
  all_goals
    refine key _ ?_ ?_
    · simp only [act, hs]; (repeat' split) <;> simp [h0, hs, handleConnect, handleDisconnect] <;> (repeat' split) <;> simp [h0]
    · simp only [act, hs]; (repeat' split) <;> simp [hs, handleConnect, handleDisconnect] <;> (repeat' split) <;> simp [hs]

/-- A line other than the awaited one. -/
theorem parse_conf (p : Platform) {d : D} (hrep : d.rep = .okReply)
    (hm : d.waitMatches = false) (he : isError d = false)
    (hf : d.has b!"SEND FAIL" = false) (hx : d.has b!"WIFI DISCONNECT" = false) :
    (parseLine p d).1.rep = .okReply ∧ (parseLine p d).1.cs = d.cs ∧ (parseLine p d).1.wait = d.wait ∧
      (parseLine p d).1.resetPending = d.resetPending := by
  have e1 : parseWait d = d := by unfold parseWait; rw [hm]; rfl
  have e2 : parseReply p d = d := by unfold parseReply; rw [hrep]
  have e0 : parseSendFail d = d := by
    unfold parseSendFail; rw [if_neg]; intro c; rw [hf] at c; exact absurd c.2 Bool.noConfusion
  unfold parseLine
  rw [he, if_neg Bool.noConfusion, e0, e1, e2]
  unfold checkState
  dsimp only
  (repeat' split) <;> simp_all

/-- A line while payload is to be sent. -/
theorem parse_send (p : Platform) {d : D} (hs : d.snd = .sendDataState) (hrep : d.rep = .okReply ∨ d.rep = .rssi ∨ d.rep = .reqMac) :
    (parseLine p d).1.resetPending = true ∨ (parseLine p d).1.cs = d.cs ∧
      ((parseLine p d).1.rep = .okReply ∨ (parseLine p d).1.rep = .rssi ∨ (parseLine p d).1.rep = .reqMac) := by
  have hw : (parseWait d).rep = d.rep ∧ (parseWait d).cs = d.cs := by
    unfold parseWait
    split <;> simp
  have hr : ∀ e : D, (e.rep = .okReply ∨ e.rep = .rssi ∨ e.rep = .reqMac) → (parseReply p e).cs = e.cs ∧
      ((parseReply p e).rep = .okReply ∨ (parseReply p e).rep = .rssi ∨ (parseReply p e).rep = .reqMac) := by
    intro e he
    unfold parseReply 
    rcases he with he | he | he <;> simp only [he] <;> (repeat' split) <;> simp_all
  have hc : ∀ e : D, (checkState p e).cs = e.cs ∧ (checkState p e).rep = e.rep := by
    intro e
    unfold checkState
    dsimp only
    (repeat' split) <;> simp
  have e0 : parseSendFail d = d := by
    unfold parseSendFail; rw [if_neg]; intro c; rw [hs] at c; exact Snd.noConfusion c.1
  unfold parseLine
  split
  · exact Or.inl rfl
  · obtain ⟨a1, a3⟩ := hw
    obtain ⟨b1, b2⟩ := hr (parseWait d) (by rw [a1]; exact hrep)
    obtain ⟨c1, c2⟩ := hc (parseReply p (parseWait d))
    rw [e0]
    exact Or.inr ⟨(c1.trans b1).trans a3, by rw [c2]; exact b2⟩

theorem parse_snd (p : Platform) {d : D} (h : (parseLine p d).1.snd = .sendDataState) : d.snd = .sendDataState := by
  have hw : ∀ e : D, (parseWait e).snd = e.snd := by
    intro e
    unfold parseWait
    split <;> simp
  have hr : ∀ e : D, (parseReply p e).snd = .sendDataState → e.snd = .sendDataState := by
    intro e
    unfold parseReply 
    split <;> (try dsimp only) <;> (repeat' split) <;> simp_all
  have hc : ∀ e : D, (checkState p e).snd = .sendDataState → e.snd = .sendDataState := by
    intro e
    unfold checkState
    dsimp only
    (repeat' split) <;> simp
  have hf : (parseSendFail d).snd = d.snd := by unfold parseSendFail; split <;> rfl
  unfold parseLine at h
  split at h
  · exact h
  · have h := hr _ (hc _ h)
    rw [hw] at h
    rw [hf] at h; exact h

theorem conf_sections (p : Platform) : Sections p Conf where
  fail d h _ := ⟨h.sent, fun c => by cases c⟩
  reset d h hr := by
    refine ⟨fun c => ?_, fun c => ?_⟩
    · exfalso
      have e : awaits.after (handleReset d).trace = true → awaits.after d.trace = true := by
        unfold handleReset; dsimp only; (repeat' split) <;> simp [unconfirmed]
      have := (h.sent (e c)).2.2.2
      rw [hr] at this; cases this
    · exfalso
      have key : (handleReset d).snd ≠ .sendDataState := by
        unfold handleReset; dsimp only; (repeat' split) <;> simp
      exact key c
  line d s m l r _ h hr _ ha hl _ _ := by
    constructor
    · rw [parseLine_trace, Observer.after_snoc, unconfirmed_line]
      intro c
      simp at c
      obtain ⟨c0, c1, c2, c3, c4, c5⟩ := c
      obtain ⟨a1, a2, a3, a4⟩ := h.sent c0
      have hq : r = d.rep := by
        rcases ha with ha | ha
        · exact ha
        · rw [a2] at ha; cases ha.1
      subst hq
      have := parse_conf p (d := d.gotLine s m d.rep l) a2
        (waits_of_begins hl (by decide) a3 c1)
        (by unfold isError; rw [has_of_begins hl (by decide) c2, has_of_begins hl (by decide) c3]; rfl)
        (has_of_begins hl (by decide) c4) (has_of_begins hl (by decide) c5)
      exact ⟨this.2.1.trans a1, this.1, this.2.2.1.trans a3, this.2.2.2.trans a4⟩
    · intro c
      have c : (d.gotLine s m r l).snd = .sendDataState := parse_snd p c
      have c : d.snd = .sendDataState := c
      rcases h.send c with b | ⟨b1, b2⟩
      · rw [hr] at b; cases b
      · have hq : r = d.rep := by
          rcases ha with ha | ha
          · exact ha
          · rcases b2 with b2 | b2 | b2 <;> rw [b2] at ha <;> cases ha.1
        subst hq
        rcases parse_send p (d := d.gotLine s m d.rep l) c b2 with a | ⟨a1, a2⟩
        · exact Or.inl a
        · exact Or.inr ⟨a1.trans b1, a2⟩
  drop d h _ _ _ := h.same (h6 := by simp)
  csq d h hr hw _ _ _ _ := by
    have h0 := h.none hw
    refine ⟨fun c => ?_, fun c => ?_⟩
    · simp [h0] at c
    · rcases h.send (by simpa using c) with b | ⟨b1, _⟩
      · rw [hr] at b; cases b
      · exact Or.inr ⟨by simpa using b1, Or.inr (Or.inl rfl)⟩
  mac d h hr hw _ _ _ _ := by
    have h0 := h.none hw
    refine ⟨fun c => ?_, fun c => ?_⟩
    · simp [h0] at c
    · rcases h.send (by simpa using c) with b | ⟨b1, _⟩
      · rw [hr] at b; cases b
      · exact Or.inr ⟨by simpa using b1, Or.inr (Or.inr rfl)⟩
  act d h hr hw hp _ := act_conf h hr hw hp

end Verif.Espressif
