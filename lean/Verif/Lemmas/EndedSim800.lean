import Verif.Lemmas.Ended
import Verif.Lemmas.Stages

/-! The SIM800 driver is idle only after the modem said that the connection has ended. -/

namespace Verif.Sim800

open Dev Spec

abbrev phases : Observer LinkPhase := signs800.phase

/-- A connection is open: where the driver may be. -/
def open_ (s : Snd) (ip : Bool) : Prop :=
  Snd.finalizeConnect.idx ≤ s.idx ∧ s.idx ≤ Snd.sendCipshut.idx ∧ s ≠ .ipUnconnected ∧
    (Snd.connected.idx ≤ s.idx → s.idx ≤ Snd.receiving.idx → ip = true)

/-- The connection has not ended: where the driver may be. -/
structure Alive (q : LinkPhase) (d : D) : Prop where
  cs : d.cs ≠ .notConnected
  rep : d.rep = .ciprxget2 → d.ipConnected = true
  dns : d.rep ≠ .cdnsgip
  snd : open_ d.snd d.ipConnected ∨
    (d.snd = .finalizeDisconnect ∧ d.rep = .okReply ∧ d.resetPending = false ∧ q = .closing ∧
      d.wait = some b!"SHUT OK")

/-- The driver has begun to connect. -/
def began (s : Snd) (r : Rep) : Prop := Snd.sendCiprxget.idx ≤ s.idx ∨ r = .cipstart ∨ r = .ciprxget2

structure Ended (d : D) : Prop where
  busy : began d.snd d.rep → d.cs ≠ .notConnected
  ended : phases.after d.trace = .shut ∨ Alive (phases.after d.trace) d

theorem Ended.same {d e : D} (h : Ended d) (h1 : e.snd = d.snd := by rfl)
    (h2 : e.cs = d.cs := by rfl) (h3 : e.rep = d.rep := by rfl)
    (h4 : e.resetPending = d.resetPending := by rfl) (h5 : e.wait = d.wait := by rfl)
    (h6 : phases.after e.trace = phases.after d.trace := by rfl)
    (h7 : e.ipConnected = d.ipConnected := by rfl) : Ended e := by
  refine ⟨by rw [h1, h2, h3]; exact h.busy, ?_⟩
  rw [h6]
  rcases h.ended with h | ⟨a, b, b', c⟩
  · exact Or.inl h
  · exact Or.inr ⟨by rw [h2]; exact a, by rw [h3, h7]; exact b, by rw [h3]; exact b', by rw [h1, h3, h4, h5, h7]; exact c⟩

theorem ended_calls : Calls Ended where
  io _ _ _ _ _ h := h.same
  isOpen _ _ h := h.same
  host _ _ _ _ h := h.same
  conn _ h _ _ := h.same (h6 := by simp [log])
  disc0 _ h _ := h.same (h6 := by simp [log])
  disc _ h _ := h.same (h6 := by simp [log])
  write0 _ h _ := h.same (h6 := by simp [log])
  write _ _ h _ := h.same (h6 := by simp [log])
  read _ _ h := h.same (h6 := by simp [log])
  rssi _ h := h.same
  userTx _ _ _ _ h := h.same (h6 := by simp)
  userRx _ _ _ _ h := h.same (h6 := by simp)

theorem ended_own : Own Ended where
  reset _ _ := ⟨by simp [SimDev.resetStates, began, Snd.idx], Or.inl (by simp [SimDev.resetStates])⟩
  ext _ _ h := h.same
  lock _ h _ _ := h.same
  unlock _ h := h.same

/-- What a line does to the states. -/
theorem parse_shape (p : Platform) (d : D) :
    ((parseLine p d).1.cs = d.cs ∨ (parseLine p d).1.cs ≠ .notConnected) ∧
    ((parseLine p d).1.rep = d.rep ∨ (parseLine p d).1.rep = .okReply) ∧
    (d.has b!"0, CLOSED" = false → d.rep ≠ .cdnsgip → (parseLine p d).1.ipConnected = d.ipConnected) ∧
    ((parseLine p d).1.snd = d.snd ∨ d.rep = .cipstart ∧ (parseLine p d).1.snd = .sendCipshut ∨
      d.rep = .ciprxget2 ∧ (parseLine p d).1.snd = .receiving) := by
  have hh : ∀ e : D, (checkState e).cs = e.cs ∧ (checkState e).rep = e.rep ∧ (checkState e).snd = e.snd ∧
      (e.has b!"0, CLOSED" = false → (checkState e).ipConnected = e.ipConnected) := by
    intro e
    unfold checkState SimDev.checkConnectionState
    by_cases h1 : Snd.connected.idx ≤ e.snd.idx
    · by_cases h2 : e.has b!"+CIPRXGET: 1,0" = true
      · simp [h1, h2]
      · by_cases h3 : e.has b!"0, CLOSED" = true <;> simp [h1, h2, h3]
    · simp [h1]
  have hr : ∀ e : D, ((parseReply p e).cs = e.cs ∨ (parseReply p e).cs ≠ .notConnected) ∧
      ((parseReply p e).rep = e.rep ∨ (parseReply p e).rep = .okReply) ∧
      (parseReply p e).ipConnected = e.ipConnected ∧ (e.rep ≠ .cdnsgip → (parseReply p e).line = e.line) ∧
      ((parseReply p e).snd = e.snd ∨ e.rep = .cipstart ∧ (parseReply p e).snd = .sendCipshut ∨
        e.rep = .ciprxget2 ∧ (parseReply p e).snd = .receiving) := by
    intro e
    have hd : e.parseDnsReply.1.cs = e.cs ∨ e.parseDnsReply.1.cs ≠ .notConnected := by
      unfold SimDev.parseDnsReply
      dsimp only
      (repeat' split) <;> simp
    unfold parseReply
    split <;> rename_i hrep <;> (try dsimp only) <;> (repeat' split) <;> simp_all [handleDisconnect]
  unfold parseLine
  split
  · exact ⟨Or.inr (by simp), Or.inl rfl, fun _ _ => rfl, Or.inl rfl⟩
  · have hw : (parseWait d).cs = d.cs ∧ (parseWait d).rep = d.rep ∧ (parseWait d).snd = d.snd ∧
        (parseWait d).ipConnected = d.ipConnected ∧ (parseWait d).line = d.line := by
      unfold parseWait; split <;> simp
    obtain ⟨a1, a2, a3, a4, a5⟩ := hw
    obtain ⟨b1, b2, b3, b4, b5⟩ := hr (parseWait d)
    obtain ⟨c1, c2, c3, c4⟩ := hh (parseReply p (parseWait d))
    rw [a1] at b1
    rw [a2] at b2 b4 b5
    rw [a3] at b5
    dsimp only
    rw [c1, c2, c3]
    refine ⟨b1, b2, fun hc hn => ?_, b5⟩
    rw [c4, b3, a4]
    have e : (parseReply p (parseWait d)).line = d.line := by rw [b4 hn, a5]
    rw [← hc]; unfold has; rw [e]

/-- A line other than the awaited one while nothing else is expected. -/
theorem parse_waiting (p : Platform) {d : D} (hrep : d.rep = .okReply) (hr : d.resetPending = false)
    (hm : d.waitMatches = false) (hc : d.has b!"0, CLOSED" = false) (he : isError d = false) :
    (parseLine p d).1.rep = .okReply ∧ (parseLine p d).1.snd = d.snd ∧
    (parseLine p d).1.resetPending = false ∧ (parseLine p d).1.wait = d.wait := by
  unfold parseLine
  simp only [he, Bool.false_eq_true, if_false]
  unfold parseWait
  simp only [hm, Bool.false_eq_true, if_false, parseReply, hrep]
  unfold checkState SimDev.checkConnectionState
  by_cases h1 : Snd.connected.idx ≤ d.snd.idx
  · by_cases h2 : d.has b!"+CIPRXGET: 1,0" = true <;> simp [h1, h2, hc, hrep, hr]
  · simp [h1, hrep, hr]

theorem ended_act_dns {d : D} (hp : d.rep = .okReply) : (act d).rep = .cdnsgip → d.snd = .sendDnsQuery := by
  have h1 : (actCstt d).rep = .okReply := by simp only [actCstt]; split <;> simp [hp]
  have h2 : (actCipstart d).rep = .cipstart := by simp [actCipstart]
  have h3 : (actConnected d).rep = .okReply := by
    unfold actConnected handleDisconnect
    dsimp only
    (repeat' split) <;> simp [hp]
  have h4 : (actCiprxget2 d).rep ≠ .cdnsgip := by
    unfold actCiprxget2 handleDisconnect
    dsimp only
    (repeat' split) <;> simp_all
  have h5 : (actReceiving d).rep = .okReply := by
    unfold actReceiving
    dsimp only
    (repeat' split) <;> simp [hp]
  intro hx
  cases hsnd : d.snd <;> simp [act, hsnd, hp, h1, h2, h3, h4, h5, handleConnect, handleDisconnect] at hx
  all_goals (revert hx; (repeat' split) <;> simp [hp])

/-- The state machine keeps to its phases. -/
theorem act_ended {d : D} (h : Ended d) (hr : d.resetPending = false)
    (hw : d.wait = none) (hp : d.rep = .okReply) : Ended (act d) := by
  have hs : phases.after d.trace = .shut ∨ open_ d.snd d.ipConnected := by
    rcases h.ended with h | ⟨_, _, _, hs⟩
    · exact Or.inl h
    · right
      rcases hs with hs | ⟨_, _, _, _, hs⟩
      · exact hs
      · simp [hw] at hs
  have hb := h.busy
  -- a step after which no connection is open, or that happens while one is open
  have key : ∀ e : D, (began e.snd e.rep → e.cs ≠ .notConnected) →
      (phases.after d.trace = .shut → phases.after e.trace = .shut) →
      (open_ d.snd d.ipConnected → open_ e.snd e.ipConnected ∧ (e.rep = .ciprxget2 → e.ipConnected = true)) →
      (e.rep = .cdnsgip → d.snd = .sendDnsQuery) → Ended e := by
    intro e h1 h3 h4 h2
    refine ⟨h1, ?_⟩
    rcases hs with hs | hs
    · exact Or.inl (h3 hs)
    · obtain ⟨h5, h6⟩ := h4 hs
      refine Or.inr ⟨h1 (Or.inl (Nat.le_trans (by decide) h5.1)), h6, fun hx => ?_, Or.inl h5⟩
      rw [h2 hx] at hs; simp [open_, Snd.idx] at hs
  cases hsnd : d.snd
  case serialError => simp only [act, hsnd]; exact h
  case sendCipsprt => simp only [act, hsnd]; exact h
  case waitReceive => simp only [act, hsnd]; exact h
  case sendCipstart =>
    have hcs := hb (Or.inl (by simp [hsnd, Snd.idx]))
    have e1 : (act d).cs = d.cs := by simp only [act, hsnd, actCipstart]; split <;> simp
    refine ⟨fun _ => by rw [e1]; exact hcs, Or.inr ⟨by rw [e1]; exact hcs, ?_, ?_, Or.inl ?_⟩⟩
    · simp [act, hsnd, actCipstart]
    · simp [act, hsnd, actCipstart]
    · simp [act, hsnd, actCipstart, open_, Snd.idx]
  case sendCipshut =>
    refine ⟨by simp [act, hsnd], ?_⟩
    by_cases h0 : phases.after d.trace = .shut
    · left
      simp [act, hsnd, phase_cmd, signs800, h0]
    · right
      refine ⟨by simp [act, hsnd], by simp [act, hsnd, hp], by simp [act, hsnd, hp], ?_⟩
      right
      refine ⟨by simp [act, hsnd], by simp [act, hsnd, hp], by simp [act, hsnd, hr], ?_, by simp [act, hsnd]⟩
      simp [act, hsnd, phase_cmd, signs800, h0]
  case notConnected =>
    refine key _ ?_ ?_ ?_ (ended_act_dns hp)
    · cases hx : d.connectPending <;> simp [act, hsnd, handleConnect, began, hx, hp, Snd.idx]
    · intro h0; simp [act, hsnd, h0]
    · simp [hsnd, open_, Snd.idx]
  case connecting =>
    refine key _ ?_ ?_ ?_ (ended_act_dns hp)
    · simp [act, hsnd]
    · intro h0; simp [act, hsnd, h0, phase_cmd, signs800]
    · simp [hsnd, open_, Snd.idx]
  case sendCstt =>
    have hcs := hb (Or.inl (by simp [hsnd, Snd.idx]))
    refine key _ (fun _ => ?_) ?_ ?_ (ended_act_dns hp)
    · simp only [act, hsnd, actCstt]; split <;> simp [hcs]
    · intro h0; simp only [act, hsnd, actCstt]; split <;> simp [phase_cmd, signs800, h0]
    · simp [hsnd, open_, Snd.idx]
  case sendCifsr =>
    have hcs := hb (Or.inl (by simp [hsnd, Snd.idx]))
    refine key _ (fun _ => ?_) ?_ ?_ (ended_act_dns hp)
    · simp only [act, hsnd]; split <;> simp_all [handleDisconnect]
    · intro h0; simp only [act, hsnd]; split <;> simp_all [handleDisconnect, phase_cmd, signs800]
    · simp [hsnd, open_, Snd.idx]
  case sendDnsQuery =>
    have hcs := hb (Or.inl (by simp [hsnd, Snd.idx]))
    have e := phase_sendDnsQuery (s := signs800) d (by decide) (by decide) (by decide)
    refine key _ (fun _ => ?_) ?_ ?_ (ended_act_dns hp)
    · simp only [act, hsnd]; split <;> simp [hcs]
    · intro h0; simp only [act, hsnd]; split <;> simp [e, h0]
    · simp [hsnd, open_, Snd.idx]
  case connected =>
    have hcs := hb (Or.inl (by simp [hsnd, Snd.idx]))
    have e := phase_prepareSending (s := signs800) d true (by decide) (by decide) (by decide)
    cases hx : d.disconnectPending
    all_goals
      refine key _ (fun _ => ?_) ?_ (fun ho => ⟨?_, ?_⟩) (ended_act_dns hp)
      · simp only [act, hsnd, actConnected]
        (repeat' split) <;> simp [handleDisconnect, hcs, hx]
      · intro h0
        simp only [act, hsnd, actConnected]
        (repeat' split) <;> simp [handleDisconnect, e, h0, hx]
      · have := ho.2.2.2 (by simp [hsnd, Snd.idx]) (by simp [hsnd, Snd.idx])
        simp only [act, hsnd, actConnected]
        (repeat' split) <;> simp [handleDisconnect, hsnd, hx, open_, Snd.idx, this]
      · simp only [act, hsnd, actConnected]
        (repeat' split) <;> simp [handleDisconnect, hp, hx]
  case sendCiprxget2 =>
    have hcs := hb (Or.inl (by simp [hsnd, Snd.idx]))
    have e := phase_sendCiprxget2 (s := signs800) d (by decide) (by decide) (by decide)
    refine key _ (fun _ => ?_) ?_ (fun ho => ?_) (ended_act_dns hp)
    · simp only [act, hsnd, actCiprxget2]
      (repeat' split) <;> simp_all [handleDisconnect]
    · intro h0
      simp only [act, hsnd, actCiprxget2]
      (repeat' split) <;> simp_all [handleDisconnect]
    · have := ho.2.2.2 (by simp [hsnd, Snd.idx]) (by simp [hsnd, Snd.idx])
      clear hs key h hb e
      simp only [act, hsnd, actCiprxget2]
      (repeat' split) <;> simp_all [handleDisconnect, open_, Snd.idx]
  case receiving =>
    have hcs := hb (Or.inl (by simp [hsnd, Snd.idx]))
    have e := phase_receive (s := signs800) d
    refine key _ (fun _ => ?_) ?_ (fun ho => ?_) (ended_act_dns hp)
    · simp only [act, hsnd, actReceiving]
      (repeat' split) <;> simp_all
    · intro h0
      simp only [act, hsnd, actReceiving]
      (repeat' split) <;> simp_all
    · have := ho.2.2.2 (by simp [hsnd, Snd.idx]) (by simp [hsnd, Snd.idx])
      clear hs key h hb e
      simp only [act, hsnd, actReceiving]
      (repeat' split) <;> simp_all [open_, Snd.idx]
  case ipUnconnected =>
    cases hx : d.disconnectPending <;> cases hy : d.connectPending
    all_goals
      refine key _ (fun _ => ?_) ?_ (fun ho => absurd hsnd ho.2.2.1) (ended_act_dns hp)
      · simp [act, hsnd, hx, handleDisconnect, handleConnect, hy]
      · intro h0; simp [act, hsnd, hx, handleDisconnect, handleConnect, hy, h0]
  case sendCipclose =>
    refine key _ (fun _ => ?_) ?_ (fun ho => ⟨?_, ?_⟩) (ended_act_dns hp)
    · simp only [act, hsnd]; split <;> simp
    · intro h0; simp only [act, hsnd]; split <;> simp [h0, phase_cmd, signs800]
    · simp only [act, hsnd]; split <;> simp [open_, Snd.idx]
    · simp only [act, hsnd]; split <;> simp [hp]
  case finalizeDisconnect =>
    refine key _ ?_ ?_ ?_ (ended_act_dns hp)
    · simp [act, hsnd, began, hp, Snd.idx]
    · intro h0; simp [act, hsnd, h0]
    · simp [hsnd, open_, Snd.idx]
  case sendData =>
    have hcs := hb (Or.inl (by simp [hsnd, Snd.idx]))
    refine key _ (fun _ => ?_) ?_ (fun ho => ⟨?_, ?_⟩) (ended_act_dns hp)
    · simp [act, hsnd, hcs]
    · intro h0; simp [act, hsnd, h0]
    · have := ho.2.2.2 (by simp [hsnd, Snd.idx]) (by simp [hsnd, Snd.idx])
      simp [act, hsnd, open_, Snd.idx, this]
    · simp [act, hsnd, hp]
  case sendCiprxget4 =>
    have hcs := hb (Or.inl (by simp [hsnd, Snd.idx]))
    refine key _ (fun _ => ?_) ?_ (fun ho => ⟨?_, ?_⟩) (ended_act_dns hp)
    · simp [act, hsnd, hcs]
    · intro h0; simp [act, hsnd, h0, phase_cmd, signs800]
    · have := ho.2.2.2 (by simp [hsnd, Snd.idx]) (by simp [hsnd, Snd.idx])
      simp [act, hsnd, open_, Snd.idx, this]
    · simp [act, hsnd]
  all_goals
    have hcs := hb (Or.inl (by simp [hsnd, Snd.idx]))
    refine key _ (fun _ => ?_) ?_ ?_ (ended_act_dns hp)
    · simp [act, hsnd, hcs]
    · intro h0; simp [act, hsnd, h0, phase_cmd, signs800]
    · simp [act, hsnd, open_, Snd.idx, hp]

/-- A question unrelated to the connection. -/
theorem Ended.ask {d e : D} (h : Ended d) (hw : d.wait = none)
    (h1 : e.snd = d.snd) (h2 : e.cs = d.cs) (h3 : e.rep = .csq ∨ e.rep = .requestID)
    (h6 : phases.after e.trace = phases.after d.trace) (h7 : e.ipConnected = d.ipConnected) : Ended e := by
  refine ⟨fun hx => ?_, ?_⟩
  · rw [h2]
    refine h.busy ?_
    rcases hx with hx | hx | hx
    · exact Or.inl (by rw [← h1]; exact hx)
    · rcases h3 with h3 | h3 <;> rw [h3] at hx <;> simp at hx
    · rcases h3 with h3 | h3 <;> rw [h3] at hx <;> simp at hx
  · rw [h6]
    rcases h.ended with h | ⟨a, _, _, c⟩
    · exact Or.inl h
    · refine Or.inr ⟨by rw [h2]; exact a, ?_, ?_, ?_⟩
      · intro hx; rcases h3 with h3 | h3 <;> rw [h3] at hx <;> simp at hx
      · rcases h3 with h3 | h3 <;> rw [h3] <;> simp
      · rw [h1, h7]
        rcases c with c | ⟨_, _, _, _, c⟩
        · exact Or.inl c
        · simp [hw] at c

theorem ended_core (p : Platform) : Core p Ended where
  reset d h hr _ := by
    have e0 : (handleReset d).cs = d.cs := by
      unfold handleReset; dsimp only; split <;> simp [SimDev.connect, ipConnect]
      (repeat' split) <;> simp
    have e1 : (handleReset d).snd = if d.snd.idx < Snd.sendCiicr.idx ∨ d.snd.idx > Snd.sendCipshut.idx then
        Snd.notConnected else Snd.sendCipshut := by
      unfold handleReset; dsimp only; split <;> simp [SimDev.connect, ipConnect]
      (repeat' split) <;> simp_all
    have e2 : (handleReset d).rep = .okReply := by
      unfold handleReset; dsimp only; split <;> simp [SimDev.connect, ipConnect]
      (repeat' split) <;> simp
    have e3 : phases.after (handleReset d).trace = phases.after d.trace := by
      unfold handleReset; dsimp only; split <;> simp [SimDev.connect, ipConnect]
      (repeat' split) <;> simp
    refine ⟨?_, ?_⟩
    · intro hx
      rw [e0]
      rw [e1, e2] at hx
      refine h.busy ?_
      rcases hx with hx | hx
      · split at hx
        · simp [Snd.idx] at hx
        · rename_i hn
          left
          have : Snd.sendCiicr.idx ≤ d.snd.idx := Nat.le_of_not_lt fun hy => hn (Or.inl hy)
          exact Nat.le_trans (by decide) this
      · simp at hx
    · rw [e3]
      rcases h.ended with h | ⟨a, _, _, c⟩
      · exact Or.inl h
      · right
        refine ⟨by rw [e0]; exact a, by rw [e2]; simp, by rw [e2]; simp, Or.inl ?_⟩
        rcases c with c | ⟨_, _, c, _⟩
        · rw [e1, if_neg]
          · simp [open_, Snd.idx]
          · intro hx
            rcases hx with hx | hx
            · exact absurd (Nat.lt_of_lt_of_le hx (Nat.le_trans (by decide) c.1)) (Nat.lt_irrefl _)
            · exact absurd (Nat.lt_of_lt_of_le hx c.2.1) (Nat.lt_irrefl _)
        · rw [hr] at c; simp at c
  line d s m l _ h hr _ hl _ := by
    obtain ⟨a1, a2, a4, a3⟩ := parse_shape p (d.gotLine s m d.rep l)
    constructor
    · intro hx
      rcases a1 with a1 | a1
      · rw [a1]
        refine h.busy ?_
        rcases a3 with a3 | ⟨a3, _⟩ | ⟨a3, _⟩
        · rw [a3] at hx
          rcases a2 with a2 | a2
          · rw [a2] at hx; exact hx
          · rw [a2] at hx
            rcases hx with hx | hx | hx
            · exact Or.inl hx
            · simp at hx
            · simp at hx
        · exact Or.inr (Or.inl a3)
        · exact Or.inr (Or.inr a3)
      · exact a1
    · rw [parseLine_trace, Observer.after_snoc, phase_line]
      cases he : signs800.ends (phases.after d.trace) l
      · rw [if_neg (by simp)]
        rcases h.ended with h | ⟨b1, b2, b2', b3⟩
        · exact Or.inl h
        · right
          have hcl : begins b!"0, CLOSED" l = false := by
            simp [Signs.ends, signs800, beginsAny] at he; exact he.1
          have hcl := has_of_begins hl (by decide) hcl
          have a4 := a4 hcl b2'
          refine ⟨?_, ?_, ?_, ?_⟩
          · rcases a1 with a1 | a1
            · rw [a1]; exact b1
            · exact a1
          · rw [a4]
            intro hx
            rcases a2 with a2 | a2
            · exact b2 (by rw [a2] at hx; exact hx)
            · rw [a2] at hx; simp at hx
          · rcases a2 with a2 | a2
            · rw [a2]; exact b2'
            · rw [a2]; simp
          · rw [a4]
            rcases b3 with b3 | ⟨b3, b4, b5, b6, b7⟩
            · left
              rcases a3 with a3 | ⟨_, a3⟩ | ⟨a5, a3⟩
              · rw [a3]; exact b3
              · rw [a3]; simp [open_, Snd.idx]
              · rw [a3]
                have : d.ipConnected = true := b2 a5
                simp [open_, Snd.idx, this]
            · right
              simp [Signs.ends, signs800, beginsAny, b6] at he
              have hee : isError (d.gotLine s m d.rep l) = false := by
                unfold isError
                rw [has_of_begins hl (by decide) he.2.2.2.2, has_of_begins hl (by decide) he.2.2.2.1,
                  has_of_begins hl (by decide) he.2.2.1]
                rfl
              obtain ⟨c1, c2, c3, c4⟩ := parse_waiting p (d := d.gotLine s m d.rep l) b4 b5
                (waits_of_begins hl (by decide) b7 he.2.1) hcl hee
              exact ⟨by rw [c2]; exact b3, c1, c3, b6, by rw [c4]; exact b7⟩
      · exact Or.inl (by simp)
  drop d h _ _ _ := h.same (h6 := by simp)
  csq d h _ hw _ _ _ _ := h.ask hw (by simp) (by simp) (Or.inl rfl)
    (by simp [phase_other (s := signs800) (w := b!"AT+CSQ") (by decide) (by decide) (by decide)]) (by simp)
  ident d h _ hw _ _ _ := h.ask hw (by simp) (by simp) (Or.inr rfl)
    (by simp [phase_sendIDRequest (s := signs800) d iccidCommand (by decide)]) (by simp)
  identNone d h hq :=
    h.same (by simp) (by simp) (by simp) (by simp) (by simp)
      (by rw [phase_sendIDRequest (s := signs800) d iccidCommand (by decide)]) (by simp)
  act d h hr hw hp _ := act_ended h hr hw hp

end Verif.Sim800
