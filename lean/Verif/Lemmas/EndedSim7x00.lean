import Verif.Lemmas.Ended
import Verif.Lemmas.Stages

/-! The SIM7x00 driver is idle only after the modem said that the connection has ended. -/

namespace Verif.Sim7x00

open Dev Spec

abbrev phases : Observer LinkPhase := signs7x00.phase

/-- The connection has not ended: where the driver may be. -/
structure Alive (q : LinkPhase) (d : D) : Prop where
  cs : d.cs ≠ .notConnected
  rep : d.rep ≠ .netopen
  snd : (Snd.sendCipopen.idx ≤ d.snd.idx ∧ d.snd.idx ≤ Snd.sendNetclose.idx) ∨ d.snd = .serialError ∨
    (d.snd = .finalizeDisconnect ∧ d.rep = .okReply ∧
      (d.resetPending = true ∨ (q = .closing ∧ d.wait = some b!"+NETCLOSE: 0"))) ∨
    ((d.snd = .notConnected ∨ d.snd = .connecting) ∧ d.rep = .okReply ∧
      (d.resetPending = true ∨ (q = .restart ∧ d.wait = some b!"RDY")))

/-- The driver has begun to connect. -/
def began (s : Snd) (r : Rep) : Prop := Snd.sendCgsockcont.idx ≤ s.idx ∨ r = .netopen ∨ r = .ciprxget2

structure Ended (d : D) : Prop where
  busy : began d.snd d.rep → d.cs ≠ .notConnected
  ended : phases.after d.trace = .shut ∨ Alive (phases.after d.trace) d

theorem Ended.same {d e : D} (h : Ended d) (h1 : e.snd = d.snd := by rfl)
    (h2 : e.cs = d.cs := by rfl) (h3 : e.rep = d.rep := by rfl)
    (h4 : e.resetPending = d.resetPending := by rfl) (h5 : e.wait = d.wait := by rfl)
    (h6 : phases.after e.trace = phases.after d.trace := by rfl) : Ended e := by
  refine ⟨by rw [h1, h2, h3]; exact h.busy, ?_⟩
  rw [h6]
  rcases h.ended with h | ⟨a, b, c⟩
  · exact Or.inl h
  · exact Or.inr ⟨by rw [h2]; exact a, by rw [h3]; exact b, by rw [h1, h3, h4, h5]; exact c⟩

theorem ended_calls : Calls Ended where
  io _ _ _ _ _ h := h.same
  isOpen _ _ h := h.same
  host _ _ _ _ h := h.same
  conn _ h _ _ := h.same (h6 := by simp [log])
  disc0 _ h _ := h.same (h6 := by simp [log])
  disc _ h _ := h.same (h6 := by simp [log])
  write0 _ h _ := h.same (h6 := by simp [log])
  write _ _ h _ := h.same (h6 := by simp [log])
  read _ _ h := h.same (h6 := by simp [log])
  rssi _ h := h.same
  userTx _ _ _ _ h := h.same (h6 := by simp)
  userRx _ _ _ _ h := h.same (h6 := by simp)

theorem ended_own : Own Ended where
  reset _ _ := ⟨by simp [SimDev.resetStates, began, Snd.idx], Or.inl (by simp [SimDev.resetStates])⟩
  ext _ _ h := h.same
  lock _ h _ _ := h.same
  unlock _ h := h.same

/-- What a line does to the states. -/
theorem parse_shape (p : Platform) (d : D) :
    ((parseLine p d).1.cs = d.cs ∨ (parseLine p d).1.cs ≠ .notConnected) ∧
    ((parseLine p d).1.rep = d.rep ∨ (parseLine p d).1.rep = .okReply) ∧
    ((parseLine p d).1.snd = d.snd ∨ d.rep = .netopen ∨ d.rep = .ciprxget2 ∧ (parseLine p d).1.snd = .receiving) := by
  have hw : ((parseWait d).1.cs = d.cs ∨ (parseWait d).1.cs ≠ .notConnected) ∧
      (parseWait d).1.rep = d.rep ∧ (parseWait d).1.snd = d.snd := by
    unfold parseWait
    (repeat' split) <;> simp
  have hr : ∀ e : D, ((parseReply p e).1.cs = e.cs ∨ (parseReply p e).1.cs ≠ .notConnected) ∧
      ((parseReply p e).1.rep = e.rep ∨ (parseReply p e).1.rep = .okReply) ∧
      ((parseReply p e).1.snd = e.snd ∨ e.rep = .netopen ∨ e.rep = .ciprxget2 ∧ (parseReply p e).1.snd = .receiving) := by
    intro e
    have hd : e.parseDnsReply.1.cs = e.cs ∨ e.parseDnsReply.1.cs ≠ .notConnected := by
      unfold SimDev.parseDnsReply
      dsimp only
      (repeat' split) <;> simp
    unfold parseReply
    split <;> rename_i hrep <;> (try dsimp only) <;> (repeat' split) <;> simp_all
  have hc : ∀ e : D, (checkState e).cs = e.cs ∧ (checkState e).rep = e.rep ∧ (checkState e).snd = e.snd := by
    intro e
    unfold checkState
    split <;> simp
  unfold parseLine
  dsimp only
  obtain ⟨a1, a2, a3⟩ := hw
  obtain ⟨b1, b2, b3⟩ := hr (parseWait d).1
  obtain ⟨c1, c2, c3⟩ := hc (parseReply p (parseWait d).1).1
  rw [a2] at b2 b3
  rw [a3] at b3
  split
  · exact ⟨a1, Or.inl a2, Or.inl a3⟩
  · have : (parseReply p (parseWait d).1).1.cs = d.cs ∨ (parseReply p (parseWait d).1).1.cs ≠ .notConnected := by
      rcases b1 with b1 | b1
      · rw [b1]; exact a1
      · exact Or.inr b1
    split
    · exact ⟨this, b2, b3⟩
    · rw [c1, c2, c3]
      exact ⟨this, b2, b3⟩

/-- A line other than the awaited one while nothing else is expected. -/
theorem parse_waiting (p : Platform) {d : D} (hrep : d.rep = .okReply) (hw : d.wait ≠ none)
    (hm : d.waitMatches = false) (hc : d.has b!"+IPCLOSE: 0," = false) :
    (parseLine p d).1.rep = .okReply ∧ (parseLine p d).1.snd = d.snd ∧
    ((parseLine p d).1.resetPending = true ∨ (parseLine p d).1.wait = d.wait) := by
  unfold parseLine parseWait
  simp only [hw, hm, ne_eq, not_false_eq_true, if_true, Bool.false_eq_true, if_false]
  by_cases he : d.has b!"ERROR" = true
  · simp [he, hrep]
  · simp only [he, parseReply, hrep]
    unfold checkState SimDev.checkConnectionState
    simp only [Bool.false_eq_true, if_false]
    by_cases h1 : Snd.connected.idx ≤ d.snd.idx
    · by_cases h2 : d.has b!"+CIPRXGET: 1,0" = true <;> simp [h1, h2, hc, hrep]
    · simp [h1, hrep]

/-- The state machine keeps to its phases. -/
theorem act_ended {d : D} (h : Ended d) (hr : d.resetPending = false)
    (hw : d.wait = none) (hp : d.rep = .okReply) : Ended (act d) := by
  have hs : phases.after d.trace = .shut ∨
      (Snd.sendCipopen.idx ≤ d.snd.idx ∧ d.snd.idx ≤ Snd.sendNetclose.idx) ∨ d.snd = .serialError := by
    rcases h.ended with h | ⟨_, _, hs⟩
    · exact Or.inl h
    · right
      rcases hs with hs | hs | ⟨_, _, hs⟩ | ⟨_, _, hs⟩
      · exact Or.inl hs
      · exact Or.inr hs
      · simp [hr, hw] at hs
      · simp [hr, hw] at hs
  have hb := h.busy
  -- a step after which no connection is open, or that happens while one is open
  have key : ∀ e : D, (began e.snd e.rep → e.cs ≠ .notConnected) →
      (e.rep = .netopen → d.snd = .sendNetopen) →
      (phases.after d.trace = .shut → phases.after e.trace = .shut) →
      ((Snd.sendCipopen.idx ≤ d.snd.idx ∧ d.snd.idx ≤ Snd.sendNetclose.idx) →
        Snd.sendCipopen.idx ≤ e.snd.idx ∧ e.snd.idx ≤ Snd.sendNetclose.idx) → d.snd ≠ .serialError → Ended e := by
    intro e h1 h2 h3 h4 h5
    refine ⟨h1, ?_⟩
    rcases hs with hs | hs | hs
    · exact Or.inl (h3 hs)
    · have := h4 hs
      refine Or.inr ⟨h1 (Or.inl ?_), fun hx => ?_, Or.inl this⟩
      · exact Nat.le_trans (by decide) this.1
      · rw [h2 hx] at hs; simp [Snd.idx] at hs
    · exact absurd hs h5
  cases hsnd : d.snd
  case serialError => simp only [act, hsnd]; exact h
  case sendCipopen =>
    have hcs := hb (Or.inl (by simp [hsnd, Snd.idx]))
    have e1 : (act d).cs = d.cs := by simp only [act, hsnd, actCipopen]; split <;> simp
    refine ⟨fun _ => by rw [e1]; exact hcs, Or.inr ⟨by rw [e1]; exact hcs, ?_, Or.inl ?_⟩⟩
    · simp [act, hsnd, actCipopen]
    · simp [act, hsnd, actCipopen, Snd.idx]
  case sendNetclose =>
    refine ⟨by simp [act, hsnd], ?_⟩
    by_cases h0 : phases.after d.trace = .shut
    · left
      simp [act, hsnd, phase_cmd, signs7x00, h0]
    · right
      refine ⟨by simp [act, hsnd], by simp [act, hsnd, hp], ?_⟩
      right; right; left
      refine ⟨by simp [act, hsnd], by simp [act, hsnd, hp], Or.inr ⟨?_, by simp [act, hsnd]⟩⟩
      simp [act, hsnd, phase_cmd, signs7x00, h0]
  case notConnected =>
    refine key _ ?_ ?_ ?_ ?_ (by simp [hsnd])
    · cases hx : d.connectPending <;> simp [act, hsnd, handleConnect, began, hx, hp, Snd.idx]
    · simp [act, hsnd, hp]
    · intro h0; simp [act, hsnd, h0]
    · simp [hsnd, Snd.idx]
  case sendCgsockcont =>
    have hcs := hb (Or.inl (by simp [hsnd, Snd.idx]))
    refine key _ (fun _ => ?_) ?_ ?_ ?_ (by simp [hsnd])
    · simp only [act, hsnd, actCgsockcont]; split <;> simp [hcs]
    · simp only [act, hsnd, actCgsockcont]; split <;> simp [hp]
    · intro h0; simp only [act, hsnd, actCgsockcont]; split <;> simp [phase_cmd, signs7x00, h0]
    · simp [hsnd, Snd.idx]
  case sendDnsQuery =>
    have hcs := hb (Or.inl (by simp [hsnd, Snd.idx]))
    have e := phase_sendDnsQuery (s := signs7x00) d (by decide) (by decide) (by decide)
    refine key _ (fun _ => ?_) ?_ ?_ ?_ (by simp [hsnd])
    · simp only [act, hsnd]; split <;> simp [hcs]
    · simp only [act, hsnd]; split <;> simp [hp]
    · intro h0; simp only [act, hsnd]; split <;> simp [e, h0]
    · simp [hsnd, Snd.idx]
  case sendNetopen =>
    have hcs := hb (Or.inl (by simp [hsnd, Snd.idx]))
    cases hx : d.disconnectPending
    · refine key _ (fun _ => ?_) ?_ ?_ ?_ (by simp [hsnd])
      · simp [act, hsnd, hx, hcs]
      · simp [act, hsnd, hx]
      · intro h0; simp [act, hsnd, hx, phase_cmd, signs7x00, h0]
      · simp [hsnd, Snd.idx]
    · refine key _ (fun _ => ?_) ?_ ?_ ?_ (by simp [hsnd])
      · simp [act, hsnd, hx, handleDisconnect, hcs]
      · simp [act, hsnd, hx, handleDisconnect]
      · intro h0; simp [act, hsnd, hx, handleDisconnect, h0]
      · simp [hsnd, Snd.idx]
  case connected =>
    have hcs := hb (Or.inl (by simp [hsnd, Snd.idx]))
    have e := phase_prepareSending (s := signs7x00) d true (by decide) (by decide) (by decide)
    cases hx : d.disconnectPending
    all_goals
      refine key _ (fun _ => ?_) ?_ ?_ (fun _ => ?_) (by simp [hsnd])
      · simp only [act, hsnd, actConnected]
        (repeat' split) <;> simp [handleDisconnect, hcs, hx]
      · simp only [act, hsnd, actConnected]
        (repeat' split) <;> simp [handleDisconnect, hp, hx]
      · intro h0
        simp only [act, hsnd, actConnected]
        (repeat' split) <;> simp [handleDisconnect, e, h0, hx]
      · simp only [act, hsnd, actConnected]
        (repeat' split) <;> simp [handleDisconnect, hsnd, hx, Snd.idx]
  case sendCiprxget2 =>
    have hcs := hb (Or.inl (by simp [hsnd, Snd.idx]))
    have e := phase_sendCiprxget2 (s := signs7x00) d (by decide) (by decide) (by decide)
    refine key _ (fun _ => ?_) ?_ ?_ (fun _ => ?_) (by simp [hsnd])
    · simp only [act, hsnd, actCiprxget2]
      (repeat' split) <;> simp_all [handleDisconnect]
    · simp only [act, hsnd, actCiprxget2]
      (repeat' split) <;> simp_all [handleDisconnect]
    · intro h0
      simp only [act, hsnd, actCiprxget2]
      (repeat' split) <;> simp_all [handleDisconnect]
    · simp only [act, hsnd, actCiprxget2]
      (repeat' split) <;> simp_all [handleDisconnect, Snd.idx]
  case receiving =>
    have hcs := hb (Or.inl (by simp [hsnd, Snd.idx]))
    have e := phase_receive (s := signs7x00) d
    refine key _ (fun _ => ?_) ?_ ?_ (fun _ => ?_) (by simp [hsnd])
    · simp only [act, hsnd, actReceiving]
      (repeat' split) <;> simp_all
    · simp only [act, hsnd, actReceiving]
      (repeat' split) <;> simp_all
    · intro h0
      simp only [act, hsnd, actReceiving]
      (repeat' split) <;> simp_all
    · simp only [act, hsnd, actReceiving]
      (repeat' split) <;> simp_all [Snd.idx]
  case ipUnconnected =>
    cases hx : d.disconnectPending <;> cases hy : d.connectPending
    all_goals
      refine key _ (fun _ => ?_) ?_ ?_ (fun _ => ?_) (by simp [hsnd])
      · simp [act, hsnd, hx, handleDisconnect, handleConnect, hy]
      · simp [act, hsnd, hx, handleDisconnect, handleConnect, hy, hp]
      · intro h0; simp [act, hsnd, hx, handleDisconnect, handleConnect, hy, h0]
      · simp [act, hsnd, hx, handleDisconnect, handleConnect, hy, Snd.idx]
  case finalizeDisconnect =>
    refine key _ ?_ ?_ ?_ ?_ (by simp [hsnd])
    · simp [act, hsnd, began, hp, Snd.idx]
    · simp [act, hsnd, hp]
    · intro h0; simp [act, hsnd, h0]
    · simp [hsnd, Snd.idx]
  case dnsError =>
    simp only [act, hsnd]; exact h
  case connecting =>
    refine key _ ?_ ?_ ?_ ?_ (by simp [hsnd])
    · simp [act, hsnd]
    · simp [act, hsnd, hp]
    · intro h0; simp [act, hsnd, h0, phase_cmd, signs7x00]
    · simp [hsnd, Snd.idx]
  all_goals
    have hcs := hb (Or.inl (by simp [hsnd, Snd.idx]))
    refine key _ (fun _ => ?_) ?_ ?_ ?_ (by simp [hsnd])
    · simp [act, hsnd, hcs]
    · simp [act, hsnd, hp]
    · intro h0; simp [act, hsnd, h0, phase_cmd, signs7x00]
    · simp [act, hsnd, Snd.idx]

/-- A question unrelated to the connection. -/
theorem Ended.ask {d e : D} (h : Ended d) (hr : d.resetPending = false) (hw : d.wait = none)
    (h1 : e.snd = d.snd) (h2 : e.cs = d.cs) (h3 : e.rep = .csq ∨ e.rep = .requestID)
    (h6 : phases.after e.trace = phases.after d.trace) : Ended e := by
  refine ⟨fun hx => ?_, ?_⟩
  · rw [h2]
    refine h.busy ?_
    rcases hx with hx | hx | hx
    · exact Or.inl (by rw [← h1]; exact hx)
    · rcases h3 with h3 | h3 <;> rw [h3] at hx <;> simp at hx
    · rcases h3 with h3 | h3 <;> rw [h3] at hx <;> simp at hx
  · rw [h6]
    rcases h.ended with h | ⟨a, _, c⟩
    · exact Or.inl h
    · refine Or.inr ⟨by rw [h2]; exact a, ?_, ?_⟩
      · rcases h3 with h3 | h3 <;> rw [h3] <;> simp
      · rw [h1]
        rcases c with c | c | ⟨_, _, c⟩ | ⟨_, _, c⟩
        · exact Or.inl c
        · exact Or.inr (Or.inl c)
        · simp [hr, hw] at c
        · simp [hr, hw] at c

theorem ended_sections (p : Platform) : Sections p Ended where
  fail d h _ := by
    refine ⟨fun hx => h.busy ?_, ?_⟩
    · rcases hx with hx | hx
      · simp [Snd.idx] at hx
      · exact Or.inr hx
    · rcases h.ended with h | ⟨a, b, _⟩
      · exact Or.inl h
      · exact Or.inr ⟨a, b, Or.inr (Or.inl rfl)⟩
  reset d h hr _ := by
    have e1 : (handleReset d).snd = .notConnected ∨ (handleReset d).snd = .connecting := by
      simp only [handleReset]; split <;> simp
    refine ⟨?_, ?_⟩
    · intro hx
      rcases hx with hx | hx
      · rcases e1 with e1 | e1 <;> simp [e1, Snd.idx] at hx
      · simp [handleReset] at hx
    · rcases h.ended with h | ⟨a, b, _⟩
      · exact Or.inl (by simp [handleReset, h, phase_cmd, signs7x00])
      · by_cases h0 : phases.after d.trace = .shut
        · exact Or.inl (by simp [handleReset, h0, phase_cmd, signs7x00])
        · refine Or.inr ⟨by simp [handleReset, a], by simp [handleReset], Or.inr (Or.inr (Or.inr ⟨e1, by simp [handleReset], Or.inr ⟨?_, by simp [handleReset]⟩⟩))⟩
          simp [handleReset, phase_cmd, signs7x00, h0]
  line d s m l _ h hr _ hl _ := by
    obtain ⟨a1, a2, a3⟩ := parse_shape p (d.gotLine s m d.rep l)
    constructor
    · intro hx
      rcases a1 with a1 | a1
      · rw [a1]
        refine h.busy ?_
        rcases a3 with a3 | a3 | ⟨a3, _⟩
        · rw [a3] at hx
          rcases a2 with a2 | a2
          · rw [a2] at hx; exact hx
          · rw [a2] at hx
            rcases hx with hx | hx | hx
            · exact Or.inl hx
            · simp at hx
            · simp at hx
        · exact Or.inr (Or.inl a3)
        · exact Or.inr (Or.inr a3)
      · exact a1
    · rw [parseLine_trace, Observer.after_snoc, phase_line]
      cases he : signs7x00.ends (phases.after d.trace) l
      · rw [if_neg (by simp)]
        rcases h.ended with h | ⟨b1, b2, b3⟩
        · exact Or.inl h
        · right
          have hi : begins b!"+IPCLOSE: 0," l = false := by
            simp [Signs.ends, signs7x00, beginsAny] at he; exact he.1.1
          refine ⟨?_, ?_, ?_⟩
          · rcases a1 with a1 | a1
            · rw [a1]; exact b1
            · exact a1
          · rcases a2 with a2 | a2
            · rw [a2]; exact b2
            · rw [a2]; simp
          · have hk : ∀ w, (0 : Byte) ∉ w → d.wait = some w → begins w l = false → d.rep = .okReply →
                (parseLine p (d.gotLine s m d.rep l)).1.rep = .okReply ∧
                (parseLine p (d.gotLine s m d.rep l)).1.snd = d.snd ∧
                ((parseLine p (d.gotLine s m d.rep l)).1.resetPending = true ∨
                  (parseLine p (d.gotLine s m d.rep l)).1.wait = d.wait) := by
              intro w h0 hw hb ho
              exact parse_waiting p ho (by simp [hw]) (waits_of_begins hl h0 hw hb) (has_of_begins hl (by decide) hi)
            rcases b3 with b3 | b3 | ⟨b3, b4, b5⟩ | ⟨b3, b4, b5⟩
            · left
              rcases a3 with a3 | a3 | ⟨_, a3⟩
              · rw [a3]; exact b3
              · exact absurd a3 b2
              · rw [a3]; decide
            · rcases a3 with a3 | a3 | ⟨_, a3⟩
              · rw [a3]; exact Or.inr (Or.inl b3)
              · exact absurd a3 b2
              · left; rw [a3]; decide
            · rcases b5 with b5 | ⟨b5, b6⟩
              · rw [hr] at b5; simp at b5
              · obtain ⟨c1, c2, c3⟩ := hk _ (by decide) b6 (by
                  simp [Signs.ends, signs7x00, beginsAny, b5] at he; exact he.2) b4
                refine Or.inr (Or.inr (Or.inl ⟨by rw [c2]; exact b3, c1, ?_⟩))
                rcases c3 with c3 | c3
                · exact Or.inl c3
                · exact Or.inr ⟨b5, by rw [c3]; exact b6⟩
            · rcases b5 with b5 | ⟨b5, b6⟩
              · rw [hr] at b5; simp at b5
              · obtain ⟨c1, c2, c3⟩ := hk _ (by decide) b6 (by
                  simp [Signs.ends, signs7x00, beginsAny, b5] at he; exact he.2) b4
                refine Or.inr (Or.inr (Or.inr ⟨by rw [c2]; exact b3, c1, ?_⟩))
                rcases c3 with c3 | c3
                · exact Or.inl c3
                · exact Or.inr ⟨b5, by rw [c3]; exact b6⟩
      · exact Or.inl (by simp)
  drop d h _ _ _ := h.same (h6 := by simp)
  csq d h hr hw _ _ _ _ := h.ask hr hw (by simp) (by simp) (Or.inl rfl)
    (by simp [phase_other (s := signs7x00) (w := b!"AT+CSQ") (by decide) (by decide) (by decide)])
  ident d h hr hw _ _ _ := h.ask hr hw (by simp) (by simp) (Or.inr rfl)
    (by simp [phase_sendIDRequest (s := signs7x00) d iccidCommand (by decide)])
  identNone d h hq :=
    h.same (by simp) (by simp) (by simp) (by simp) (by simp)
      (by rw [phase_sendIDRequest (s := signs7x00) d iccidCommand (by decide)])
  act d h hr hw hp _ := act_ended h hr hw hp

end Verif.Sim7x00
