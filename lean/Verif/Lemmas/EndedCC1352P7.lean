import Verif.Lemmas.Ended
import Verif.Lemmas.Stages

/-! The CC1352P7 driver is idle only after the modem said that the connection has ended. -/

namespace Verif.CC1352P7

open Dev Spec

abbrev phases : Observer LinkPhase := signsCC.phase

/-- A connection is open: where the driver may be. -/
def open_ (s : Snd) (ip : Bool) : Prop :=
  Snd.finalizeConnect.idx ≤ s.idx ∧ s.idx ≤ Snd.sendCipclose.idx ∧
    (Snd.connected.idx ≤ s.idx → s.idx ≤ Snd.receiving.idx → ip = true)

/-- The connection has not ended: where the driver may be. -/
structure Alive (q : LinkPhase) (d : D) : Prop where
  cs : d.cs ≠ .notConnected
  rep : d.rep = .parseStateCiprecvdata → d.ipConnected = true
  snd : open_ d.snd d.ipConnected ∨ d.snd = .serialError ∨
    (d.snd = .finalizeDisconnect ∧ (d.resetPending = true ∨ (q = .closing ∧ d.wait = some okStr)))

/-- The driver has begun to connect. -/
def began (s : Snd) (r : Rep) (b : Bool) : Prop :=
  Snd.sendCipstart.idx ≤ s.idx ∨ r = .parseStateCiprecvdata ∨ b = true

structure Ended (d : D) : Prop where
  busy : began d.snd d.rep d.resetPending → d.cs ≠ .notConnected
  ended : phases.after d.trace = .shut ∨ Alive (phases.after d.trace) d

theorem Ended.same {d e : D} (h : Ended d) (h1 : e.snd = d.snd := by rfl)
    (h2 : e.cs = d.cs := by rfl) (h3 : e.rep = d.rep := by rfl)
    (h4 : e.resetPending = d.resetPending := by rfl) (h5 : e.wait = d.wait := by rfl)
    (h6 : phases.after e.trace = phases.after d.trace := by rfl)
    (h7 : e.ipConnected = d.ipConnected := by rfl) : Ended e := by
  refine ⟨by rw [h1, h2, h3, h4]; exact h.busy, ?_⟩
  rw [h6]
  rcases h.ended with h | ⟨a, b, c⟩
  · exact Or.inl h
  · exact Or.inr ⟨by rw [h2]; exact a, by rw [h3, h7]; exact b, by rw [h1, h4, h5, h7]; exact c⟩

theorem ended_calls : Calls Ended where
  io _ _ _ _ _ h := h.same
  isOpen _ _ h := h.same
  host _ _ _ _ h := h.same
  conn _ h _ _ := h.same (h6 := by simp [log])
  disc0 _ h _ := h.same (h6 := by simp [log])
  disc _ h _ := h.same (h6 := by simp [log])
  write0 _ h _ := h.same (h6 := by simp [log])
  write _ _ h _ := h.same (h6 := by simp [log])
  read _ _ h := h.same (h6 := by simp [log])
  rssi _ h := h.same
  userTx _ _ _ _ h := h.same (h6 := by simp)
  userRx _ _ _ _ h := h.same (h6 := by simp)

theorem ended_own : Own Ended where
  reset _ _ := ⟨by simp [resetStates, began, Snd.idx], Or.inl (by simp [resetStates])⟩
  ext _ _ h := h.same

/-- What a line does to the states. -/
theorem parse_shape (p : Platform) (d : D) :
    ((parseLine p d).1.cs = d.cs ∧ (parseLine p d).1.resetPending = d.resetPending ∨
      (parseLine p d).1.cs ≠ .notConnected) ∧
    ((parseLine p d).1.rep = d.rep ∨ (parseLine p d).1.rep = .okReply) ∧
    ((parseLine p d).1.snd = d.snd ∨ d.rep = .parseStateCiprecvdata ∧ (parseLine p d).1.snd = .receiving) ∧
    (d.waitMatches = false → (parseLine p d).1.resetPending = true ∨ (parseLine p d).1.wait = d.wait) ∧
    (d.has b!"CLOSED" = false → (parseLine p d).1.ipConnected = d.ipConnected) := by
  have hw : ∀ e : D, (parseWait e).rep = e.rep ∧ (parseWait e).snd = e.snd ∧ (parseWait e).line = e.line ∧
      (parseWait e).cs = e.cs ∧ (e.waitMatches = false → (parseWait e).wait = e.wait) ∧
      (parseWait e).ipConnected = e.ipConnected ∧ (parseWait e).resetPending = e.resetPending := by
    intro e
    unfold parseWait
    split
    · rename_i h; exact ⟨rfl, rfl, rfl, rfl, fun hx => by simp [h] at hx, rfl, rfl⟩
    · exact ⟨rfl, rfl, rfl, rfl, fun _ => rfl, rfl, rfl⟩
  have hr : ∀ e : D, ((parseReply p e).rep = e.rep ∨ (parseReply p e).rep = .okReply) ∧
      ((parseReply p e).snd = e.snd ∨ e.rep = .parseStateCiprecvdata ∧ (parseReply p e).snd = .receiving) ∧
      (parseReply p e).line = e.line ∧ (parseReply p e).cs = e.cs ∧ (parseReply p e).wait = e.wait ∧
      (parseReply p e).ipConnected = e.ipConnected ∧ (parseReply p e).resetPending = e.resetPending := by
    intro e
    have hm : ∀ x : D, (parseMac x).rep = x.rep ∨ (parseMac x).rep = .okReply := by
      intro x; unfold parseMac; split <;> simp
    unfold parseReply
    split <;> rename_i hrep <;> (try dsimp only)
    · split <;> simp_all
    · split
      · refine ⟨Or.inr ?_, Or.inl (by simp), by simp, by simp, by simp, by simp, by simp⟩
        exact (hm { (parseCsq p e).1 with rep := .okReply }).elim (fun h => h) (fun h => h)
      · refine ⟨?_, Or.inl (by simp), by simp, by simp, by simp, by simp, by simp⟩
        rcases hm (parseCsq p e).1 with h | h <;> simp [h]
    · exact ⟨hm e, Or.inl (by simp), by simp, by simp, by simp, by simp, by simp⟩
    · simp
  have hc : ∀ e : D, (checkState p e).rep = e.rep ∧ (checkState p e).cs = e.cs ∧
      (checkState p e).snd = e.snd ∧ (checkState p e).wait = e.wait ∧
      (e.has b!"CLOSED" = false → (checkState p e).ipConnected = e.ipConnected) ∧
      (checkState p e).resetPending = e.resetPending := by
    intro e
    unfold checkState
    (try dsimp only)
    (repeat' split) <;> simp_all
  unfold parseLine
  split
  · exact ⟨Or.inr (by simp), Or.inl rfl, Or.inl rfl, fun _ => Or.inl rfl, fun _ => rfl⟩
  · obtain ⟨b1, b2, b3, b4, b5, b6, b7⟩ := hw d
    obtain ⟨c1, c2, c3, c4, c5, c6, c7⟩ := hr (parseWait d)
    obtain ⟨e1, e2, e3, e4, e5, e6⟩ := hc (parseReply p (parseWait d))
    have el : (parseReply p (parseWait d)).line = d.line := by rw [c3, b3]
    have eh : (parseReply p (parseWait d)).has b!"CLOSED" = d.has b!"CLOSED" := by
      unfold has; rw [el]
    rw [b1] at c1 c2
    rw [b2] at c2
    dsimp only
    refine ⟨Or.inl ⟨by rw [e2, c4, b4], by rw [e6, c7, b7]⟩, by rw [e1]; exact c1, by rw [e3]; exact c2, ?_, ?_⟩
    · intro h2
      right
      rw [e4, c5, b5 h2]
    · intro h
      rw [e5 (by rw [eh]; exact h), c6, b6]

theorem phase_sendCiprcvdata (d : D) : phases.after (sendCiprcvdata d).1.trace = phases.after d.trace := by
  unfold sendCiprcvdata
  dsimp only
  split <;> simp [phase_other (s := signsCC) (w := b!"AT+CIPRECVDATA=") (by decide) (by decide) (by decide)]

theorem act_rst (d : D) : (act d).resetPending = d.resetPending := by
  unfold act
  split <;> (try simp only [actCipstart, actConnected, actCiprecvdata, actReceiving]) <;>
    (repeat' split) <;> simp

/-- The state machine keeps to its phases. -/
theorem act_ended {d : D} (h : Ended d) (hr : d.resetPending = false)
    (hw : d.wait = none) (hp : d.rep = .okReply) : Ended (act d) := by
  have hs : phases.after d.trace = .shut ∨ open_ d.snd d.ipConnected ∨ d.snd = .serialError := by
    rcases h.ended with h | ⟨_, _, hs⟩
    · exact Or.inl h
    · right
      rcases hs with hs | hs | ⟨_, hs⟩
      · exact Or.inl hs
      · exact Or.inr hs
      · simp [hr, hw] at hs
  have hb : Snd.sendCipstart.idx ≤ d.snd.idx → d.cs ≠ .notConnected := fun hx => h.busy (Or.inl hx)
  -- a step after which no connection is open, or that happens while one is open
  have key : (Snd.sendCipstart.idx ≤ (act d).snd.idx ∨ (act d).rep = .parseStateCiprecvdata →
        (act d).cs ≠ .notConnected) →
      (phases.after d.trace = .shut → phases.after (act d).trace = .shut) →
      (open_ d.snd d.ipConnected → open_ (act d).snd (act d).ipConnected ∧
        ((act d).rep = .parseStateCiprecvdata → (act d).ipConnected = true)) → d.snd ≠ .serialError →
      Ended (act d) := by
    intro h1 h3 h4 h5
    refine ⟨?_, ?_⟩
    · intro hx
      rcases hx with hx | hx | hx
      · exact h1 (Or.inl hx)
      · exact h1 (Or.inr hx)
      · rw [act_rst, hr] at hx; simp at hx
    · rcases hs with hs | hs | hs
      · exact Or.inl (h3 hs)
      · obtain ⟨h6, h7⟩ := h4 hs
        exact Or.inr ⟨h1 (Or.inl (Nat.le_trans (by decide) h6.1)), h7, Or.inl h6⟩
      · exact absurd hs h5
  cases hsnd : d.snd
  case serialError => simp only [act, hsnd]; exact h
  case waitReceive => simp only [act, hsnd]; exact h
  case sendCipstart =>
    have hcs := hb (by simp [hsnd, Snd.idx])
    have e1 : (act d).cs = d.cs := by
      simp only [act, hsnd, actCipstart]; (repeat' split) <;> simp
    refine ⟨fun _ => by rw [e1]; exact hcs, Or.inr ⟨by rw [e1]; exact hcs, ?_, Or.inl ?_⟩⟩
    · simp only [act, hsnd, actCipstart]; (repeat' split) <;> simp [hp]
    · simp [act, hsnd, actCipstart, open_, Snd.idx]
  case sendCipclose =>
    refine ⟨by simp [act, hsnd], ?_⟩
    by_cases h0 : phases.after d.trace = .shut
    · left
      simp [act, hsnd, phase_cmd, signsCC, h0]
    · right
      refine ⟨by simp [act, hsnd], by simp [act, hsnd, hp], ?_⟩
      right; right
      refine ⟨by simp [act, hsnd], Or.inr ⟨?_, by simp [act, hsnd]⟩⟩
      simp [act, hsnd, phase_cmd, signsCC, h0]
  case notConnected =>
    refine key ?_ ?_ ?_ (by simp [hsnd])
    · cases hx : d.connectPending <;> simp [act, hsnd, handleConnect, hx, hp, Snd.idx]
    · intro h0; simp [act, hsnd, h0]
    · simp [hsnd, open_, Snd.idx]
  case connecting =>
    refine key ?_ ?_ ?_ (by simp [hsnd])
    · simp [act, hsnd]
    · intro h0; simp [act, hsnd, h0, phase_cmd, signsCC]
    · simp [hsnd, open_, Snd.idx]
  case finalizeConnect =>
    refine key (fun _ => ?_) ?_ ?_ (by simp [hsnd])
    · simp [act, hsnd]
    · intro h0; simp [act, hsnd, h0]
    · simp [act, hsnd, open_, Snd.idx]
  case connected =>
    have hcs := hb (by simp [hsnd, Snd.idx])
    have e := phase_prepareSending (s := signsCC) d false (by decide) (by decide) (by decide)
    cases hx : d.disconnectPending
    all_goals
      refine key (fun _ => ?_) ?_ (fun ho => ⟨?_, ?_⟩) (by simp [hsnd])
      · simp only [act, hsnd, actConnected]
        (repeat' split) <;> simp [handleDisconnect, hcs, hx]
      · intro h0
        simp only [act, hsnd, actConnected]
        (repeat' split) <;> simp [handleDisconnect, e, h0, hx]
      · have hip := ho.2.2 (by simp [hsnd, Snd.idx]) (by simp [hsnd, Snd.idx])
        simp only [act, hsnd, actConnected]
        (repeat' split) <;> simp_all [handleDisconnect, open_, Snd.idx]
      · simp only [act, hsnd, actConnected]
        (repeat' split) <;> simp [handleDisconnect, hp, hx]
  case sendDataState =>
    have hcs := hb (by simp [hsnd, Snd.idx])
    refine key (fun _ => ?_) ?_ (fun ho => ⟨?_, ?_⟩) (by simp [hsnd])
    · simp [act, hsnd, hcs]
    · intro h0; simp [act, hsnd, h0]
    · have hip := ho.2.2 (by simp [hsnd, Snd.idx]) (by simp [hsnd, Snd.idx])
      simp [act, hsnd, open_, Snd.idx, hip]
    · simp [act, hsnd, hp]
  case sendCiprecvdata =>
    have hcs := hb (by simp [hsnd, Snd.idx])
    have e := phase_sendCiprcvdata d
    refine key (fun _ => ?_) ?_ (fun ho => ?_) (by simp [hsnd])
    · simp only [act, hsnd, actCiprecvdata]
      (repeat' split) <;> simp_all [handleDisconnect]
    · intro h0
      simp only [act, hsnd, actCiprecvdata]
      (repeat' split) <;> simp_all [handleDisconnect]
    · have hip := ho.2.2 (by simp [hsnd, Snd.idx]) (by simp [hsnd, Snd.idx])
      clear hs key h hb e ho
      simp only [act, hsnd, actCiprecvdata]
      (repeat' split) <;> simp_all [handleDisconnect, open_, Snd.idx]
  case receiving =>
    have hcs := hb (by simp [hsnd, Snd.idx])
    have e := phase_receive (s := signsCC) d
    refine key (fun _ => ?_) ?_ (fun ho => ?_) (by simp [hsnd])
    · simp only [act, hsnd, actReceiving]
      (repeat' split) <;> simp_all
    · intro h0
      simp only [act, hsnd, actReceiving]
      (repeat' split) <;> simp_all
    · have hip := ho.2.2 (by simp [hsnd, Snd.idx]) (by simp [hsnd, Snd.idx])
      clear hs key h hb e ho
      simp only [act, hsnd, actReceiving]
      (repeat' split) <;> simp_all [open_, Snd.idx]
  case finalizeDisconnect =>
    refine key ?_ ?_ ?_ (by simp [hsnd])
    · simp [act, hsnd, hp, Snd.idx]
    · intro h0; simp [act, hsnd, h0]
    · simp [hsnd, open_, Snd.idx]

/-- A question unrelated to the connection. -/
theorem Ended.ask {d e : D} (h : Ended d) (hr : d.resetPending = false) (hw : d.wait = none)
    (h1 : e.snd = d.snd) (h2 : e.cs = d.cs) (h3 : e.rep = .csq ∨ e.rep = .reqMac)
    (h4 : e.resetPending = d.resetPending) (h7 : e.ipConnected = d.ipConnected)
    (h6 : phases.after e.trace = phases.after d.trace) : Ended e := by
  refine ⟨fun hx => ?_, ?_⟩
  · rw [h2]
    refine h.busy ?_
    rcases hx with hx | hx | hx
    · exact Or.inl (by rw [← h1]; exact hx)
    · rcases h3 with h3 | h3 <;> rw [h3] at hx <;> simp at hx
    · rw [h4, hr] at hx; simp at hx
  · rw [h6]
    rcases h.ended with h | ⟨a, _, c⟩
    · exact Or.inl h
    · refine Or.inr ⟨by rw [h2]; exact a, ?_, ?_⟩
      · intro hx; rcases h3 with h3 | h3 <;> rw [h3] at hx <;> simp at hx
      · rw [h1, h7]
        rcases c with c | c | ⟨_, c⟩
        · exact Or.inl c
        · exact Or.inr (Or.inl c)
        · simp [hr, hw] at c

theorem ended_sections (p : Platform) : Sections p Ended where
  fail d h _ := by
    refine ⟨fun hx => h.busy ?_, ?_⟩
    · rcases hx with hx | hx
      · simp [Snd.idx] at hx
      · exact Or.inr hx
    · rcases h.ended with h | ⟨a, b, _⟩
      · exact Or.inl h
      · exact Or.inr ⟨a, b, Or.inr (Or.inl rfl)⟩
  reset d h hr := by
    have e0 : (handleReset d).cs = d.cs := by
      unfold handleReset ipConnect; dsimp only; (repeat' split) <;> simp
    have e1 : (handleReset d).snd = .sendCipclose := by
      unfold handleReset ipConnect; dsimp only; (repeat' split) <;> simp
    have e2 : (handleReset d).rep = .okReply := by
      unfold handleReset ipConnect; dsimp only; (repeat' split) <;> simp
    have e3 : phases.after (handleReset d).trace = phases.after d.trace := by
      unfold handleReset ipConnect; dsimp only; (repeat' split) <;> simp
    refine ⟨fun _ => by rw [e0]; exact h.busy (Or.inr (Or.inr hr)), ?_⟩
    rw [e3]
    rcases h.ended with h | ⟨a, _, _⟩
    · exact Or.inl h
    · refine Or.inr ⟨by rw [e0]; exact a, by rw [e2]; simp, Or.inl ?_⟩
      rw [e1]; simp [open_, Snd.idx]
  line d s m l _ h hr _ hl _ _ := by
    obtain ⟨a1, a2, a3, a4, a5⟩ := parse_shape p (d.gotLine s m d.rep l)
    constructor
    · intro hx
      rcases a1 with ⟨a1, a6⟩ | a1
      · rw [a1]
        refine h.busy ?_
        rw [a6] at hx
        rcases a3 with a3 | ⟨a3, _⟩
        · rw [a3] at hx
          rcases a2 with a2 | a2
          · rw [a2] at hx; exact hx
          · rw [a2] at hx
            rcases hx with hx | hx | hx
            · exact Or.inl hx
            · simp at hx
            · exact Or.inr (Or.inr hx)
        · exact Or.inr (Or.inl a3)
      · exact a1
    · rw [parseLine_trace, Observer.after_snoc, phase_line]
      cases he : signsCC.ends (phases.after d.trace) l
      · rw [if_neg (by simp)]
        rcases h.ended with h | ⟨b1, b2, b3⟩
        · exact Or.inl h
        · right
          have hi : begins b!"CLOSED" l = false := by
            simp [Signs.ends, signsCC, beginsAny] at he; exact he.1
          have a5 := a5 (has_of_begins hl (by decide) hi)
          refine ⟨?_, ?_, ?_⟩
          · rcases a1 with ⟨a1, _⟩ | a1
            · rw [a1]; exact b1
            · exact a1
          · rw [a5]
            intro hx
            rcases a2 with a2 | a2
            · exact b2 (by rw [a2] at hx; exact hx)
            · rw [a2] at hx; simp at hx
          · rw [a5]
            rcases a3 with a3 | ⟨a6, a3⟩
            · rw [a3]
              rcases b3 with b3 | b3 | ⟨b3, b5⟩
              · exact Or.inl b3
              · exact Or.inr (Or.inl b3)
              · rcases b5 with b5 | ⟨b5, b6⟩
                · rw [hr] at b5; simp at b5
                · refine Or.inr (Or.inr ⟨b3, ?_⟩)
                  have hj : begins okStr l = false := by
                    simp [Signs.ends, signsCC, beginsAny, b5] at he; exact he.2
                  rcases a4 (waits_of_begins hl (by decide) b6 hj) with c | c
                  · exact Or.inl c
                  · exact Or.inr ⟨b5, by rw [c]; exact b6⟩
            · left
              have : d.ipConnected = true := b2 a6
              rw [a3]; simp [open_, Snd.idx, this]
      · exact Or.inl (by simp)
  drop d h _ _ _ := h.same (h6 := by simp)
  csq d h hr hw _ _ _ _ := h.ask hr hw (by simp) (by simp) (Or.inl rfl) (by simp) (by simp)
    (by simp [phase_other (s := signsCC) (w := b!"AT+CSQ") (by decide) (by decide) (by decide)])
  mac d h hr hw _ _ _ _ := h.ask hr hw (by simp) (by simp) (Or.inr rfl) (by simp) (by simp)
    (by simp [phase_other (s := signsCC) (w := b!"AT+CIPSTAMAC") (by decide) (by decide) (by decide)])
  act d h hr hw hp _ := act_ended h hr hw hp

end Verif.CC1352P7
