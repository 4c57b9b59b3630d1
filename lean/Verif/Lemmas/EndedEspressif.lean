import Verif.Lemmas.Ended
import Verif.Lemmas.Stages

/-! The Espressif driver is idle only after the modem said that the connection has ended. -/

namespace Verif.Espressif

open Dev Spec

abbrev phases : Observer LinkPhase := signsEsp.phase

/-- The connection has not ended: where the driver may be. -/
structure Alive (q : LinkPhase) (d : D) : Prop where
  cs : d.cs ≠ .notConnected
  snd : (Snd.finalizeConnect.idx ≤ d.snd.idx ∧ d.snd.idx ≤ Snd.sendCwqap.idx) ∨ d.snd = .serialError ∨
    (d.snd = .finalizeDisconnect ∧ (d.resetPending = true ∨ d.wait = some b!"WIFI DISCONNECT")) ∨
    ((d.snd = .notConnected ∨ d.snd = .connecting) ∧
      (d.resetPending = true ∨ (q = .restart ∧ d.wait = some b!"ready")))

/-- The driver has begun to connect. -/
def began (s : Snd) (r : Rep) : Prop :=
  Snd.sendCwmode.idx ≤ s.idx ∨ r = .waitCiprecvdata ∨ r = .parseStateCiprecvdata

structure Ended (d : D) : Prop where
  busy : began d.snd d.rep → d.cs ≠ .notConnected
  ended : phases.after d.trace = .shut ∨ Alive (phases.after d.trace) d

theorem Ended.same {d e : D} (h : Ended d) (h1 : e.snd = d.snd := by rfl)
    (h2 : e.cs = d.cs := by rfl) (h3 : e.rep = d.rep := by rfl)
    (h4 : e.resetPending = d.resetPending := by rfl) (h5 : e.wait = d.wait := by rfl)
    (h6 : phases.after e.trace = phases.after d.trace := by rfl) : Ended e := by
  refine ⟨by rw [h1, h2, h3]; exact h.busy, ?_⟩
  rw [h6]
  rcases h.ended with h | ⟨a, c⟩
  · exact Or.inl h
  · exact Or.inr ⟨by rw [h2]; exact a, by rw [h1, h4, h5]; exact c⟩

theorem ended_calls : Calls Ended where
  io _ _ _ _ _ h := h.same
  isOpen _ _ h := h.same
  host _ _ _ _ h := h.same
  conn _ h _ _ := h.same (h6 := by simp [log])
  disc0 _ h _ := h.same (h6 := by simp [log])
  disc _ h _ := h.same (h6 := by simp [log])
  write0 _ h _ := h.same (h6 := by simp [log])
  write _ _ h _ := h.same (h6 := by simp [log])
  read _ _ h := h.same (h6 := by simp [log])
  rssi _ h := h.same
  userTx _ _ _ _ h := h.same (h6 := by simp)
  userRx _ _ _ _ h := h.same (h6 := by simp)

theorem ended_own : Own Ended where
  reset _ _ := ⟨by simp [resetStates, began, Snd.idx], Or.inl (by simp [resetStates])⟩
  ext _ _ h := h.same
  ub _ h := h.same

/-- What a line does to the states. -/
theorem parse_shape (p : Platform) (d : D) :
    ((parseLine p d).1.cs = d.cs ∨ (parseLine p d).1.cs ≠ .notConnected) ∧
    ((parseLine p d).1.rep = d.rep ∨ (parseLine p d).1.rep = .okReply) ∧
    ((parseLine p d).1.snd = d.snd ∨ began d.snd d.rep ∧
      (d.has b!"WIFI DISCONNECT" = true ∨ (parseLine p d).1.snd = .receiving)) ∧
    (d.has b!"WIFI DISCONNECT" = false → d.waitMatches = false → d.snd ≠ .connected →
      (parseLine p d).1.resetPending = true ∨ (parseLine p d).1.wait = d.wait) := by
  have hf : (parseSendFail d).rep = d.rep ∧ (parseSendFail d).snd = d.snd ∧ (parseSendFail d).line = d.line ∧
      ((parseSendFail d).cs = d.cs ∨ (parseSendFail d).cs ≠ .notConnected) ∧
      (d.snd ≠ .connected → parseSendFail d = d) := by
    unfold parseSendFail
    split
    · rename_i h; exact ⟨rfl, rfl, rfl, Or.inr (by simp), fun hx => absurd h.1 hx⟩
    · exact ⟨rfl, rfl, rfl, Or.inl rfl, fun _ => rfl⟩
  have hw : ∀ e : D, (parseWait e).rep = e.rep ∧ (parseWait e).snd = e.snd ∧ (parseWait e).line = e.line ∧
      (parseWait e).cs = e.cs ∧ (e.waitMatches = false → (parseWait e).wait = e.wait) := by
    intro e
    unfold parseWait
    split
    · rename_i h; exact ⟨rfl, rfl, rfl, rfl, fun hx => by simp [h] at hx⟩
    · exact ⟨rfl, rfl, rfl, rfl, fun _ => rfl⟩
  have hr : ∀ e : D, ((parseReply p e).rep = e.rep ∨ (parseReply p e).rep = .okReply) ∧
      ((parseReply p e).snd = e.snd ∨ e.rep = .parseStateCiprecvdata ∧ (parseReply p e).snd = .receiving) ∧
      (parseReply p e).line = e.line ∧ (parseReply p e).cs = e.cs ∧ (parseReply p e).wait = e.wait := by
    intro e
    unfold parseReply
    split <;> rename_i hrep <;> (try dsimp only) <;> (repeat' split) <;> simp_all
  have hc : ∀ e : D, (checkState p e).rep = e.rep ∧ (checkState p e).cs = e.cs ∧
      (((checkState p e).snd = e.snd ∧ (checkState p e).wait = e.wait) ∨
        (Snd.connected.idx ≤ e.snd.idx ∧ e.has b!"WIFI DISCONNECT" = true)) := by
    intro e
    unfold checkState
    (try dsimp only)
    (repeat' split) <;> simp_all
  unfold parseLine
  split
  · exact ⟨Or.inr (by simp), Or.inl rfl, Or.inl rfl, fun _ _ _ => Or.inl rfl⟩
  · obtain ⟨a1, a2, a3, a4, a5⟩ := hf
    obtain ⟨b1, b2, b3, b4, b5⟩ := hw (parseSendFail d)
    obtain ⟨c1, c2, c3, c4, c5⟩ := hr (parseWait (parseSendFail d))
    obtain ⟨e1, e2, e3⟩ := hc (parseReply p (parseWait (parseSendFail d)))
    have el : (parseReply p (parseWait (parseSendFail d))).line = d.line := by rw [c3, b3, a3]
    have eh : (parseReply p (parseWait (parseSendFail d))).has b!"WIFI DISCONNECT" = d.has b!"WIFI DISCONNECT" := by
      unfold has; rw [el]
    rw [b1, a1] at c1 c2
    rw [b2, a2] at c2
    dsimp only
    refine ⟨by rw [e2, c4, b4]; exact a4, by rw [e1]; exact c1, ?_, ?_⟩
    · rcases e3 with ⟨e3, _⟩ | ⟨e3, e4⟩
      · rw [e3]
        rcases c2 with c2 | ⟨c2, c6⟩
        · exact Or.inl c2
        · exact Or.inr ⟨Or.inr (Or.inr c2), Or.inr c6⟩
      · refine Or.inr ⟨?_, Or.inl (by rw [← eh]; exact e4)⟩
        rcases c2 with c2 | ⟨c2, _⟩
        · rw [c2] at e3
          exact Or.inl (Nat.le_trans (by decide) e3)
        · exact Or.inr (Or.inr c2)
    · intro h1 h2 h3
      right
      have h4 := a5 h3
      rcases e3 with ⟨_, e3⟩ | ⟨_, e4⟩
      · rw [e3, c5, b5 (by rw [h4]; exact h2), h4]
      · rw [eh, h1] at e4; simp at e4

theorem phase_sendCiprcvdata (d : D) : phases.after (sendCiprcvdata d).1.trace = phases.after d.trace := by
  unfold sendCiprcvdata
  dsimp only
  split <;> simp [phase_other (s := signsEsp) (w := b!"AT+CIPRECVDATA=") (by decide) (by decide) (by decide)]

/-- The state machine keeps to its phases. -/
theorem act_ended {d : D} (h : Ended d) (hr : d.resetPending = false)
    (hw : d.wait = none) (hp : d.rep = .okReply) : Ended (act d) := by
  have hs : phases.after d.trace = .shut ∨
      (Snd.finalizeConnect.idx ≤ d.snd.idx ∧ d.snd.idx ≤ Snd.sendCwqap.idx) ∨ d.snd = .serialError := by
    rcases h.ended with h | ⟨_, hs⟩
    · exact Or.inl h
    · right
      rcases hs with hs | hs | ⟨_, hs⟩ | ⟨_, hs⟩
      · exact Or.inl hs
      · exact Or.inr hs
      · simp [hr, hw] at hs
      · simp [hr, hw] at hs
  have hb := h.busy
  -- a step after which no connection is open, or that happens while one is open
  have key : ∀ e : D, (began e.snd e.rep → e.cs ≠ .notConnected) →
      (phases.after d.trace = .shut → phases.after e.trace = .shut) →
      ((Snd.finalizeConnect.idx ≤ d.snd.idx ∧ d.snd.idx ≤ Snd.sendCwqap.idx) →
        Snd.finalizeConnect.idx ≤ e.snd.idx ∧ e.snd.idx ≤ Snd.sendCwqap.idx) → d.snd ≠ .serialError → Ended e := by
    intro e h1 h3 h4 h5
    refine ⟨h1, ?_⟩
    rcases hs with hs | hs | hs
    · exact Or.inl (h3 hs)
    · have := h4 hs
      exact Or.inr ⟨h1 (Or.inl (Nat.le_trans (by decide) this.1)), Or.inl this⟩
    · exact absurd hs h5
  cases hsnd : d.snd
  case serialError => simp only [act, hsnd]; exact h
  case waitReceive => simp only [act, hsnd]; exact h
  case sendCipstart =>
    have hcs := hb (Or.inl (by simp [hsnd, Snd.idx]))
    have e1 : (act d).cs = d.cs := by simp only [act, hsnd, actCipstart]; split <;> simp
    refine ⟨fun _ => by rw [e1]; exact hcs, Or.inr ⟨by rw [e1]; exact hcs, Or.inl ?_⟩⟩
    simp [act, hsnd, actCipstart, Snd.idx]
  case sendCwqap =>
    refine ⟨by simp [act, hsnd], ?_⟩
    by_cases h0 : phases.after d.trace = .shut
    · left
      simp [act, hsnd, phase_cmd, signsEsp, h0]
    · right
      refine ⟨by simp [act, hsnd], ?_⟩
      right; right; left
      exact ⟨by simp [act, hsnd], Or.inr (by simp [act, hsnd])⟩
  case notConnected =>
    refine key _ ?_ ?_ ?_ (by simp [hsnd])
    · cases hx : d.connectPending <;> simp [act, hsnd, handleConnect, began, hx, hp, Snd.idx]
    · intro h0; simp [act, hsnd, h0]
    · simp [hsnd, Snd.idx]
  case connecting =>
    refine key _ ?_ ?_ ?_ (by simp [hsnd])
    · simp [act, hsnd]
    · intro h0; simp [act, hsnd, h0, phase_cmd, signsEsp]
    · simp [hsnd, Snd.idx]
  case sendCwjap =>
    have hcs := hb (Or.inl (by simp [hsnd, Snd.idx]))
    refine key _ (fun _ => ?_) ?_ ?_ (by simp [hsnd])
    · simp [act, hsnd, actCwjap, hcs]
    · intro h0; simp [act, hsnd, actCwjap, phase_cmd, signsEsp, h0]
    · simp [hsnd, Snd.idx]
  case sendCiprecvmode =>
    have hcs := hb (Or.inl (by simp [hsnd, Snd.idx]))
    refine key _ (fun _ => ?_) ?_ ?_ (by simp [hsnd])
    · simp [act, hsnd, hcs]
    · intro h0
      by_cases ht : d.typ = .tcp <;> simp [act, hsnd, ht, phase_cmd, signsEsp, h0]
    · simp [hsnd, Snd.idx]
  case connected =>
    have hcs := hb (Or.inl (by simp [hsnd, Snd.idx]))
    have e := phase_prepareSending (s := signsEsp) d false (by decide) (by decide) (by decide)
    refine key _ (fun _ => ?_) ?_ (fun _ => ?_) (by simp [hsnd])
    · simp only [act, hsnd, actConnected]
      (repeat' split) <;> simp_all [handleDisconnect]
    · intro h0
      simp only [act, hsnd, actConnected]
      (repeat' split) <;> simp_all [handleDisconnect]
    · simp only [act, hsnd, actConnected]
      (repeat' split) <;> simp_all [handleDisconnect, Snd.idx]
  case sendCiprecvdata =>
    have hcs := hb (Or.inl (by simp [hsnd, Snd.idx]))
    have e := phase_sendCiprcvdata d
    refine key _ (fun _ => ?_) ?_ (fun _ => ?_) (by simp [hsnd])
    · simp only [act, hsnd, actCiprecvdata]
      (repeat' split) <;> simp_all [handleDisconnect]
    · intro h0
      simp only [act, hsnd, actCiprecvdata]
      (repeat' split) <;> simp_all [handleDisconnect]
    · simp only [act, hsnd, actCiprecvdata]
      (repeat' split) <;> simp_all [handleDisconnect, Snd.idx]
  case receiving =>
    have hcs := hb (Or.inl (by simp [hsnd, Snd.idx]))
    have e := phase_receive (s := signsEsp) d
    refine key _ (fun _ => ?_) ?_ (fun _ => ?_) (by simp [hsnd])
    · simp only [act, hsnd, actReceiving]
      (repeat' split) <;> simp_all
    · intro h0
      simp only [act, hsnd, actReceiving]
      (repeat' split) <;> simp_all
    · simp only [act, hsnd, actReceiving]
      (repeat' split) <;> simp_all [Snd.idx]
  case sendCipclose =>
    refine key _ (fun _ => ?_) ?_ (fun _ => ?_) (by simp [hsnd])
    · simp only [act, hsnd]; split <;> simp
    · intro h0; simp only [act, hsnd]; split <;> simp [h0, phase_cmd, signsEsp]
    · simp only [act, hsnd]; split <;> simp [Snd.idx]
  case finalizeDisconnect =>
    refine key _ ?_ ?_ ?_ (by simp [hsnd])
    · simp [act, hsnd, began, hp, Snd.idx]
    · intro h0; simp [act, hsnd, h0]
    · simp [hsnd, Snd.idx]
  all_goals
    have hcs := hb (Or.inl (by simp [hsnd, Snd.idx]))
    refine key _ (fun _ => ?_) ?_ ?_ (by simp [hsnd])
    · simp [act, hsnd, hcs]
    · intro h0; simp [act, hsnd, h0, phase_cmd, signsEsp]
    · simp [act, hsnd, Snd.idx]

/-- A question unrelated to the connection. -/
theorem Ended.ask {d e : D} (h : Ended d) (hr : d.resetPending = false) (hw : d.wait = none)
    (h1 : e.snd = d.snd) (h2 : e.cs = d.cs) (h3 : e.rep = .rssi ∨ e.rep = .reqMac)
    (h6 : phases.after e.trace = phases.after d.trace) : Ended e := by
  refine ⟨fun hx => ?_, ?_⟩
  · rw [h2]
    refine h.busy ?_
    rcases hx with hx | hx | hx
    · exact Or.inl (by rw [← h1]; exact hx)
    · rcases h3 with h3 | h3 <;> rw [h3] at hx <;> simp at hx
    · rcases h3 with h3 | h3 <;> rw [h3] at hx <;> simp at hx
  · rw [h6]
    rcases h.ended with h | ⟨a, c⟩
    · exact Or.inl h
    · refine Or.inr ⟨by rw [h2]; exact a, ?_⟩
      rw [h1]
      rcases c with c | c | ⟨_, c⟩ | ⟨_, c⟩
      · exact Or.inl c
      · exact Or.inr (Or.inl c)
      · simp [hr, hw] at c
      · simp [hr, hw] at c

theorem ended_sections (p : Platform) : Sections p Ended where
  fail d h _ := by
    refine ⟨fun hx => h.busy ?_, ?_⟩
    · rcases hx with hx | hx
      · simp [Snd.idx] at hx
      · exact Or.inr hx
    · rcases h.ended with h | ⟨a, _⟩
      · exact Or.inl h
      · exact Or.inr ⟨a, Or.inr (Or.inl rfl)⟩
  reset d h hr := by
    have e1 : (handleReset d).snd = .notConnected ∨ (handleReset d).snd = .connecting := by
      simp only [handleReset]; split <;> simp
    refine ⟨?_, ?_⟩
    · intro hx
      rcases hx with hx | hx
      · rcases e1 with e1 | e1 <;> simp [e1, Snd.idx] at hx
      · simp [handleReset] at hx
    · rcases h.ended with h | ⟨a, _⟩
      · exact Or.inl (by simp [handleReset, h, phase_cmd, signsEsp])
      · by_cases h0 : phases.after d.trace = .shut
        · exact Or.inl (by simp [handleReset, h0, phase_cmd, signsEsp])
        · refine Or.inr ⟨by simp [handleReset, a], Or.inr (Or.inr (Or.inr ⟨e1, Or.inr ⟨?_, by simp [handleReset]⟩⟩))⟩
          simp [handleReset, phase_cmd, signsEsp, h0]
  line d s m l r _ h hr _ hra hl _ _ := by
    obtain ⟨a1, a2, a3, a4⟩ := parse_shape p (d.gotLine s m r l)
    have hbr : began d.snd r → began d.snd d.rep := by
      intro hx
      rcases hra with hra | ⟨hra, _⟩
      · rw [← hra]; exact hx
      · exact Or.inr (Or.inl hra)
    constructor
    · intro hx
      rcases a1 with a1 | a1
      · rw [a1]
        refine h.busy (hbr ?_)
        rcases a3 with a3 | ⟨a3, _⟩
        · rw [a3] at hx
          rcases a2 with a2 | a2
          · rw [a2] at hx; exact hx
          · rw [a2] at hx
            rcases hx with hx | hx | hx
            · exact Or.inl hx
            · simp at hx
            · simp at hx
        · exact a3
      · exact a1
    · rw [parseLine_trace, Observer.after_snoc, phase_line]
      cases he : signsEsp.ends (phases.after d.trace) l
      · rw [if_neg (by simp)]
        rcases h.ended with h | ⟨b1, b3⟩
        · exact Or.inl h
        · right
          have hi : begins b!"WIFI DISCONNECT" l = false := by
            simp [Signs.ends, signsEsp, beginsAny] at he; exact he.1
          have hh := has_of_begins hl (by decide) hi
          have a3 : (parseLine p (d.gotLine s m r l)).1.snd = d.snd ∨
              (parseLine p (d.gotLine s m r l)).1.snd = .receiving := by
            rcases a3 with a3 | ⟨_, a3 | a3⟩
            · exact Or.inl a3
            · rw [hh] at a3; simp at a3
            · exact Or.inr a3
          have a4 := a4 hh
          refine ⟨?_, ?_⟩
          · rcases a1 with a1 | a1
            · rw [a1]; exact b1
            · exact a1
          · rcases a3 with a3 | a3
            · rw [a3]
              rcases b3 with b3 | b3 | ⟨b3, b5⟩ | ⟨b3, b5⟩
              · exact Or.inl b3
              · exact Or.inr (Or.inl b3)
              · rcases b5 with b5 | b5
                · rw [hr] at b5; simp at b5
                · refine Or.inr (Or.inr (Or.inl ⟨b3, ?_⟩))
                  rcases a4 (waits_of_begins hl (by decide) b5 hi) (by rw [b3]; simp) with c | c
                  · exact Or.inl c
                  · exact Or.inr (by rw [c]; exact b5)
              · rcases b5 with b5 | ⟨b5, b6⟩
                · rw [hr] at b5; simp at b5
                · refine Or.inr (Or.inr (Or.inr ⟨b3, ?_⟩))
                  have hj : begins b!"ready" l = false := by
                    simp [Signs.ends, signsEsp, beginsAny, b5] at he; exact he.2
                  rcases a4 (waits_of_begins hl (by decide) b6 hj)
                    (by rcases b3 with b3 | b3 <;> rw [b3] <;> simp) with c | c
                  · exact Or.inl c
                  · exact Or.inr ⟨b5, by rw [c]; exact b6⟩
            · left; rw [a3]; decide
      · exact Or.inl (by simp)
  drop d h _ _ _ := h.same (h6 := by simp)
  csq d h hr hw _ _ _ _ := h.ask hr hw (by simp) (by simp) (Or.inl rfl)
    (by simp [phase_other (s := signsEsp) (w := b!"AT+CWJAP?") (by decide) (by decide) (by decide)])
  mac d h hr hw _ _ _ _ := h.ask hr hw (by simp) (by simp) (Or.inr rfl)
    (by simp [phase_other (s := signsEsp) (w := b!"AT+CIPSTAMAC?") (by decide) (by decide) (by decide)])
  act d h hr hw hp _ := act_ended h hr hw hp

end Verif.Espressif
