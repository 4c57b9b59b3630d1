import Verif.Lemmas.Receiving
import Verif.Lemmas.PaySim800

/-! Received data, SIM800 driver. -/

namespace Verif

open Dev Spec

namespace Sim800

abbrev RxI (p : Platform) : D → Prop := RxInv requestSim (headerSim p) .ciprxget2 .receiving .serialError

theorem held_act {d : D} (h : Held .receiving .serialError d) : Held .receiving .serialError (act d) := by
  by_cases hb : d.bytesToRead = 0
  · exact (busy_act (.of_zero hb)).held
  · rcases (h hb).2 with hs | hs
    · have e : act d = actReceiving d := by simp only [act, hs]
      rw [e]
      unfold actReceiving
      rw [if_pos (by omega)]
      dsimp only
      by_cases hq : d.receive.2 = true
      · rw [if_pos hq]
        exact fun x => absurd (receive_true hq).2.2.1 x
      · rw [if_neg hq, receive_false (by simpa using hq)]
        exact h
    · have e : act d = d := by simp only [act, hs]
      rw [e]; exact h

theorem act_rep {d : D} (h : d.snd ≠ .sendCiprxget2) (hr : d.rep = .okReply) :
    (act d).rep ≠ .ciprxget2 := by
  unfold act
  split
  all_goals first
    | contradiction
    | (simp [hr]; done)
    | (unfold actCstt; dsimp only; (repeat' split) <;> simp [hr])
    | (unfold actCipstart; dsimp only; (repeat' split) <;> simp)
    | (unfold actConnected; dsimp only; (repeat' split) <;> simp [hr])
    | (unfold actReceiving; dsimp only; (repeat' split) <;> simp [hr])
    | ((try dsimp only); (repeat' split) <;> simp [hr])

theorem act_wait {d : D} (hw : d.wait = none) : (act d).wait ≠ some b!"+CIPRXGET: 2,0," := by
  unfold act
  split
  all_goals first
    | (simp [hw]; done)
    | (simp; decide)
    | (unfold actCstt; dsimp only; (repeat' split) <;> simp [hw] <;> decide)
    | (unfold actCipstart; dsimp only; (repeat' split) <;> simp <;> decide)
    | (unfold actConnected; dsimp only; (repeat' split) <;>
        first | exact prepareSending_wait true hw (by decide) | simp [hw] |
          (simp; exact prepareSending_wait true hw (by decide)))
    | (unfold actReceiving; dsimp only; (repeat' split) <;> simp [hw] <;> decide)
    | (unfold actCiprxget2; dsimp only; (repeat' split) <;> simp [hw] <;> decide)
    | ((try dsimp only); (repeat' split) <;> simp [hw] <;> decide)

theorem parseLine_rx (p : Platform) (d : D) :
    (parseLine p d).1.rbuf = d.rbuf ∧
    (d.rep ≠ .ciprxget2 → (parseLine p d).1.rep ≠ .ciprxget2 ∧
      (parseLine p d).1.bytesToRead = d.bytesToRead) ∧
    (d.rep = .ciprxget2 → d.has b!"+CIPRXGET: 2,0," = false →
      (parseLine p d).1.rep = .ciprxget2 ∧ (parseLine p d).1.bytesToRead = d.bytesToRead) ∧
    (d.rep = .ciprxget2 → d.has b!"+CIPRXGET: 2,0," = true → isError d = false →
      (parseLine p d).1.rep = .okReply ∧ (parseLine p d).1.lineRead = false ∧
      (parseLine p d).1.snd = .receiving ∧
      (parseLine p d).1.bytesToRead =
        addSize d.bytesToRead (toInt (strtol p.long64 (d.line.drop 15)))) := by
  have hw : (parseWait d).rbuf = d.rbuf ∧ (parseWait d).rep = d.rep ∧
      (parseWait d).bytesToRead = d.bytesToRead ∧ (parseWait d).line = d.line := by
    unfold parseWait
    (repeat' split) <;> simp_all
  obtain ⟨w1, w2, w3, w4⟩ := hw
  have eh : ∀ lit, (parseWait d).has lit = d.has lit := fun lit => by unfold Dev.has; rw [w4]
  have hp : ∀ e : D, (parseReply p e).rbuf = e.rbuf ∧
      (e.rep ≠ .ciprxget2 → (parseReply p e).rep ≠ .ciprxget2 ∧
        (parseReply p e).bytesToRead = e.bytesToRead) ∧
      (e.rep = .ciprxget2 → e.has b!"+CIPRXGET: 2,0," = false →
        (parseReply p e).rep = .ciprxget2 ∧ (parseReply p e).bytesToRead = e.bytesToRead) ∧
      (e.rep = .ciprxget2 → e.has b!"+CIPRXGET: 2,0," = true →
        (parseReply p e).rep = .okReply ∧ (parseReply p e).lineRead = false ∧
        (parseReply p e).snd = .receiving ∧
        (parseReply p e).bytesToRead =
          addSize e.bytesToRead (toInt (strtol p.long64 (e.line.drop 15)))) := by
    intro e
    refine ⟨?_, ?_, ?_, ?_⟩
    · unfold parseReply
      split <;> (try dsimp only) <;> (repeat' split) <;> simp
    · intro hr
      unfold parseReply
      split <;> (try dsimp only) <;> (repeat' split) <;> simp_all
    · intro hr hh
      simp only [parseReply, hr]
      unfold SimDev.parseCiprxget2
      simp [hh, hr]
    · intro hr hh
      simp only [parseReply, hr]
      unfold SimDev.parseCiprxget2
      simp [hh]
  have hc : ∀ e : D, (checkState e).rbuf = e.rbuf ∧ (checkState e).rep = e.rep ∧
      (checkState e).bytesToRead = e.bytesToRead ∧ (checkState e).lineRead = e.lineRead ∧
      (checkState e).snd = e.snd := by
    intro e
    unfold checkState
    split <;> simp
  obtain ⟨p1, p2, p3, p4⟩ := hp (parseWait d)
  obtain ⟨c1, c2, c3, c4, c5⟩ := hc (parseReply p (parseWait d))
  rw [eh] at p3 p4
  rw [w2] at p2 p3 p4
  rw [w3] at p2 p3 p4
  rw [w4] at p4
  rw [w1] at p1
  unfold parseLine
  by_cases q1 : isError d = true
  · rw [if_pos q1]
    refine ⟨rfl, fun x => ⟨x, rfl⟩, fun x _ => ⟨x, rfl⟩, fun _ _ x => ?_⟩
    rw [x] at q1; simp at q1
  · rw [if_neg q1]
    dsimp only
    rw [c1, c2, c3, c4, c5]
    exact ⟨p1, p2, p3, fun x y _ => p4 x y⟩

theorem rxI_sections (p : Platform) : Sections p (RxI p) where
  fail d h _ := h.note [] (by simp) (by simp) rfl rfl Iff.rfl fun x => ⟨(h.held x).1, Or.inr rfl⟩
  reset d h hr _ := by
    have hz : (handleReset d).bytesToRead = 0 := by
      unfold handleReset
      dsimp only
      split
      · rw [SimDev.connect_bytesToRead]
      · rfl
    have hq : (handleReset d).rep = .okReply := by
      unfold handleReset
      dsimp only
      split
      · rw [SimDev.connect_rep]
      · rfl
    have hb : (handleReset d).rbuf = d.rbuf := by
      unfold handleReset
      dsimp only
      split
      · rw [SimDev.connect_rbuf]; simp
      · simp
    exact rx_flush h (handleReset_facts d).1 hb hz (by rw [hq]; simp)
  line d s m l _ h _ hlr hl _ := by
    obtain ⟨a1, a2, a3, a4⟩ := parseLine_rx p (d.gotLine s m d.rep l)
    have ht : (parseLine p (d.gotLine s m d.rep l)).1.trace = d.trace ++ [.line l] := by
      rw [parseLine_trace]
    have h0 := h.held.zero hlr
    have hhas := hl.has_iff (lit := b!"+CIPRXGET: 2,0,") (by decide)
    by_cases hr : d.rep = .ciprxget2
    · cases hh : b!"+CIPRXGET: 2,0,".isPrefixOf l with
      | false =>
        rw [hh] at hhas
        obtain ⟨x, y⟩ := a3 hr hhas
        exact rx_line h hlr ht a1 (y.trans h0) ⟨fun _ => hr, fun _ => x⟩ fun _ => headerSim_none hh
      | true =>
        rw [hh] at hhas
        have he : isError (d.gotLine s m d.rep l) = false := by
          unfold isError
          rw [hl.has_iff (by decide), hl.has_iff (by decide), hl.has_iff (by decide),
            not_prefix hh (by decide), not_prefix hh (by decide), not_prefix hh (by decide)]
          rfl
        obtain ⟨x1, x2, x3, x4⟩ := a4 hr hhas he
        refine rx_header h hlr ht a1 hr (headerSim_some hh) ?_ (by rw [x1]; simp) fun _ => ⟨x2, Or.inl x3⟩
        rw [x4, hl.number _ (by
          have := (List.isPrefixOf_iff_prefix.mp hh).length_le
          simpa using this)]
        show addSize d.bytesToRead _ = _
        rw [h0, addSize_zero]; rfl
    · obtain ⟨x, y⟩ := a2 hr
      exact rx_line h hlr ht a1 (y.trans h0) ⟨fun z => absurd z x, fun z => absurd z hr⟩
        fun z => absurd z hr
  drop d h _ _ _ := rx_drop h
  csq d h _ _ _ _ _ _ :=
    rx_said h ((said_sendCommand d b!"AT+CSQ").set rfl ⟨rfl, rfl, rfl, rfl, rfl, rfl⟩) (by decide)
      (by simp) rfl rfl
  ident d h _ _ _ _ hq := by
    obtain ⟨v, hm, g1, g2, ht⟩ := SimDev.sendIDRequest_true hq
    refine rx_other (v := v) (g := g1) (rest := [.arg lineEnd g2]) h ?_ (by simp [ht]) rfl (by simp)
      (by simp) (by simp) (h.held.same (by simp) (by simp) (by simp))
    simp only [SimDev.idCommands, iccidCommand, List.mem_cons, List.not_mem_nil, or_false] at hm
    rcases hm with rfl | rfl | rfl | rfl | rfl <;> decide
  identNone d h hq := h.same (SimDev.sendIDRequest_false hq).1 (by simp) (by simp) (by simp) (by simp) (by simp)
  act d h hr hw hp _ := by
    have hd : d.rep ≠ .ciprxget2 := by rw [hp]; simp
    by_cases hs : d.snd = .sendCiprxget2
    · have e : act d = actCiprxget2 d := by simp only [act, hs]
      rw [e]
      unfold actCiprxget2
      by_cases h1 : d.disconnectPending = true
      · rw [if_pos h1]
        exact h.note [] (by simp) (by simp) (by simp) (by simp) (by simp)
          (fun x => by have := (h.held (by simpa using x)).2; simp [hs] at this)
      · rw [if_neg h1]
        by_cases h2 : d.bytesToReceive > 0
        · rw [if_pos h2]
          dsimp only
          by_cases hq : d.sendCiprxget2.2 = true
          · rw [if_pos hq]
            obtain ⟨g1, k, g3, ht⟩ := SimDev.sendCiprxget2_take hq
            exact rx_request h ht (SimDev.askAmount_le d).1 (by simp) (by simp) rfl
              (fun x => by have := (h.held (by simpa using x)).2; simp [hs] at this)
          · rw [if_neg hq, SimDev.sendCiprxget2_false (by simpa using hq)]
            exact h.same rfl rfl rfl rfl rfl rfl
        · rw [if_neg h2]
          have hz : ∀ x : d.bytesToRead ≠ 0, False := fun x => by
            have := (h.held x).2; simp [hs] at this
          split <;> exact h.note [] (by simp) (by simp) rfl rfl Iff.rfl fun x => (hz x).elim
    · refine rx_turn h hd (act_rep hs hp) (by decide) ?_ (held_act h.held) (act_turn d)
      intro x
      rcases x with ⟨q, hq, hwq⟩ | ⟨_, x⟩ | ⟨x, _⟩
      · refine act_wait hw (hwq.trans ?_)
        have : q ∈ [b!"+CIPRXGET: 2,0,"] := hq
        rw [List.mem_singleton.mp this]
      · exact act_rep hs hp x
      · exact absurd x (by decide)

theorem rxI_own (p : Platform) : Own (RxI p) where
  reset d h := rx_reset h rfl rfl rfl (by simp [SimDev.resetStates])
  ext _ _ h := h.same rfl rfl rfl rfl rfl rfl
  lock _ h _ _ := h.same rfl rfl rfl rfl rfl rfl
  unlock _ h := h.same rfl rfl rfl rfl rfl rfl

end Sim800
end Verif
