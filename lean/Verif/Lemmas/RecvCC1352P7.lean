import Verif.Lemmas.Receiving
import Verif.Lemmas.PayCC1352P7

/-! Received data, CC1352P7 driver. -/

namespace Verif

open Dev Spec

namespace CC1352P7

theorem header_cc_none {p : Platform} {l : List Byte} (h : b!"+CIPRECVDATA".isPrefixOf l = false) :
    headerCC p l = none := by
  unfold headerCC; rw [h]; rfl

theorem header_cc_some {p : Platform} {l : List Byte} (h : b!"+CIPRECVDATA".isPrefixOf l = true) :
    headerCC p l = some (numberAt p l 13) := by
  unfold headerCC; rw [h]; rfl

theorem sendCiprcvdata_take {d : D} (h : (sendCiprcvdata d).2 = true) :
    ∃ g1 k g3, (sendCiprcvdata d).1.trace = d.trace ++ [.cmd requestWifi g1,
      .arg (dec (askAmount d)) ((dec (askAmount d)).take k), .arg lineEnd g3] := by
  unfold sendCiprcvdata at h ⊢
  dsimp only at h ⊢
  split
  · simp only [Dev.arg_trace, Dev.cmd_trace, List.append_assoc]
    exact ⟨_, _, _, rfl⟩
  · rename_i hc; rw [if_neg hc] at h; simp at h

theorem askAmount_le (d : D) :
    askAmount d ≤ d.rbuf.spaceAvailable ∧ askAmount d ≤ d.bytesToReceive ∧ askAmount d ≤ maxRx :=
  requestAmount_le _ _ _ _ _

/-- A header line has a character after the name. -/
theorem LineEnd.header {l : List Byte} (h : LineEnd l) (hp : b!"+CIPRECVDATA".isPrefixOf l = true) :
    13 ≤ l.length := by
  obtain ⟨c, hc, he⟩ := h
  obtain ⟨t, rfl⟩ := List.isPrefixOf_iff_prefix.mp hp
  cases t with
  | nil =>
    exfalso
    rw [List.append_nil] at hc
    have : c = 65 := by simpa using hc.symm
    subst this
    revert he; decide
  | cons => simp

abbrev RxI (p : Platform) : D → Prop := RxInv requestWifi (headerCC p) .parseStateCiprecvdata .receiving .serialError

theorem held_act {d : D} (h : Held .receiving .serialError d) : Held .receiving .serialError (act d) := by
  by_cases hb : d.bytesToRead = 0
  · exact (busy_act (.of_zero hb)).held
  · rcases (h hb).2 with hs | hs
    · have e : act d = actReceiving d := by simp only [act, hs]
      rw [e]
      unfold actReceiving
      rw [if_pos (by omega)]
      dsimp only
      by_cases hq : d.receive.2 = true
      · rw [if_pos hq]
        exact fun x => absurd (receive_true hq).2.2.1 x
      · rw [if_neg hq, receive_false (by simpa using hq)]
        exact h
    · have e : act d = d := by simp only [act, hs]
      rw [e]; exact h

theorem act_rep {d : D} (h : d.snd ≠ .sendCiprecvdata) (hr : d.rep = .okReply) :
    (act d).rep ≠ .parseStateCiprecvdata := by
  unfold act
  split
  all_goals first
    | contradiction
    | (simp [hr]; done)
    | (unfold actCipstart; dsimp only; (repeat' split) <;> simp [hr])
    | (unfold actConnected; dsimp only; (repeat' split) <;> simp [hr])
    | (unfold actReceiving; dsimp only; (repeat' split) <;> simp [hr])
    | ((try dsimp only); (repeat' split) <;> simp [hr])

theorem act_wait {d : D} (hw : d.wait = none) : (act d).wait ≠ some b!"+CIPRECVDATA" := by
  unfold act
  split
  all_goals first
    | (simp [hw]; done)
    | (simp; decide)
    | (unfold actCipstart; dsimp only; (repeat' split) <;> simp <;> decide)
    | (unfold actConnected; dsimp only; (repeat' split) <;>
        first | exact prepareSending_wait false hw (by decide) | simp [hw] |
          (simp; exact prepareSending_wait false hw (by decide)))
    | (unfold actReceiving; dsimp only; (repeat' split) <;> simp [hw] <;> decide)
    | (unfold actCiprecvdata; dsimp only; (repeat' split) <;> simp [hw] <;> decide)
    | ((try dsimp only); (repeat' split) <;> simp [hw] <;> decide)

theorem parseLine_rx (p : Platform) (d : D) :
    (parseLine p d).1.rbuf = d.rbuf ∧
    (d.rep ≠ .parseStateCiprecvdata → (parseLine p d).1.rep ≠ .parseStateCiprecvdata ∧
      (parseLine p d).1.bytesToRead = d.bytesToRead) ∧
    (d.rep = .parseStateCiprecvdata → d.has b!"+CIPRECVDATA" = false →
      (parseLine p d).1.rep = .parseStateCiprecvdata ∧ (parseLine p d).1.bytesToRead = d.bytesToRead) ∧
    (d.rep = .parseStateCiprecvdata → d.has b!"+CIPRECVDATA" = true → isError d = false →
      (parseLine p d).1.rep = .okReply ∧ (parseLine p d).1.lineRead = false ∧
      (parseLine p d).1.snd = .receiving ∧
      (parseLine p d).1.bytesToRead =
        addSize d.bytesToRead (toInt (strtol p.long64 (d.line.drop 13)))) := by
  have hw : (parseWait d).rbuf = d.rbuf ∧ (parseWait d).rep = d.rep ∧
      (parseWait d).bytesToRead = d.bytesToRead ∧ (parseWait d).line = d.line := by
    unfold parseWait
    (repeat' split) <;> simp_all
  obtain ⟨w1, w2, w3, w4⟩ := hw
  have eh : ∀ lit, (parseWait d).has lit = d.has lit := fun lit => by unfold Dev.has; rw [w4]
  have hp : ∀ e : D, (parseReply p e).rbuf = e.rbuf ∧
      (e.rep ≠ .parseStateCiprecvdata → (parseReply p e).rep ≠ .parseStateCiprecvdata ∧
        (parseReply p e).bytesToRead = e.bytesToRead) ∧
      (e.rep = .parseStateCiprecvdata → e.has b!"+CIPRECVDATA" = false →
        (parseReply p e).rep = .parseStateCiprecvdata ∧ (parseReply p e).bytesToRead = e.bytesToRead) ∧
      (e.rep = .parseStateCiprecvdata → e.has b!"+CIPRECVDATA" = true →
        (parseReply p e).rep = .okReply ∧ (parseReply p e).lineRead = false ∧
        (parseReply p e).snd = .receiving ∧
        (parseReply p e).bytesToRead =
          addSize e.bytesToRead (toInt (strtol p.long64 (e.line.drop 13)))) := by
    intro e
    refine ⟨?_, ?_, ?_, ?_⟩
    · unfold parseReply
      split <;> (try dsimp only) <;> (repeat' split) <;> simp
    · intro hr
      have hm : ∀ x : D, x.rep ≠ .parseStateCiprecvdata → (parseMac x).rep ≠ .parseStateCiprecvdata := by
        intro x hx; unfold parseMac; split <;> simp_all
      unfold parseReply
      split <;> (try dsimp only) <;> (repeat' split) <;> simp_all
    · intro hr hh
      simp only [parseReply, hr]
      unfold parseCiprecvdata
      simp [hh, hr]
    · intro hr hh
      simp only [parseReply, hr]
      unfold parseCiprecvdata
      simp [hh]
  have hc : ∀ e : D, (checkState p e).rbuf = e.rbuf ∧ (checkState p e).rep = e.rep ∧
      (checkState p e).bytesToRead = e.bytesToRead ∧ (checkState p e).lineRead = e.lineRead ∧
      (checkState p e).snd = e.snd := by
    intro e
    unfold checkState
    (repeat' split) <;> exact ⟨rfl, rfl, rfl, rfl, rfl⟩
  obtain ⟨p1, p2, p3, p4⟩ := hp (parseWait d)
  obtain ⟨c1, c2, c3, c4, c5⟩ := hc (parseReply p (parseWait d))
  rw [eh] at p3 p4
  rw [w2] at p2 p3 p4
  rw [w3] at p2 p3 p4
  rw [w4] at p4
  rw [w1] at p1
  unfold parseLine
  by_cases q1 : isError d = true
  · rw [if_pos q1]
    refine ⟨rfl, fun x => ⟨x, rfl⟩, fun x _ => ⟨x, rfl⟩, fun _ _ x => ?_⟩
    rw [x] at q1; simp at q1
  · rw [if_neg q1]
    dsimp only
    rw [c1, c2, c3, c4, c5]
    exact ⟨p1, p2, p3, fun x y _ => p4 x y⟩

theorem rxI_sections (p : Platform) : Sections p (RxI p) where
  fail d h _ := h.note [] (by simp) (by simp) rfl rfl Iff.rfl fun x => ⟨(h.held x).1, Or.inr rfl⟩
  reset d h hr := by
    have hz : (handleReset d).bytesToRead = 0 := by
      unfold handleReset
      dsimp only
      split
      · rw [ipConnect_bytesToRead]
      · rfl
    have hq : (handleReset d).rep = .okReply := by
      unfold handleReset
      dsimp only
      split
      · rw [ipConnect_rep]
      · rfl
    have hb : (handleReset d).rbuf = d.rbuf := by
      unfold handleReset
      dsimp only
      split
      · rw [ipConnect_rbuf]; simp
      · simp
    exact rx_flush h (handleReset_facts d).1 hb hz (by rw [hq]; simp)
  line d s m l _ h _ hlr hl _ hend := by
    obtain ⟨a1, a2, a3, a4⟩ := parseLine_rx p (d.gotLine s m d.rep l)
    have ht : (parseLine p (d.gotLine s m d.rep l)).1.trace = d.trace ++ [.line l] := by
      rw [parseLine_trace]
    have h0 := h.held.zero hlr
    have hhas := hl.has_iff (lit := b!"+CIPRECVDATA") (by decide)
    by_cases hr : d.rep = .parseStateCiprecvdata
    · cases hh : b!"+CIPRECVDATA".isPrefixOf l with
      | false =>
        rw [hh] at hhas
        obtain ⟨x, y⟩ := a3 hr hhas
        exact rx_line h hlr ht a1 (y.trans h0) ⟨fun _ => hr, fun _ => x⟩ fun _ => header_cc_none hh
      | true =>
        rw [hh] at hhas
        have he : isError (d.gotLine s m d.rep l) = false := by
          unfold isError
          rw [hl.has_iff (by decide), hl.has_iff (by decide),
            not_prefix hh (by decide), not_prefix hh (by decide)]
          simp
        obtain ⟨x1, x2, x3, x4⟩ := a4 hr hhas he
        refine rx_header h hlr ht a1 hr (header_cc_some hh) ?_ (by rw [x1]; simp) fun _ => ⟨x2, Or.inl x3⟩
        rw [x4, hl.number _ (hend.header hh)]
        show addSize d.bytesToRead _ = _
        rw [h0, addSize_zero]; rfl
    · obtain ⟨x, y⟩ := a2 hr
      exact rx_line h hlr ht a1 (y.trans h0) ⟨fun z => absurd z x, fun z => absurd z hr⟩
        fun z => absurd z hr
  drop d h _ _ _ := rx_drop h
  csq d h _ _ _ _ _ _ :=
    rx_said h ((said_sendCommand d b!"AT+CSQ").set rfl ⟨rfl, rfl, rfl, rfl, rfl, rfl⟩) (by decide)
      (by simp) rfl rfl
  mac d h _ _ _ _ _ _ :=
    rx_said h ((said_sendCommand d b!"AT+CIPSTAMAC").set rfl ⟨rfl, rfl, rfl, rfl, rfl, rfl⟩) (by decide)
      (by simp) rfl rfl
  act d h hr hw hp _ := by
    have hd : d.rep ≠ .parseStateCiprecvdata := by rw [hp]; simp
    by_cases hs : d.snd = .sendCiprecvdata
    · have e : act d = actCiprecvdata d := by simp only [act, hs]
      rw [e]
      unfold actCiprecvdata
      by_cases h1 : d.disconnectPending = true
      · rw [if_pos h1]
        exact h.note [] (by simp) (by simp) (by simp) (by simp) (by simp)
          (fun x => by have := (h.held (by simpa using x)).2; simp [hs] at this)
      · rw [if_neg h1]
        by_cases h2 : d.bytesToReceive > 0
        · rw [if_pos h2]
          dsimp only
          by_cases hq : (sendCiprcvdata d).2 = true
          · rw [if_pos hq]
            obtain ⟨g1, k, g3, ht⟩ := sendCiprcvdata_take hq
            exact rx_request h ht (askAmount_le d).1 (by simp) (by simp) rfl
              (fun x => by have := (h.held (by simpa using x)).2; simp [hs] at this)
          · rw [if_neg hq, sendCiprcvdata_false (by simpa using hq)]
            exact h.same rfl rfl rfl rfl rfl rfl
        · rw [if_neg h2]
          have hz : ∀ x : d.bytesToRead ≠ 0, False := fun x => by
            have := (h.held x).2; simp [hs] at this
          exact h.note [] (by simp) (by simp) rfl rfl Iff.rfl fun x => (hz x).elim
    · refine rx_turn h hd (act_rep hs hp) (by decide) ?_ (held_act h.held) (act_turn d)
      intro x
      rcases x with ⟨q, hq, hwq⟩ | ⟨_, x⟩
      · refine act_wait hw (hwq.trans ?_)
        have : q ∈ [b!"+CIPRECVDATA"] := hq
        rw [List.mem_singleton.mp this]
      · exact act_rep hs hp x

theorem rxI_own (p : Platform) : Own (RxI p) where
  reset d h := rx_reset h rfl rfl rfl (by simp [resetStates])
  ext _ _ h := h.same rfl rfl rfl rfl rfl rfl

end CC1352P7
end Verif
