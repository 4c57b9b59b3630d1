import Verif.Lemmas.Budget
import Verif.Lemmas.Stages

/-! The CC1352P7 driver opens a connection only if asked to or after a failure. -/

namespace Verif.CC1352P7

open Dev Spec

/-- A connection will be opened. -/
def opening (s : Snd) : Bool := Snd.connecting.idx ≤ s.idx && s.idx ≤ Snd.sendCipstart.idx

/-- Number of connections that may still be opened. -/
def due (d : D) : Int := u (opening d.snd) + u d.connectPending + u d.resetPending

abbrev balance : Observer Int := tally b!"AT+CIPSTART" badCC

/-- All that may be opened was asked for. -/
def Budget (d : D) : Prop := due d ≤ balance.after d.trace

theorem due_nonneg (d : D) : 0 ≤ due d := by
  have := u_nonneg (opening d.snd); have := u_nonneg d.connectPending; have := u_nonneg d.resetPending
  simp only [due]; omega

theorem Budget.same {d e : D} (h : Budget d) (h1 : e.snd = d.snd := by rfl)
    (h2 : e.connectPending = d.connectPending := by rfl)
    (h4 : e.resetPending = d.resetPending := by rfl)
    (h6 : balance.after e.trace = balance.after d.trace := by rfl) : Budget e := by
  simp only [Budget, due, h1, h2, h4, h6] at h ⊢
  exact h

/-- What is to be shown about a step of the state machine. -/
theorem Budget.next {d e : D} (h : Budget d) (k : Int) (hk : balance.after e.trace = balance.after d.trace - k)
    (hd : due e + k ≤ due d) : Budget e := by
  simp only [Budget] at h ⊢
  rw [hk]; omega

theorem budget_calls : Calls Budget where
  io _ _ _ _ _ h := h.same
  isOpen _ _ h := h.same
  host _ _ _ _ h := h.same
  conn d h _ _ := by
    have h2 := u_nonneg d.connectPending
    simp only [Budget, due, log, Observer.after_snoc, tally_conn, u_true] at h ⊢
    omega
  disc0 _ h _ := h.same (h6 := by simp [log])
  disc _ h _ := h.same (h6 := by simp [log])
  write0 _ h _ := h.same (h6 := by simp [log])
  write _ _ h _ := h.same (h6 := by simp [log])
  read _ _ h := h.same (h6 := by simp [log])
  rssi _ h := h.same
  userTx _ _ _ _ h := h.same (h6 := by simp)
  userRx _ _ _ _ h := h.same (h6 := by simp)

theorem budget_own : Own Budget where
  reset d h := by
    have h2 := due_nonneg d
    have e : due (resetStates d) = 0 := rfl
    simp only [Budget] at h ⊢
    rw [e]
    simp [resetStates]
    omega
  ext _ _ h := h.same

theorem tally_sendCiprcvdata (d : D) :
    balance.after (sendCiprcvdata d).1.trace = balance.after d.trace := by
  cases hq : (sendCiprcvdata d).2 with
  | false => rw [sendCiprcvdata_false hq]; rfl
  | true =>
    obtain ⟨g1, g2, g3, e⟩ := sendCiprcvdata_true hq
    rw [e]
    simp

theorem checkState_budget (p : Platform) (d : D) :
    (checkState p d).snd = d.snd ∧
    (checkState p d).connectPending = d.connectPending ∧ (checkState p d).resetPending = d.resetPending := by
  unfold checkState
  (repeat' split) <;> exact ⟨rfl, rfl, rfl⟩

theorem parseReply_budget (p : Platform) (d : D) :
    (opening (parseReply p d).snd = true → opening d.snd = true) ∧
    (parseReply p d).connectPending = d.connectPending ∧ (parseReply p d).resetPending = d.resetPending := by
  have hm : ∀ e : D, (parseMac e).snd = e.snd ∧ (parseMac e).connectPending = e.connectPending ∧
      (parseMac e).resetPending = e.resetPending := by
    intro e; unfold parseMac
    split <;> exact ⟨rfl, rfl, rfl⟩
  unfold parseReply
  split
  · dsimp only
    split
    · exact ⟨by simp [opening, Snd.idx], by simp, by simp⟩
    · exact ⟨by simp, by simp, by simp⟩
  · dsimp only
    obtain ⟨m1, m2, m3⟩ := hm (if (parseCsq p d).2 then { (parseCsq p d).1 with rep := .okReply } else (parseCsq p d).1)
    rw [m1, m2, m3]
    split <;> exact ⟨by simp, by simp, by simp⟩
  · obtain ⟨m1, m2, m3⟩ := hm d
    rw [m1, m2, m3]
    exact ⟨id, rfl, rfl⟩
  · exact ⟨id, rfl, rfl⟩

theorem parseLine_budget (p : Platform) {d : D} {l : List Byte} (hl : LineDone d l) (hr : d.resetPending = false) :
    (opening (parseLine p d).1.snd = true → opening d.snd = true) ∧
    (parseLine p d).1.connectPending = d.connectPending ∧
    ((parseLine p d).1.resetPending = true → badCC l = true) := by
  unfold parseLine
  split
  · rename_i he
    refine ⟨id, rfl, fun _ => ?_⟩
    simp only [isError, Bool.or_eq_true, Bool.and_eq_true] at he
    rcases he with he | ⟨_, he⟩ <;> simp [badCC, begins_of_has hl (by decide) he]
  · have aw : ∀ e : D, (parseWait e).snd = e.snd ∧ (parseWait e).connectPending = e.connectPending ∧
        (parseWait e).resetPending = e.resetPending := by
      intro e; unfold parseWait
      split <;> exact ⟨rfl, rfl, rfl⟩
    obtain ⟨w1, w2, w3⟩ := aw d
    obtain ⟨b1, b2, b3⟩ := parseReply_budget p (parseWait d)
    obtain ⟨c1, c2, c3⟩ := checkState_budget p (parseReply p (parseWait d))
    dsimp only
    rw [c1, c2, c3, b2, b3, w2, w3, hr]
    refine ⟨fun h => by rw [← w1]; exact b1 h, rfl, fun h => by simp at h⟩

theorem act_budget {d : D} (h : Budget d) (hr : d.resetPending = false) : Budget (act d) := by
  have hc := u_nonneg d.connectPending
  cases hsnd : d.snd
  case notConnected =>
    refine h.next 0 (by simp [act, hsnd]) ?_
    cases hx : d.connectPending <;> simp [act, hsnd, handleConnect, due, opening, hx, hr, Snd.idx]
  case sendCipstart =>
    refine h.next 1 ?_ ?_
    · simp only [act, hsnd, actCipstart]; (repeat' split) <;> simp
    · simp only [act, hsnd, actCipstart]; (repeat' split) <;> simp [due, opening, hsnd, Snd.idx] <;> omega
  case connected =>
    simp only [act, hsnd, actConnected]
    have e := tally_prepareSending (c := b!"AT+CIPSTART") (bad := badCC) d false (by decide)
    (repeat' split)
    · exact h.next 0 (by simp [e]) (by simp [due, opening, hsnd, Snd.idx])
    · exact h.next 0 (by simp [e]) (by simp [due, opening, hsnd, Snd.idx])
    · exact h.next 0 (by simp) (by simp [due, opening, hsnd, Snd.idx])
    · refine h.next 0 (by simp) ?_
      cases d.disconnectPending <;> simp [due, opening, hsnd, Snd.idx, handleDisconnect]
    · exact h.next 0 (by simp) (by simp [due, opening, hsnd, Snd.idx])
  case sendCiprecvdata =>
    simp only [act, hsnd, actCiprecvdata]
    have e := tally_sendCiprcvdata d
    split
    · rename_i hx
      exact h.next 0 (by simp) (by simp [due, opening, hsnd, Snd.idx, handleDisconnect, hx])
    · (repeat' split)
      · exact h.next 0 (by simp [e]) (by simp [due, opening, hsnd, Snd.idx])
      · exact h.next 0 (by simp [e]) (by simp [due, opening, hsnd, Snd.idx])
      · exact h.next 0 (by simp) (by simp [due, opening, hsnd, Snd.idx])
  case receiving =>
    simp only [act, hsnd, actReceiving]
    have e := tally_receive (c := b!"AT+CIPSTART") (bad := badCC) d
    (repeat' split)
    · exact h.next 0 (by simp [e]) (by simp [due, opening, hsnd, Snd.idx])
    · exact h.next 0 (by simp [e]) (by simp [due, opening, hsnd, Snd.idx])
    · exact h.next 0 (by simp) (by simp [due, opening, hsnd, Snd.idx])
    · exact h.next 0 (by simp) (by simp [due, opening, hsnd, Snd.idx])
  all_goals
    refine h.next 0 (by simp [act, hsnd]) ?_
    simp [act, hsnd, due, opening, Snd.idx]

theorem budget_sections (p : Platform) : Sections p Budget where
  fail d h _ := by
    have h2 := u_nonneg (opening d.snd)
    have e : u (opening .serialError) = 0 := rfl
    simp only [Budget, due] at h ⊢
    omega
  reset d h hr := by
    have ht : (handleReset d).trace = d.trace ++ [.flush] := by
      unfold handleReset ipConnect
      dsimp only
      (repeat' split) <;> simp
    have e0 : opening (handleReset d).snd = false := by
      unfold handleReset ipConnect
      dsimp only
      (repeat' split) <;> rfl
    have e2 : (handleReset d).resetPending = false := by
      unfold handleReset ipConnect
      dsimp only
      (repeat' split) <;> rfl
    refine h.next 0 (by simp [ht]) ?_
    have h1 := u_nonneg (opening d.snd)
    have h2 := u_nonneg d.connectPending
    have h3 := u_le_one (handleReset d).connectPending
    simp only [due, e0, e2, hr, u_true, u_false]
    omega
  line d s m l _ h hr _ hl _ _ := by
    obtain ⟨a1, a2, a3⟩ := parseLine_budget p (d := d.gotLine s m d.rep l) hl hr
    have h2 : u (opening (parseLine p (d.gotLine s m d.rep l)).1.snd) ≤ u (opening d.snd) := u_mono a1
    have h3 := u_mono a3
    have e : u (parseLine p (d.gotLine s m d.rep l)).1.connectPending = u d.connectPending := by rw [a2]
    simp only [Budget] at h ⊢
    rw [parseLine_trace]
    simp only [due, hr, u_false] at h ⊢
    rw [e, Observer.after_snoc, tally_line]
    cases hb : badCC l
    · rw [hb] at h3
      simp only [u_false, Bool.false_eq_true, if_false] at h3 ⊢
      omega
    · rw [hb] at h3
      simp only [u_true, if_true] at h3 ⊢
      omega
  drop d h _ _ _ := h.same (h6 := by simp)
  csq d h _ _ _ _ _ _ := h.same (by simp) (by simp) (by simp) (by simp)
  mac d h _ _ _ _ _ _ := h.same (by simp) (by simp) (by simp) (by simp)
  act d h hr _ _ _ := act_budget h hr

end Verif.CC1352P7
