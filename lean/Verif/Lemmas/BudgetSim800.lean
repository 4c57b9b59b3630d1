import Verif.Lemmas.Budget
import Verif.Lemmas.Stages

/-! The SIM800 driver opens a connection only if asked to or after a failure. -/

namespace Verif.Sim800

open Dev Spec

/-- A connection will be opened. -/
def opening (s : Snd) : Bool := Snd.connecting.idx ≤ s.idx && s.idx ≤ Snd.sendCipstart.idx

/-- Number of connections that may still be opened. -/
def due (d : D) : Int := u (opening d.snd) + u d.connectPending + u d.resetPending

abbrev balance : Observer Int := tally b!"AT+CIPSTART" bad800

/-- All that may be opened was asked for. -/
def Budget (d : D) : Prop := due d ≤ balance.after d.trace

theorem due_nonneg (d : D) : 0 ≤ due d := by
  have := u_nonneg (opening d.snd); have := u_nonneg d.connectPending; have := u_nonneg d.resetPending
  simp only [due]; omega

theorem Budget.same {d e : D} (h : Budget d) (h1 : e.snd = d.snd := by rfl)
    (h2 : e.connectPending = d.connectPending := by rfl)
    (h4 : e.resetPending = d.resetPending := by rfl)
    (h6 : balance.after e.trace = balance.after d.trace := by rfl) : Budget e := by
  simp only [Budget, due, h1, h2, h4, h6] at h ⊢
  exact h

/-- What is to be shown about a step of the state machine. -/
theorem Budget.next {d e : D} (h : Budget d) (k : Int) (hk : balance.after e.trace = balance.after d.trace - k)
    (hd : due e + k ≤ due d) : Budget e := by
  simp only [Budget] at h ⊢
  rw [hk]; omega

theorem budget_calls : Calls Budget where
  io _ _ _ _ _ h := h.same
  isOpen _ _ h := h.same
  host _ _ _ _ h := h.same
  conn d h _ _ := by
    have h2 := u_nonneg d.connectPending
    simp only [Budget, due, log, Observer.after_snoc, tally_conn, u_true] at h ⊢
    omega
  disc0 _ h _ := h.same (h6 := by simp [log])
  disc _ h _ := h.same (h6 := by simp [log])
  write0 _ h _ := h.same (h6 := by simp [log])
  write _ _ h _ := h.same (h6 := by simp [log])
  read _ _ h := h.same (h6 := by simp [log])
  rssi _ h := h.same
  userTx _ _ _ _ h := h.same (h6 := by simp)
  userRx _ _ _ _ h := h.same (h6 := by simp)

theorem budget_own : Own Budget where
  reset d h := by
    have h2 := due_nonneg d
    have e : due (SimDev.resetStates d .notConnected .okReply) = 0 := rfl
    simp only [Budget] at h ⊢
    rw [e]
    simp [SimDev.resetStates]
    omega
  ext _ _ h := h.same
  lock _ h _ _ := h.same
  unlock _ h := h.same

theorem parseDnsReply_budget {d : D} {l : List Byte} (hl : LineDone d l)
    (h : d.parseDnsReply.1.resetPending = true) : d.resetPending = true ∨ bad800 l = true := by
  unfold SimDev.parseDnsReply at h
  dsimp only at h
  split at h
  · split at h <;> exact Or.inl h
  · split at h
    · rename_i he
      exact Or.inr (by simp [bad800, begins_of_has hl (by decide) he])
    · exact Or.inl h

theorem parseReply_budget (p : Platform) {d : D} {l : List Byte} (hl : LineDone d l) :
    (opening (parseReply p d).snd = true → opening d.snd = true) ∧
    (parseReply p d).connectPending = d.connectPending ∧
    ((parseReply p d).resetPending = true → d.resetPending = true ∨ bad800 l = true) := by
  unfold parseReply
  split
  · split <;> exact ⟨id, rfl, Or.inl⟩
  · dsimp only
    split
    · exact ⟨by simp, by simp, parseDnsReply_budget hl⟩
    · exact ⟨by simp, by simp, parseDnsReply_budget hl⟩
  · split
    · rename_i hx
      exact ⟨by simp [handleDisconnect, hx, opening, Snd.idx], by simp, fun h => Or.inl (by simpa using h)⟩
    · split
      · exact ⟨id, rfl, Or.inl⟩
      · split
        · rename_i he
          exact ⟨id, rfl, fun _ => Or.inr (by simp [bad800, begins_of_has hl (by decide) he])⟩
        · exact ⟨id, rfl, Or.inl⟩
  · dsimp only
    split <;> exact ⟨by simp, by simp, fun h => Or.inl (by simpa using h)⟩
  · dsimp only
    split
    · exact ⟨by simp [opening, Snd.idx], by simp, fun h => Or.inl (by simpa using h)⟩
    · exact ⟨by simp, by simp, fun h => Or.inl (by simpa using h)⟩
  · dsimp only
    (repeat' split) <;> exact ⟨by simp, by simp, fun h => Or.inl (by simpa using h)⟩
  · dsimp only
    split <;> exact ⟨by simp, by simp, fun h => Or.inl (by simpa using h)⟩
  · exact ⟨id, rfl, Or.inl⟩

theorem parseLine_budget (p : Platform) {d : D} {l : List Byte} (hl : LineDone d l) (hr : d.resetPending = false) :
    (opening (parseLine p d).1.snd = true → opening d.snd = true) ∧
    (parseLine p d).1.connectPending = d.connectPending ∧
    ((parseLine p d).1.resetPending = true → bad800 l = true) := by
  unfold parseLine
  split
  · rename_i he
    refine ⟨id, rfl, fun _ => ?_⟩
    simp only [isError, Bool.or_eq_true] at he
    rcases he with (he | he) | he <;> simp [bad800, begins_of_has hl (by decide) he]
  · have al : LineDone (parseWait d) l := by
      unfold parseWait
      split <;> exact ⟨hl.text, hl.zero, hl.fill⟩
    have aw : (parseWait d).snd = d.snd ∧ (parseWait d).connectPending = d.connectPending ∧
        (parseWait d).resetPending = d.resetPending := by
      unfold parseWait
      split <;> exact ⟨rfl, rfl, rfl⟩
    obtain ⟨b1, b2, b3⟩ := parseReply_budget p al
    have c : ∀ e : D, (checkState e).snd = e.snd ∧ (checkState e).connectPending = e.connectPending ∧
        (checkState e).resetPending = e.resetPending := by
      intro e; unfold checkState; split <;> simp
    obtain ⟨c1, c2, c3⟩ := c (parseReply p (parseWait d))
    dsimp only
    rw [c1, c2, c3]
    refine ⟨fun h => by rw [← aw.1]; exact b1 h, by rw [b2, aw.2.1], fun h => ?_⟩
    rcases b3 h with h1 | h1
    · rw [aw.2.2, hr] at h1; simp at h1
    · exact h1

theorem act_budget {d : D} (h : Budget d) (hr : d.resetPending = false) : Budget (act d) := by
  have hc := u_nonneg d.connectPending
  cases hsnd : d.snd
  case notConnected =>
    refine h.next 0 (by simp [act, hsnd]) ?_
    cases hx : d.connectPending <;> simp [act, hsnd, handleConnect, due, opening, hx, hr, Snd.idx]
  case sendCipstart =>
    refine h.next 1 ?_ ?_
    · simp only [act, hsnd, actCipstart]; split <;> simp
    · simp only [act, hsnd, actCipstart]; split <;> simp [due, opening, hsnd, Snd.idx] <;> omega
  case sendCstt =>
    refine h.next 0 ?_ ?_
    · simp only [act, hsnd, actCstt]; split <;> simp
    · simp only [act, hsnd, actCstt]; split <;> simp [due, opening, hsnd, Snd.idx]
  case sendCifsr =>
    cases hx : d.disconnectPending
    · refine h.next 0 (by simp [act, hsnd, hx]) ?_
      simp [act, hsnd, hx, due, opening, Snd.idx]
    · refine h.next 0 (by simp [act, hsnd, hx]) ?_
      simp [act, hsnd, hx, due, opening, Snd.idx, handleDisconnect]
      omega
  case sendDnsQuery =>
    simp only [act, hsnd]
    have e := tally_sendDnsQuery (c := b!"AT+CIPSTART") (bad := bad800) d (by decide)
    split
    · exact h.next 0 (by simp [e]) (by simp [due, opening, hsnd, Snd.idx])
    · exact h.next 0 (by simp [e]) (by simp [due, opening, hsnd, Snd.idx])
  case connected =>
    simp only [act, hsnd, actConnected]
    have e := tally_prepareSending (c := b!"AT+CIPSTART") (bad := bad800) d true (by decide)
    (repeat' split)
    · exact h.next 0 (by simp [e]) (by simp [due, opening, hsnd, Snd.idx])
    · exact h.next 0 (by simp [e]) (by simp [due, opening, hsnd, Snd.idx])
    · exact h.next 0 (by simp) (by simp [due, opening, hsnd, Snd.idx])
    · refine h.next 0 (by simp) ?_
      cases d.disconnectPending <;> simp [due, opening, hsnd, Snd.idx, handleDisconnect]
    · exact h.next 0 (by simp) (by simp [due, opening, hsnd, Snd.idx])
  case sendCiprxget2 =>
    simp only [act, hsnd, actCiprxget2]
    have e := tally_sendCiprxget2 (c := b!"AT+CIPSTART") (bad := bad800) d (by decide)
    split
    · rename_i hx
      exact h.next 0 (by simp) (by simp [due, opening, hsnd, Snd.idx, handleDisconnect, hx])
    · (repeat' split)
      · exact h.next 0 (by simp [e]) (by simp [due, opening, hsnd, Snd.idx])
      · exact h.next 0 (by simp [e]) (by simp [due, opening, hsnd, Snd.idx])
      · exact h.next 0 (by simp) (by simp [due, opening, hsnd, Snd.idx])
      · exact h.next 0 (by simp) (by simp [due, opening, hsnd, Snd.idx])
  case receiving =>
    simp only [act, hsnd, actReceiving]
    have e := tally_receive (c := b!"AT+CIPSTART") (bad := bad800) d
    (repeat' split)
    · exact h.next 0 (by simp [e]) (by simp [due, opening, hsnd, Snd.idx])
    · exact h.next 0 (by simp [e]) (by simp [due, opening, hsnd, Snd.idx])
    · exact h.next 0 (by simp) (by simp [due, opening, hsnd, Snd.idx])
    · exact h.next 0 (by simp) (by simp [due, opening, hsnd, Snd.idx])
  case ipUnconnected =>
    cases hx : d.disconnectPending <;> cases hy : d.connectPending
    all_goals
      refine h.next 0 ?_ ?_
      · simp [act, hsnd, hx]
      · simp [act, hsnd, hx, due, opening, Snd.idx, handleDisconnect, handleConnect, hy]
  case sendCipclose =>
    cases hx : d.ipConnected
    all_goals
      refine h.next 0 ?_ ?_
      · simp [act, hsnd, hx]
      · simp [act, hsnd, hx, due, opening, Snd.idx]
  all_goals
    refine h.next 0 (by simp [act, hsnd]) ?_
    simp [act, hsnd, due, opening, Snd.idx]

theorem budget_sections (p : Platform) : Sections p Budget where
  fail d h _ := by
    have h2 := u_nonneg (opening d.snd)
    have e : u (opening .serialError) = 0 := rfl
    simp only [Budget, due] at h ⊢
    omega
  reset d h hr _ := by
    have e : (handleReset d).trace = d.trace ++ [.flush] := by
      unfold handleReset
      dsimp only
      split
      · simp [SimDev.connect, ipConnect]
        (repeat' split) <;> simp
      · simp
    refine h.next 0 (by simp [e]) ?_
    have e0 : opening (handleReset d).snd = false := by
      unfold handleReset
      dsimp only
      have hc : ∀ e : D, (SimDev.connect e).1.snd = e.snd := by
        intro e; unfold SimDev.connect ipConnect; (repeat' split) <;> rfl
      split
      · rw [hc]; dsimp only; split <;> rfl
      · dsimp only; split <;> rfl
    have h1 := u_nonneg (opening d.snd)
    have h2 := u_nonneg d.connectPending
    have h3 := u_le_one (handleReset d).connectPending
    have e2 : (handleReset d).resetPending = false := by
      unfold handleReset
      dsimp only
      split
      · simp [SimDev.connect, ipConnect]
        (repeat' split) <;> simp
      · simp
    simp only [due, e0, e2, hr, u_true, u_false]
    omega
  line d s m l _ h hr _ hl _ := by
    obtain ⟨a1, a2, a3⟩ := parseLine_budget p (d := d.gotLine s m d.rep l) hl hr
    have h2 : u (opening (parseLine p (d.gotLine s m d.rep l)).1.snd) ≤ u (opening d.snd) := u_mono a1
    have h3 := u_mono a3
    have e : u (parseLine p (d.gotLine s m d.rep l)).1.connectPending = u d.connectPending := by rw [a2]
    simp only [Budget] at h ⊢
    rw [parseLine_trace]
    simp only [due, hr, u_false] at h ⊢
    rw [e, Observer.after_snoc, tally_line]
    cases hb : bad800 l
    · rw [hb] at h3
      simp only [u_false, Bool.false_eq_true, if_false] at h3 ⊢
      omega
    · rw [hb] at h3
      simp only [u_true, if_true] at h3 ⊢
      omega
  drop d h _ _ _ := h.same (h6 := by simp)
  csq d h _ _ _ _ _ _ := h.same (by simp) (by simp) (by simp) (by simp)
  ident d h _ _ _ _ _ :=
    h.same (by simp) (by simp) (by simp)
      (by simp [tally_sendIDRequest (c := b!"AT+CIPSTART") (bad := bad800) d iccidCommand (by decide)])
  identNone d h hq :=
    h.same (by simp) (by simp) (by simp)
      (by rw [tally_sendIDRequest (c := b!"AT+CIPSTART") (bad := bad800) d iccidCommand (by decide)])
  act d h hr _ _ _ := act_budget h hr

end Verif.Sim800
