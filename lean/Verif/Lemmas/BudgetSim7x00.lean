import Verif.Lemmas.Budget
import Verif.Lemmas.Stages

/-! The SIM7x00 driver opens a connection only if asked to or after a failure. -/

namespace Verif.Sim7x00

open Dev Spec

/-- A connection will be opened. -/
def opening (s : Snd) (r : Rep) : Bool :=
  (Snd.connecting.idx ≤ s.idx && s.idx ≤ Snd.sendCipopen.idx) || decide (r = .netopen)

abbrev opens (d : D) : Bool := opening d.snd d.rep

/-- Number of connections that may still be opened. -/
def due (d : D) : Int := u (opening d.snd d.rep) + u d.connectPending + u d.resetPending

abbrev balance : Observer Int := tally b!"AT+CIPOPEN" bad7x00

structure Budget (d : D) : Prop where
  le : due d ≤ balance.after d.trace
  wt : d.rep = .cipopen → d.wait = none ∨ d.wait = some b!"+CIPOPEN: 0,0"

theorem due_nonneg (d : D) : 0 ≤ due d := by
  have := u_nonneg (opening d.snd d.rep); have := u_nonneg d.connectPending; have := u_nonneg d.resetPending
  simp only [due]; omega

theorem Budget.same {d e : D} (h : Budget d) (h1 : e.snd = d.snd := by rfl)
    (h2 : e.connectPending = d.connectPending := by rfl) (h3 : e.rep = d.rep := by rfl)
    (h4 : e.resetPending = d.resetPending := by rfl) (h5 : e.wait = d.wait := by rfl)
    (h6 : balance.after e.trace = balance.after d.trace := by rfl) : Budget e := by
  refine ⟨?_, by rw [h3, h5]; exact h.wt⟩
  have := h.le
  simp only [due, opening, h1, h2, h3, h4, h6] at this ⊢
  exact this

theorem budget_calls : Calls Budget where
  io _ _ _ _ _ h := h.same
  isOpen _ _ h := h.same
  host _ _ _ _ h := h.same
  conn d h _ _ := by
    refine ⟨?_, h.wt⟩
    have h1 := h.le
    have h2 := u_nonneg d.connectPending
    simp only [due, log, Observer.after_snoc, tally_conn, u_true] at h1 ⊢
    omega
  disc0 _ h _ := h.same (h6 := by simp [log])
  disc _ h _ := h.same (h6 := by simp [log])
  write0 _ h _ := h.same (h6 := by simp [log])
  write _ _ h _ := h.same (h6 := by simp [log])
  read _ _ h := h.same (h6 := by simp [log])
  rssi _ h := h.same
  userTx _ _ _ _ h := h.same (h6 := by simp)
  userRx _ _ _ _ h := h.same (h6 := by simp)

theorem budget_own : Own Budget where
  reset d h := by
    refine ⟨?_, by intro hx; simp [SimDev.resetStates] at hx⟩
    have h1 := h.le
    have h2 := due_nonneg d
    have e : due (SimDev.resetStates d .notConnected .okReply) = 0 := rfl
    rw [e]
    simp [SimDev.resetStates]
    omega
  ext _ _ h := h.same
  lock _ h _ _ := h.same
  unlock _ h := h.same

theorem parseWait_budget {d : D} {l : List Byte} (hl : LineDone d l) (hr : d.resetPending = false) :
    opens (parseWait d).1 = opens d ∧ (parseWait d).1.connectPending = d.connectPending ∧
    (parseWait d).1.rep = d.rep ∧
    ((parseWait d).1.resetPending = true → bad7x00 l = true) ∧
    ((parseWait d).1.wait = none ∨ ((parseWait d).1 = d ∧ d.waitMatches = false)) := by
  unfold parseWait
  split
  · split
    · exact ⟨rfl, rfl, rfl, by simp [hr], Or.inl rfl⟩
    · rename_i hw
      split
      · rename_i he
        refine ⟨rfl, rfl, rfl, fun _ => ?_, Or.inl rfl⟩
        simp [bad7x00, begins_of_has hl (by decide) he]
      · exact ⟨rfl, rfl, rfl, by simp [hr], Or.inr ⟨rfl, by simpa using hw⟩⟩
  · rename_i hw
    exact ⟨rfl, rfl, rfl, by simp [hr], Or.inl (Classical.byContradiction hw)⟩

theorem checkState_budget (d : D) : opens (checkState d) = opens d ∧
    (checkState d).connectPending = d.connectPending ∧ (checkState d).resetPending = d.resetPending ∧
    (checkState d).rep = d.rep ∧ ((checkState d).wait = none ∨ (checkState d).wait = d.wait) := by
  unfold checkState
  split
  · unfold SimDev.checkConnectionState
    split
    · exact ⟨rfl, rfl, rfl, rfl, Or.inr rfl⟩
    · split
      · exact ⟨rfl, rfl, rfl, rfl, Or.inl rfl⟩
      · exact ⟨rfl, rfl, rfl, rfl, Or.inr rfl⟩
  · exact ⟨rfl, rfl, rfl, rfl, Or.inr rfl⟩

theorem parseDnsReply_budget {d : D} {l : List Byte} (hl : LineDone d l)
    (h : d.parseDnsReply.1.resetPending = true) : d.resetPending = true ∨ bad7x00 l = true := by
  unfold SimDev.parseDnsReply at h
  dsimp only at h
  split at h
  · split at h <;> exact Or.inl h
  · split at h
    · rename_i he
      exact Or.inr (by simp [bad7x00, begins_of_has hl (by decide) he])
    · exact Or.inl h

theorem parseReply_budget (p : Platform) {d : D} {l : List Byte} (hl : LineDone d l)
    (hw : d.rep = .cipopen → d.wait = none ∨ begins b!"+CIPOPEN: 0,0" l = false) :
    (opens (parseReply p d).1 = true → opens d = true) ∧
    (parseReply p d).1.connectPending = d.connectPending ∧
    ((parseReply p d).1.resetPending = true → d.resetPending = true ∨ bad7x00 l = true) ∧
    ((parseReply p d).1.rep = .cipopen → d.rep = .cipopen ∧ (parseReply p d).1.wait = d.wait) := by
  have hop : ∀ e : D, e.snd = d.snd → e.rep = .okReply → opens e = true → opens d = true := by
    intro e h1 h2 h3
    simp only [opening, h1, h2] at h3 ⊢
    simp only [Bool.or_eq_true] at h3 ⊢
    rcases h3 with h3 | h3
    · exact Or.inl h3
    · simp at h3
  have hop' : ∀ e : D, e.snd = d.snd → e.rep = d.rep → opens e = true → opens d = true := by
    intro e h1 h2 h3
    simpa only [opening, h1, h2] using h3
  unfold parseReply
  split <;> rename_i hrep
  · split
    · exact ⟨hop _ rfl rfl, rfl, Or.inl, fun h => by simp at h⟩
    · split
      · exact ⟨fun _ => by simp [opening, hrep], rfl, Or.inl, fun h => by simp at h⟩
      · exact ⟨id, rfl, Or.inl, fun h => by rw [hrep] at h; simp at h⟩
  · dsimp only
    split
    · exact ⟨hop _ (by simp) rfl, by simp, parseDnsReply_budget hl, fun h => by simp at h⟩
    · exact ⟨hop' _ (by simp) (by simp), by simp, parseDnsReply_budget hl, fun h => by simp [hrep] at h⟩
  · split
    · exact ⟨hop _ rfl rfl, rfl, Or.inl, fun h => by simp at h⟩
    · rename_i hn
      split
      · rename_i he
        refine ⟨hop' _ rfl rfl, rfl, fun _ => Or.inr ?_, fun _ => ⟨hrep, rfl⟩⟩
        have h0 := (hw hrep).resolve_left hn
        simp [bad7x00, begins_of_has hl (by decide) he, h0]
      · exact ⟨id, rfl, Or.inl, fun h => ⟨h, rfl⟩⟩
  · dsimp only
    split
    · exact ⟨hop _ (by simp) rfl, by simp, fun h => Or.inl (by simpa using h), fun h => by simp at h⟩
    · exact ⟨hop' _ (by simp) (by simp), by simp, fun h => Or.inl (by simpa using h), fun h => by simp [hrep] at h⟩
  · dsimp only
    split
    · refine ⟨fun h => ?_, by simp, fun h => Or.inl (by simpa using h), fun h => by simp at h⟩
      exact absurd h (by simp [opening, Snd.idx])
    · exact ⟨hop' _ (by simp) (by simp), by simp, fun h => Or.inl (by simpa using h), fun h => by simp [hrep] at h⟩
  · dsimp only
    split
    · exact ⟨hop _ (by simp) rfl, by simp, fun h => Or.inl (by simpa using h), fun h => by simp at h⟩
    · exact ⟨hop' _ (by simp) (by simp), by simp, fun h => Or.inl (by simpa using h), fun h => by simp [hrep] at h⟩
  · dsimp only
    split
    · exact ⟨hop _ (by simp) rfl, by simp, fun h => Or.inl (by simpa using h), fun h => by simp at h⟩
    · exact ⟨hop' _ (by simp) (by simp), by simp, fun h => Or.inl (by simpa using h), fun h => by simp [hrep] at h⟩
  · exact ⟨id, rfl, Or.inl, fun h => ⟨h, rfl⟩⟩
  · exact ⟨id, rfl, Or.inl, fun h => ⟨h, rfl⟩⟩

theorem parseLine_budget (p : Platform) {d : D} {l : List Byte} (hl : LineDone d l) (hr : d.resetPending = false)
    (hw : d.rep = .cipopen → d.wait = none ∨ d.wait = some b!"+CIPOPEN: 0,0") :
    (opens (parseLine p d).1 = true → opens d = true) ∧
    (parseLine p d).1.connectPending = d.connectPending ∧
    ((parseLine p d).1.resetPending = true → bad7x00 l = true) ∧
    ((parseLine p d).1.rep = .cipopen → (parseLine p d).1.wait = none ∨
      (parseLine p d).1.wait = some b!"+CIPOPEN: 0,0") := by
  obtain ⟨a1, a2, a3, a4, a5⟩ := parseWait_budget hl hr
  have al : LineDone (parseWait d).1 l := by
    unfold parseWait
    (repeat' split) <;> exact ⟨hl.text, hl.zero, hl.fill⟩
  unfold parseLine
  dsimp only
  split
  · rename_i hq
    refine ⟨by rw [a1]; exact id, a2, a4, fun _ => ?_⟩
    rcases a5 with a5 | ⟨a5, a6⟩
    · exact Or.inl a5
    · rw [a3] at *
      rw [a5]; exact hw (by assumption)
  · have hw' : (parseWait d).1.rep = .cipopen → (parseWait d).1.wait = none ∨ begins b!"+CIPOPEN: 0,0" l = false := by
      intro h
      rcases a5 with a5 | ⟨a5, a6⟩
      · exact Or.inl a5
      · rw [a5] at h ⊢
        rcases hw h with h0 | h0
        · exact Or.inl h0
        · right
          have := (hl.waitMatches_iff (by decide) h0)
          rw [a6] at this
          cases hb : begins b!"+CIPOPEN: 0,0" l with
          | false => rfl
          | true => exact absurd (this.mpr (List.isPrefixOf_iff_prefix.mp hb)) (by simp)
    obtain ⟨b1, b2, b3, b4⟩ := parseReply_budget p al hw'
    have hwt : (parseReply p (parseWait d).1).1.rep = .cipopen →
        (parseReply p (parseWait d).1).1.wait = none ∨
        (parseReply p (parseWait d).1).1.wait = some b!"+CIPOPEN: 0,0" := by
      intro h
      obtain ⟨h1, h2⟩ := b4 h
      rw [h2]
      rcases a5 with a5 | ⟨a5, a6⟩
      · exact Or.inl a5
      · rw [a5] at h1 ⊢; exact hw h1
    have hrs : (parseReply p (parseWait d).1).1.resetPending = true → bad7x00 l = true :=
      fun h => (b3 h).elim a4 id
    split
    · exact ⟨fun h => by rw [← a1]; exact b1 h, by rw [b2, a2], hrs, hwt⟩
    · obtain ⟨c1, c2, c3, c4, c5⟩ := checkState_budget (parseReply p (parseWait d).1).1
      refine ⟨fun h => by rw [← a1]; exact b1 (by rw [← c1]; exact h), by rw [c2, b2, a2],
        fun h => hrs (by rw [← c3]; exact h), fun h => ?_⟩
      rcases c5 with c5 | c5
      · exact Or.inl c5
      · rw [c5]; exact hwt (by rw [← c4]; exact h)

/-- What is to be shown about a step of the state machine. -/
theorem Budget.next {d e : D} (h : Budget d) (k : Int) (hk : balance.after e.trace = balance.after d.trace - k)
    (hd : due e + k ≤ due d)
    (hw : e.rep = .cipopen → e.wait = none ∨ e.wait = some b!"+CIPOPEN: 0,0") : Budget e := by
  refine ⟨?_, hw⟩
  have := h.le
  rw [hk]; omega

theorem act_budget {d : D} (h : Budget d) (hr : d.resetPending = false)
    (hp : d.rep = .okReply) : Budget (act d) := by
  have hc := u_nonneg d.connectPending
  cases hsnd : d.snd
  case notConnected =>
    refine h.next 0 (by simp [act, hsnd]) ?_ (by simp [act, hsnd, hp])
    cases hx : d.connectPending <;> simp [act, hsnd, handleConnect, due, opening, hx, hp, hr, Snd.idx]
  case sendCipopen =>
    refine h.next 1 ?_ ?_ ?_
    · simp only [act, hsnd, actCipopen]; split <;> simp
    · simp only [act, hsnd, actCipopen]; split <;> simp [due, opening, hsnd, Snd.idx] <;> omega
    · intro _; exact Or.inr (by simp [act, hsnd, actCipopen])
  case sendCgsockcont =>
    refine h.next 0 ?_ ?_ ?_
    · simp only [act, hsnd, actCgsockcont]; split <;> simp
    · simp only [act, hsnd, actCgsockcont]; split <;> simp [due, opening, hsnd, Snd.idx]
    · simp only [act, hsnd, actCgsockcont]; split <;> simp [hp]
  case sendDnsQuery =>
    simp only [act, hsnd]
    have e := tally_sendDnsQuery (c := b!"AT+CIPOPEN") (bad := bad7x00) d (by decide)
    split
    · refine h.next 0 (by simp [e]) ?_ (by simp)
      simp [due, opening, hsnd, Snd.idx]
    · refine h.next 0 (by simp [e]) ?_ (by simp [hp])
      simp [due, opening, hsnd, Snd.idx]
  case sendNetopen =>
    cases hx : d.disconnectPending
    · refine h.next 0 (by simp [act, hsnd, hx]) ?_ (by simp [act, hsnd, hx])
      simp [act, hsnd, hx, due, opening, Snd.idx]
    · refine h.next 0 (by simp [act, hsnd, hx]) ?_ (by simp [act, hsnd, hx, handleDisconnect, hp])
      simp [act, hsnd, hx, due, opening, Snd.idx, handleDisconnect, hp]
      omega
  case connected =>
    simp only [act, hsnd, actConnected]
    have e := tally_prepareSending (c := b!"AT+CIPOPEN") (bad := bad7x00) d true (by decide)
    split
    · split
      · refine h.next 0 ?_ ?_ ?_
        · split <;> simp [e]
        · split <;> simp [due, opening, hsnd, Snd.idx, hp]
        · split <;> simp [hp]
      · exact h.next 0 (by simp [e]) (by simp [due, opening, hsnd, Snd.idx, hp]) (by simp [hp])
    · split
      · exact h.next 0 (by simp) (by simp [due, opening, hsnd, Snd.idx, hp]) (by simp [hp])
      · refine h.next 0 (by simp) ?_ (by simp [hp])
        cases d.disconnectPending <;> simp [due, opening, hsnd, Snd.idx, hp, handleDisconnect]
  case sendCiprxget2 =>
    simp only [act, hsnd, actCiprxget2]
    have e := tally_sendCiprxget2 (c := b!"AT+CIPOPEN") (bad := bad7x00) d (by decide)
    split
    · rename_i hx
      exact h.next 0 (by simp) (by simp [due, opening, hsnd, Snd.idx, hp, handleDisconnect, hx]) (by simp [hp])
    · (repeat' split)
      · exact h.next 0 (by simp [e]) (by simp [due, opening, hsnd, Snd.idx, hp]) (by simp)
      · exact h.next 0 (by simp [e]) (by simp [due, opening, hsnd, Snd.idx, hp]) (by simp [hp])
      · exact h.next 0 (by simp) (by simp [due, opening, hsnd, Snd.idx, hp]) (by simp [hp])
      · exact h.next 0 (by simp) (by simp [due, opening, hsnd, Snd.idx, hp]) (by simp [hp])
  case receiving =>
    simp only [act, hsnd, actReceiving]
    have e := tally_receive (c := b!"AT+CIPOPEN") (bad := bad7x00) d
    (repeat' split)
    · exact h.next 0 (by simp [e]) (by simp [due, opening, hsnd, Snd.idx, hp]) (by simp)
    · exact h.next 0 (by simp [e]) (by simp [due, opening, hsnd, Snd.idx, hp]) (by simp [hp])
    · exact h.next 0 (by simp) (by simp [due, opening, hsnd, Snd.idx, hp]) (by simp [hp])
    · exact h.next 0 (by simp) (by simp [due, opening, hsnd, Snd.idx, hp]) (by simp [hp])
  case ipUnconnected =>
    cases hx : d.disconnectPending <;> cases hy : d.connectPending
    all_goals
      refine h.next 0 ?_ ?_ ?_
      · simp [act, hsnd, hx]
      · simp [act, hsnd, hx, due, opening, Snd.idx, handleDisconnect, handleConnect, hp, hy]
      · simp [act, hsnd, hx, handleDisconnect, handleConnect, hp, hy]
  all_goals
    refine h.next 0 (by simp [act, hsnd]) ?_ (by simp [act, hsnd, hp])
    simp [act, hsnd, due, opening, Snd.idx, hp]

theorem budget_sections (p : Platform) : Sections p Budget where
  fail d h _ := by
    refine ⟨?_, h.wt⟩
    have h1 := h.le
    have h2 : u (opening .serialError d.rep) ≤ u (opening d.snd d.rep) := u_mono fun hx => by
      simp [opening, Snd.idx] at hx
      simp [opening, hx]
    simp only [due] at h1 ⊢
    omega
  reset d h hr _ := by
    refine h.next 0 (by simp [handleReset]) ?_ (by simp [handleReset])
    have h1 := u_nonneg (opening d.snd d.rep)
    have h2 := u_nonneg d.connectPending
    have h3 := u_le_one (opening (handleReset d).snd (handleReset d).rep)
    have e1 : (handleReset d).connectPending = false := by simp [handleReset]
    have e2 : (handleReset d).resetPending = false := by simp [handleReset]
    simp only [due, e1, e2, hr, u_true, u_false]
    omega
  line d s m l _ h hr _ hl _ := by
    obtain ⟨a1, a2, a3, a4⟩ := parseLine_budget p (d := d.gotLine s m d.rep l) hl hr h.wt
    refine ⟨?_, a4⟩
    rw [parseLine_trace]
    have h1 := h.le
    have h2 : u (opening (parseLine p (d.gotLine s m d.rep l)).1.snd (parseLine p (d.gotLine s m d.rep l)).1.rep) ≤
        u (opening d.snd d.rep) := u_mono a1
    have h3 := u_mono a3
    have e : u (parseLine p (d.gotLine s m d.rep l)).1.connectPending = u d.connectPending := by rw [a2]
    simp only [due, hr, u_false] at h1 ⊢
    rw [e, Observer.after_snoc, tally_line]
    cases hb : bad7x00 l
    · rw [hb] at h3
      simp only [u_false, Bool.false_eq_true, if_false] at h3 ⊢
      omega
    · rw [hb] at h3
      simp only [u_true, if_true] at h3 ⊢
      omega
  drop d h _ _ _ := h.same (h6 := by simp)
  csq d h _ _ hp _ _ _ :=
    h.next 0 (by simp) (by simp [due, opening, hp]; try exact Int.le_refl _) (by simp)
  ident d h _ _ hp _ _ :=
    h.next 0 (by simp [tally_sendIDRequest (c := b!"AT+CIPOPEN") (bad := bad7x00) d iccidCommand (by decide)])
      (by simp [due, opening, hp]; try exact Int.le_refl _) (by simp)
  identNone d h hq :=
    h.same (by simp) (by simp) (by simp) (by simp) (by simp)
      (by rw [tally_sendIDRequest (c := b!"AT+CIPOPEN") (bad := bad7x00) d iccidCommand (by decide)])
  act d h hr _ hp _ := act_budget h hr hp

end Verif.Sim7x00
