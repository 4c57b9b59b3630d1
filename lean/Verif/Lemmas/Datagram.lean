import Verif.Lemmas.Rescue

/-! Datagrams that are bigger than the receive buffer of the serial device (WiFi driver). -/

namespace Verif.Espressif

open Dev Spec

/-- A datagram was announced that the serial device cannot hold; the driver has not begun to wait for it. -/
structure Looming (d : D) : Prop where
  inv : Inv d
  line : d.lineRead = false
  reset : d.resetPending = false
  snd : d.snd = .connected
  wait : d.wait = none
  rep : d.rep = .okReply
  data : d.dataPending = true
  typ : d.typ ≠ .tcp
  big : d.ser.rx.ring.size < d.bytesToRead
  stay : d.disconnectPending = false

theorem prepare_cases (d : D) :
    d.prepareSending false = (d.askSpace, false) ∨
    ((d.prepareSending false).2 = true ∧ (d.prepareSending false).1.wait = some b!">" ∧
      ∃ g a b, (d.prepareSending false).1.trace = d.trace ++ [.cmd b!"AT+CIPSEND=" g, .arg a b]) := by
  unfold prepareSending
  split
  · exact .inl rfl
  · refine .inr ⟨rfl, rfl, ?_⟩
    dsimp only
    simp only [Bool.false_eq_true, if_false]
    split <;> exact ⟨_, _, _, by simp [Dev.arg, Dev.cmd]; exact ⟨rfl, rfl, rfl⟩⟩

/-- What `proceed` makes of such a state: nothing; the announcement of a transmission; the driver waits for
the datagram. -/
theorem looming_proceed (p : Platform) {d : D} (hl : d.lineRead = false) (hs : d.snd = .connected)
    (hw : d.wait = none) (hrp : d.rep = .okReply) (hdp : d.dataPending = true) (htyp : d.typ ≠ .tcp) :
    (proceed p d).lineRead = d.lineRead ∧ (proceed p d).resetPending = d.resetPending ∧
    (proceed p d).bytesToRead = d.bytesToRead ∧ (proceed p d).disconnectPending = d.disconnectPending ∧
    ((proceed p d).typ = d.typ ∧
     (((proceed p d).trace = d.trace ∧ (proceed p d).snd = .connected ∧ (proceed p d).wait = none ∧
        (proceed p d).rep = .okReply ∧ (proceed p d).dataPending = true) ∨
      ((proceed p d).wait ≠ none ∧ (proceed p d).snd = .sendDataState ∧ Deaf d.trace (proceed p d).trace) ∨
      ((proceed p d).trace = d.trace ∧ (proceed p d).snd = .receiving))) := by
  unfold proceed
  rw [if_neg (by rw [hw, hrp]; simp)]
  split
  · exact ⟨rfl, rfl, rfl, rfl, rfl, .inl ⟨rfl, hs, hw, hrp, hdp⟩⟩
  · rw [sendNext_off p (d := askSpace d) hl]
    have e : act (askSpace d) = actConnected (askSpace d) := by
      have : (askSpace d).snd = .connected := hs
      simp only [act, this]
    rw [e]
    unfold actConnected
    split
    · dsimp only
      rcases prepare_cases (askSpace d) with h | ⟨h1, h2, g, a, b, h3⟩
      · rw [h]
        exact ⟨rfl, rfl, rfl, rfl, rfl, .inl ⟨rfl, hs, hw, hrp, hdp⟩⟩
      · rw [if_pos h1]
        refine ⟨by simp, by simp, by simp, by simp, by simp, .inr (.inl ⟨?_, rfl, ?_⟩)⟩
        · show ((askSpace d).prepareSending false).1.wait ≠ none
          rw [h2]; simp
        · refine deaf_cmd (w := b!"AT+CIPSEND=") (g := g)
            (rest := [.arg a b, .arg lineEnd (lineEnd.take (((askSpace d).prepareSending false).1.ser.writeStr lineEnd).2)]) ?_ ?_
          · show ((askSpace d).prepareSending false).1.trace ++ _ = _
            rw [h3]
            simp [askSpace]
          · intro e he
            simp only [List.mem_cons, List.not_mem_nil, or_false] at he
            rcases he with rfl | rfl <;> exact ⟨_, _, rfl⟩
    · have hdp' : (askSpace d).dataPending = true := hdp
      rw [if_pos hdp']
      refine ⟨rfl, rfl, rfl, rfl, rfl, .inr (.inr ⟨rfl, ?_⟩)⟩
      show (if d.typ = .tcp then Snd.sendCiprecvdata else Snd.receiving) = _
      rw [if_neg htyp]

/-- Nothing is done any more, or it will soon be so. -/
theorem looming_next (p : Platform) {d : D} (hv : Inv (proceed p d)) (hz : (proceed p d).ser.rx.ring.size = d.ser.rx.ring.size)
    (hl : d.lineRead = false) (hr : d.resetPending = false) (hs : d.snd = .connected)
    (hw : d.wait = none) (hrp : d.rep = .okReply) (hdp : d.dataPending = true) (htyp : d.typ ≠ .tcp)
    (hb : d.ser.rx.ring.size < d.bytesToRead) (hd : d.disconnectPending = false) :
    (Looming (proceed p d) ∧ Silent d.trace (proceed p d).trace) ∨
    ((Large (proceed p d) ∨ Stuck (proceed p d)) ∧ Deaf d.trace (proceed p d).trace) := by
  obtain ⟨h1, h2, h3, h4, h5, h6⟩ := looming_proceed p hl hs hw hrp hdp htyp
  rcases h6 with ⟨t, a, b, c, e⟩ | ⟨a, b, c⟩ | ⟨t, a⟩
  · exact .inl ⟨⟨hv, h1.trans hl, h2.trans hr, a, b, c, e, by rw [h5]; exact htyp, by rw [hz, h3]; exact hb,
      h4.trans hd⟩, silent_refl t⟩
  · exact .inr ⟨.inr ⟨h1.trans hl, h2.trans hr, .inl a, by rw [b]; simp⟩, c⟩
  · exact .inr ⟨.inl ⟨hv, h1.trans hl, h2.trans hr, .inl a, by rw [hz, h3]; exact hb, h4.trans hd⟩,
      (silent_refl t).deaf⟩

theorem looming_run (p : Platform) {d : D} (ok : Bool) (h : Looming d) :
    (Looming (run p d ok) ∧ Silent d.trace (run p d ok).trace) ∨
    ((Large (run p d ok) ∨ Stuck (run p d ok)) ∧ Deaf d.trace (run p d ok).trace) := by
  have hv : Inv (run p d ok) := step_inv p (.run ok) h.inv
  have hz : (run p d ok).ser.rx.ring.size = d.ser.rx.ring.size := (later_step p d (.run ok)).rxSize
  by_cases ho : d.isOpen = false
  · have e : run p d ok = tryOpen d ok := by unfold run; rw [if_pos ho]
    rw [e] at hv ⊢
    unfold tryOpen at hv ⊢
    split at hv
    · rename_i hk
      rw [if_pos hk]
      exact .inl ⟨⟨hv, h.line, h.reset, h.snd, h.wait, h.rep, h.data, h.typ, h.big, h.stay⟩, silent_refl rfl⟩
    · rename_i hk
      rw [if_neg hk]
      exact .inr ⟨.inl ⟨hv, h.line, h.reset, .inr rfl, h.big, h.stay⟩, (silent_refl rfl).deaf⟩
  · have e : run p d ok = proceed p d := by
      unfold run
      rw [if_neg ho, h.reset]
      simp only [Bool.false_eq_true, if_false]
      exact work_deaf p h.line (by rw [h.snd]; simp)
    rw [e] at hv hz ⊢
    exact looming_next p hv hz h.line h.reset h.snd h.wait h.rep h.data h.typ h.big h.stay

/-- Calls which do not matter here: no `resetStates()`, no `disconnect()`, no change to TCP. -/
def Hands (op : Op) : Prop :=
  (op ≠ .resetStates ∧ op ≠ .disconnect) ∧ ∀ h q, op ≠ .setHostPort h q .tcp

theorem looming_step (p : Platform) (d : D) (op : Op) (ho : Hands op) (h : Looming d) :
    (Looming (step p d op) ∧ Silent d.trace (step p d op).trace) ∨
    ((Large (step p d op) ∨ Stuck (step p d op)) ∧ Deaf d.trace (step p d op).trace) := by
  by_cases hr : ∃ ok, op = .run ok
  · obtain ⟨ok, rfl⟩ := hr
    exact looming_run p ok h
  · have c := calm_step p d op ho.1.1 fun ok e => hr ⟨ok, e⟩
    have hx : (step p d op).dataPending = true ∧ (step p d op).disconnectPending = false ∧
        (step p d op).typ ≠ .tcp := by
      have h1 := h.data
      have h2 := h.stay
      have h3 := h.typ
      have h4 := ho.2
      cases op
      case setHostPort a b ct => exact ⟨h1, h2, fun e => h4 a b (by have e : ct = .tcp := e; rw [e])⟩
      all_goals first
        | exact absurd rfl ho.1.1
        | exact absurd rfl ho.1.2
        | exact absurd ⟨_, rfl⟩ hr
        | (simp only [step, common, logConnect, connect, ipConnect, Dev.write, Dev.read, Dev.log, Dev.requestRSSI, Dev.serialWrite, Dev.serialRead]
           (repeat' split) <;> first
            | exact ⟨h1, h2, h3⟩
            | (exact absurd h2 (by simp_all)))
    exact .inl ⟨⟨step_inv p op h.inv, by rw [c.lineRead]; exact h.line, by rw [c.resetPending]; exact h.reset,
      by rw [c.snd]; exact h.snd, by rw [c.wait]; exact h.wait, by rw [c.rep]; exact h.rep, hx.1, hx.2.2,
      by rw [c.bytesToRead, (later_step p d op).rxSize]; exact h.big, hx.2.1⟩, c.trace⟩

theorem proceed_first (p : Platform) (d : D) (l : List Byte) (rest : List Ev) :
    (proceed p d).trace ≠ d.trace ++ .line l :: rest := by
  have hn : ∀ (e : D) (new : List Ev), (∀ l', new.head? ≠ some (.line l')) → e.trace = d.trace ++ new →
      e.trace ≠ d.trace ++ .line l :: rest := by
    intro e new h1 h2 h
    rw [h2] at h
    have := List.append_cancel_left h
    rw [this] at h1
    exact h1 l rfl
  unfold proceed
  split
  · exact hn _ [] (by simp) (by simp)
  · split
    · exact hn _ [] (by simp) (by simp [askSpace])
    · have ht : d.trace = (askSpace d).trace := rfl
      rw [ht] at hn ⊢
      generalize askSpace d = d at hn ⊢
      unfold sendNext
      split
      · exact hn _ _ (by simp) (sendCommand_trace2 d _)
      · split
        · exact hn _ _ (by simp) (sendCommand_trace2 d _)
        · cases act_turn d with
          | quiet ht => exact hn _ [] (by simp) (by simp [ht])
          | cmd w g rest ht => exact hn _ _ (by simp) ht
          | send rest ht => exact hn _ _ (by simp) ht
          | pay h0 ht => exact hn _ _ (by simp) ht
          | data h0 hq h1 ht =>
            by_cases hb : d.serAvail ≥ d.bytesToRead
            · refine hn _ [.data (d.askAvail.ser.readLoop d.askAvail.bytesToRead).2] (by simp) ?_
              rw [ht]
              unfold receive
              rw [if_pos hb]
              rfl
            · refine hn _ [] (by simp) ?_
              rw [ht]
              unfold receive
              rw [if_neg hb]
              simp [askAvail]

/-- The announcement of a datagram was read. -/
theorem datagram_header (p : Platform) {d : D} (hv : Inv d) (hrs : d.resetPending = false)
    (htyp : d.typ ≠ .tcp) (hs : d.snd = .connected)
    (hw : d.wait = none) (hrp : d.rep = .okReply) (hb : d.bytesToRead = 0)
    {ok : Bool} {l : List Byte} {rest : List Ev}
    (ht : (run p d ok).trace = d.trace ++ .line l :: rest) (hl : b!"+IPD" <+: l) (h5 : 5 ≤ l.length) :
    ∃ s m, s.rx.ring.size = d.ser.rx.ring.size ∧
      run p d ok = proceed p { d.gotLine s m d.rep l with bytesToRead := numberAt p l 5, lineRead := false, dataPending := true } := by
  have hne : ∀ e : D, e.trace = d.trace → e.trace ≠ d.trace ++ .line l :: rest := by
    intro e he h
    rw [he] at h
    have := congrArg List.length h
    simp at this
  unfold run at ht ⊢
  by_cases ho : d.isOpen = false
  · rw [if_pos ho] at ht
    refine absurd ht (hne _ ?_)
    unfold tryOpen; split <;> rfl
  rw [if_neg ho, hrs] at ht ⊢
  simp only [Bool.false_eq_true, if_false] at ht ⊢
  unfold work at ht ⊢
  dsimp only at ht ⊢
  rcases fillLine_cases d (lineStop d.typ d.rep) (stopOk d.typ d.rep).full hv.line with
    ⟨s, m, k, e⟩ | ⟨hlr, s, m, r, l', eq0, hd, hlo, m', c, h3, htk, _⟩
  · exfalso
    have e' : fillLineBuffer d = (d.setIo s m k, false) := e
    rw [e'] at ht
    simp only [Bool.false_eq_true, if_false] at ht
    have e2 : flushIfDisconnecting (d.setIo s m k) = d.setIo s m k := by
      unfold flushIfDisconnecting; rw [if_neg (by simp [hs])]
    rw [e2] at ht
    exact proceed_first p (d.setIo s m k) l rest ht
  · have e' : fillLineBuffer d = (d.gotLine s m r l', true) := eq0
    rw [e'] at ht ⊢
    simp only [if_true] at ht ⊢
    have hll : l' = l := by
      have hnew : ∃ new, (if (parseLine p (d.gotLine s m r l')).2 = true
          then (parseLine p (d.gotLine s m r l')).1
          else proceed p (parseLine p (d.gotLine s m r l')).1).trace = d.trace ++ .line l' :: new := by
        split
        · exact ⟨[], by rw [parseLine_trace]⟩
        · obtain ⟨new, h⟩ := proceed_grows p (parseLine p (d.gotLine s m r l')).1
          exact ⟨new, by rw [h, parseLine_trace]; simp⟩
      obtain ⟨new, h⟩ := hnew
      have := h.symm.trans ht
      have := List.append_cancel_left this
      injection this with x _
      injection x
    subst hll
    have hr : r = d.rep := by
      rcases repAfter_of_stop h3 htk with h | ⟨_, _, h | h⟩
      · exact h
      · exact absurd (not_prefix (List.isPrefixOf_iff_prefix.mpr h) (c := b!"+IPD") (by decide))
          (by rw [List.isPrefixOf_iff_prefix.mpr hl]; simp)
      · exact absurd (not_prefix (List.isPrefixOf_iff_prefix.mpr h) (c := b!"+IPD") (by decide))
          (by rw [List.isPrefixOf_iff_prefix.mpr hl]; simp)
    subst hr
    have hno : ∀ lit : List Byte, (0 : Byte) ∉ lit → ¬ (lit <+: b!"+IPD" ∨ b!"+IPD" <+: lit) →
        (d.gotLine s m d.rep l').has lit = false := fun lit h0 h1 => by
      rw [hd.has_iff h0]; exact not_prefix (List.isPrefixOf_iff_prefix.mpr hl) h1
    have hipd : strncmpEq (d.gotLine s m d.rep l').line.cells b!"+IPD," 4 = true := by
      have h1 : (d.gotLine s m d.rep l').has b!"+IPD" = true := by
        rw [hd.has_iff (by decide)]; exact List.isPrefixOf_iff_prefix.mpr hl
      exact h1
    have hnum := hd.number p.long64 h5
    have hpl : parseLine p (d.gotLine s m d.rep l') =
        ({ d.gotLine s m d.rep l' with
            bytesToRead := numberAt p l' 5, lineRead := false, dataPending := true }, false) := by
      unfold parseLine
      rw [if_neg (by unfold isError; rw [hno b!"ERROR" (by decide) (by decide), hno b!"FAIL" (by decide) (by decide)]; simp)]
      have e2 : parseSendFail (d.gotLine s m d.rep l') = d.gotLine s m d.rep l' := by
        unfold parseSendFail
        rw [if_neg (by rw [hno b!"SEND FAIL" (by decide) (by decide)]; simp)]
      have e3 : parseWait (d.gotLine s m d.rep l') = d.gotLine s m d.rep l' := by
        unfold parseWait waitMatches
        simp [hw]
      have e4 : parseReply p (d.gotLine s m d.rep l') = d.gotLine s m d.rep l' := by
        have : (d.gotLine s m d.rep l').rep = .okReply := hrp
        unfold parseReply
        rw [this]
      rw [e2, e3, e4]
      unfold checkState
      rw [if_pos (by show Snd.connected.idx ≤ d.snd.idx; rw [hs]; exact Nat.le_refl _), if_pos hipd]
      dsimp only
      rw [if_neg (by exact htyp), hnum]
      have : addSize d.bytesToRead (toInt (strtol p.long64 (l'.drop 5))) = numberAt p l' 5 := by
        rw [hb, addSize_zero]; rfl
      rw [this]
    rw [hpl]
    simp only [Bool.false_eq_true, if_false]
    have hz0 : s.rx.ring.size = d.ser.rx.ring.size := by
      have := later_fillLine d (lineStop d.typ d.rep)
      rw [eq0] at this
      exact this.rxSize
    exact ⟨s, m, hz0, rfl⟩

/-- A datagram was announced that the serial device cannot hold. -/
theorem looming_header (p : Platform) {d : D} (hv : Inv d) (hrs : d.resetPending = false)
    (hdp : d.disconnectPending = false) (htyp : d.typ ≠ .tcp) (hs : d.snd = .connected)
    (hw : d.wait = none) (hrp : d.rep = .okReply) (hb : d.bytesToRead = 0)
    {ok : Bool} {l : List Byte} {rest : List Ev}
    (ht : (run p d ok).trace = d.trace ++ .line l :: rest) (hl : b!"+IPD" <+: l) (h5 : 5 ≤ l.length)
    (hn : d.ser.rx.ring.size < numberAt p l 5) :
    (Looming (run p d ok) ∧ Silent (d.trace ++ [.line l]) (run p d ok).trace) ∨
    ((Large (run p d ok) ∨ Stuck (run p d ok)) ∧ Deaf (d.trace ++ [.line l]) (run p d ok).trace) := by
  have hv' : Inv (run p d ok) := step_inv p (.run ok) hv
  have hz : (run p d ok).ser.rx.ring.size = d.ser.rx.ring.size := (later_step p d (.run ok)).rxSize
  obtain ⟨s, m, hz0, e⟩ := datagram_header p hv hrs htyp hs hw hrp hb ht hl h5
  rw [e] at hv' hz ⊢
  exact looming_next p hv' (hz.trans hz0.symm) rfl hrs hs hw hrp rfl htyp
    (by show s.rx.ring.size < _; rw [hz0]; exact hn) hdp

theorem looming_header_exec (p : Platform) {d : D} (hv : Inv d) (hrs : d.resetPending = false)
    (hdp : d.disconnectPending = false) (htyp : d.typ ≠ .tcp) (hs : d.snd = .connected)
    (hw : d.wait = none) (hrp : d.rep = .okReply) (hb : d.bytesToRead = 0)
    {ok : Bool} {l : List Byte} {rest : List Ev}
    (ht : (run p d ok).trace = d.trace ++ .line l :: rest) (hl : b!"+IPD" <+: l) (h5 : 5 ≤ l.length)
    (hn : d.ser.rx.ring.size < numberAt p l 5) (ops : List Op) (ho : ∀ op ∈ ops, Hands op) :
    Deaf (d.trace ++ [.line l]) (exec (step p) (run p d ok) ops).trace := by
  have hJ : ∀ (d : D) op, Hands op → (Large d ∨ Stuck d) →
      (Large (step p d op) ∨ Stuck (step p d op)) ∧ Silent d.trace (step p d op).trace := by
    rintro d op hi (h | h)
    · exact ⟨.inl (large_step p d op hi.1 h).1, (large_step p d op hi.1 h).2⟩
    · exact ⟨.inr (stuck_step p d op hi.1.1 h).1, (stuck_step p d op hi.1.1 h).2⟩
  rcases looming_header p hv hrs hdp htyp hs hw hrp hb ht hl h5 hn with ⟨h, h2⟩ | ⟨h, h2⟩
  · exact h2.then_deaf (exec_deaf (tr := (·.trace)) (ok := Hands) hJ (looming_step p) h ops ho).2
  · exact h2.then_silent (exec_silent (I := fun d => Large d ∨ Stuck d) (tr := (·.trace)) (ok := Hands) hJ h ops ho).2

end Verif.Espressif
