import Verif.Lemmas.Link

/-! The Espressif driver reports a connection only when there is one. -/

namespace Verif

namespace Espressif

open Dev Spec

/-- Observer for the connection. -/
abbrev lnk : Observer Link :=
  link b!"AT+CIPSTART" b!"OK" [b!"ATE0", b!"AT+RST", b!"AT+CIPCLOSE", b!"AT+CWQAP"]

/-- States before the connection is up. -/
def early : Snd → Bool
  | .notConnected | .connecting | .sendCwmode | .sendCwjap | .sendCiprecvmode | .sendCipmux
  | .sendCipmode | .sendCipstart | .finalizeConnect => true
  | _ => false

/-- States in which the connection is up. -/
def late : Snd → Bool
  | .connected | .sendDataState | .sendCiprecvdata | .waitReceive | .receiving => true
  | _ => false

structure LinkInv (d : D) : Prop where
  conn : isConn d.cs = true → lnk.after d.trace = .up
  reset : d.resetPending = true → isConn d.cs = false
  early : early d.snd = true → isConn d.cs = false
  fin : d.snd = .finalizeConnect → lnk.after d.trace = .up ∨ d.resetPending = true ∨
    (lnk.after d.trace = .asked ∧ d.wait = some okStr)
  late : late d.snd = true → lnk.after d.trace = .up
  data : d.rep = .waitCiprecvdata ∨ d.rep = .parseStateCiprecvdata → lnk.after d.trace = .up

/-- Nothing is up and nothing claims it. -/
theorem LinkInv.of_down {d : D} (h1 : isConn d.cs = false) (h2 : Espressif.late d.snd = false)
    (h3 : d.snd ≠ .finalizeConnect) (h4 : d.rep ≠ .waitCiprecvdata)
    (h5 : d.rep ≠ .parseStateCiprecvdata) : LinkInv d :=
  ⟨by simp [h1], fun _ => h1, fun _ => h1, fun h => absurd h h3, by simp [h2],
    fun h => by rcases h with h | h; exact absurd h h4; exact absurd h h5⟩

/-- The connection is up. -/
theorem LinkInv.of_up {d : D} (h1 : lnk.after d.trace = .up) (h2 : d.resetPending = false)
    (h3 : Espressif.early d.snd = false) : LinkInv d :=
  ⟨fun _ => h1, by simp [h2], by simp [h3],
    fun h => by rw [h] at h3; simp [Espressif.early] at h3, fun _ => h1, fun _ => h1⟩

theorem LinkInv.same {d e : D} (h : LinkInv d) (h1 : lnk.after e.trace = lnk.after d.trace)
    (h2 : e.cs = d.cs := by rfl) (h3 : e.resetPending = d.resetPending := by rfl)
    (h4 : e.snd = d.snd := by rfl) (h5 : e.rep = d.rep := by rfl) (h6 : e.wait = d.wait := by rfl) :
    LinkInv e := by
  obtain ⟨a, b, c, y, z, w⟩ := h
  constructor
  · rw [h1, h2]; exact a
  · rw [h2, h3]; exact b
  · rw [h2, h4]; exact c
  · rw [h1, h3, h4, h6]; exact y
  · rw [h1, h4]; exact z
  · rw [h1, h5]; exact w

/-- Another reply state that does not concern data. -/
theorem LinkInv.setRep {d e : D} (h : LinkInv d) (h1 : lnk.after e.trace = lnk.after d.trace)
    (h2 : e.cs = d.cs) (h3 : e.resetPending = d.resetPending) (h4 : e.snd = d.snd)
    (h5 : e.rep ≠ .waitCiprecvdata ∧ e.rep ≠ .parseStateCiprecvdata)
    (h6 : e.wait = d.wait ∨ d.wait = none) : LinkInv e := by
  obtain ⟨a, b, c, y, z, w⟩ := h
  constructor
  · rw [h1, h2]; exact a
  · rw [h2, h3]; exact b
  · rw [h2, h4]; exact c
  · rw [h1, h3, h4]
    intro x
    rcases y x with y | y | y
    · exact Or.inl y
    · exact Or.inr (Or.inl y)
    · rcases h6 with h6 | h6
      · exact Or.inr (Or.inr ⟨y.1, h6.trans y.2⟩)
      · rw [h6] at y; simp at y
  · rw [h1, h4]; exact z
  · intro x
    rcases x with x | x
    · exact absurd x h5.1
    · exact absurd x h5.2

theorem linkInv_act {d : D} (h : LinkInv d) (hr : d.resetPending = false) (hw : d.wait = none)
    (hp : d.rep = .okReply) (hs : 20 ≤ d.ser.txFree) : LinkInv (act d) := by
  cases hsnd : d.snd
  case notConnected =>
    apply LinkInv.of_down <;> simp only [act, hsnd, handleConnect_cs, handleConnect_rep, hp] <;>
      (try decide) <;> (simp only [handleConnect_snd]; split <;> simp [late])
  case connecting => apply LinkInv.of_down <;> simp [act, hsnd, hp, isConn, late]
  case sendCwmode =>
    have hc := h.early (by rw [hsnd]; rfl)
    apply LinkInv.of_down <;> simp [act, hsnd, hp, hc, late]
  case sendCwjap =>
    have hc := h.early (by rw [hsnd]; rfl)
    apply LinkInv.of_down <;> simp [act, hsnd, actCwjap, hp, hc, late]
  case sendCiprecvmode =>
    have hc := h.early (by rw [hsnd]; rfl)
    apply LinkInv.of_down <;> simp [act, hsnd, hp, hc, late]
  case sendCipmux =>
    have hc := h.early (by rw [hsnd]; rfl)
    apply LinkInv.of_down <;> simp [act, hsnd, hp, hc, late]
  case sendCipmode =>
    have hc := h.early (by rw [hsnd]; rfl)
    apply LinkInv.of_down <;> simp [act, hsnd, hp, hc, late]
  case sendCipstart =>
    have hc := h.early (by rw [hsnd]; rfl)
    have h0 : (d.ser.writeStr b!"AT+CIPSTART").2 = 11 :=
      (Ser.writeStr_all d.ser b!"AT+CIPSTART" (by decide) (by simp; omega)).1
    have e : act d = actCipstart d := by simp only [act, hsnd]
    rw [e]
    have e0 : ∀ e : D, e.ser = d.ser → e.trace = d.trace → lnk.after
        (((((e.cmd b!"AT+CIPSTART").arg (protoStr e.typ)).arg (e.host.getD [])).arg b!"\",").arg
          (dec5 e.port) |>.arg lineEnd).trace = .asked := by
      intro e e1 e2
      simp [e1, e2, h0]
    have hk : lnk.after (actCipstart d).trace = .asked := by
      unfold actCipstart
      dsimp only
      split
      · exact e0 { d with ub := true } rfl rfl
      · exact e0 d rfl rfl
    have e1 : (actCipstart d).cs = d.cs := by
      unfold actCipstart
      dsimp only
      split <;> simp
    have e2 : (actCipstart d).snd = .finalizeConnect := by unfold actCipstart; simp
    have e3 : (actCipstart d).rep = .okReply := by
      unfold actCipstart
      dsimp only
      split <;> simp [hp]
    have e4 : (actCipstart d).wait = some okStr := by unfold actCipstart; simp
    exact ⟨by rw [e1, hc]; simp, fun _ => by rw [e1, hc], fun _ => by rw [e1, hc],
      fun _ => Or.inr (Or.inr ⟨hk, e4⟩), by rw [e2]; simp [late], by rw [e3]; simp⟩
  case finalizeConnect =>
    have hk : lnk.after d.trace = .up := by
      rcases h.fin hsnd with h | h | h
      · exact h
      · rw [hr] at h; simp at h
      · rw [hw] at h; simp at h
    apply LinkInv.of_up <;> simp [act, hsnd, hr, hk, early]
  case connected =>
    have hk := h.late (by rw [hsnd]; rfl)
    have e : act d = actConnected d := by simp only [act, hsnd]
    rw [e]
    unfold actConnected
    split
    · dsimp only
      by_cases hq : (d.prepareSending false).2 = true
      · rw [if_pos hq]
        obtain ⟨_, _, g1, g2, g3, ht⟩ := prepareSending_true hq
        apply LinkInv.of_up <;> simp [ht, hk, hr, early]
      · rw [if_neg hq]
        have := prepareSending_trace_false (by simpa using hq)
        apply LinkInv.of_up <;> simp [this.1, hr, hk, early, hsnd]
    · split
      · cases ht : d.typ <;> apply LinkInv.of_up <;> simp [hr, hk, ht, early]
      · split
        · cases hd : d.disconnectPending <;> apply LinkInv.of_up <;>
            simp [hr, hk, early, handleDisconnect_snd, hd, hsnd]
        · apply LinkInv.of_up <;> simp [hr, hk, early]
  case sendDataState =>
    have hk := h.late (by rw [hsnd]; rfl)
    apply LinkInv.of_up <;> simp [act, hsnd, hr, hk, early]
  case sendCiprecvdata =>
    have hk := h.late (by rw [hsnd]; rfl)
    have e : act d = actCiprecvdata d := by simp only [act, hsnd]
    rw [e]
    unfold actCiprecvdata
    split
    · cases hd : d.disconnectPending <;> apply LinkInv.of_up <;>
        simp [hr, hk, early, handleDisconnect_snd, hd, hsnd]
    · split
      · dsimp only
        by_cases hq : (sendCiprcvdata d).2 = true
        · rw [if_pos hq]
          obtain ⟨g1, g2, g3, ht⟩ := sendCiprcvdata_true hq
          apply LinkInv.of_up <;> simp [ht, hr, hk, early]
        · rw [if_neg hq]
          have := sendCiprcvdata_false (d := d) (by simpa using hq)
          apply LinkInv.of_up <;> simp [this, hr, hk, early, hsnd]
      · apply LinkInv.of_up <;> simp [hr, hk, early]
  case waitReceive =>
    have e : act d = d := by simp only [act, hsnd]
    rw [e]; exact h
  case receiving =>
    have hk := h.late (by rw [hsnd]; rfl)
    have e : act d = actReceiving d := by simp only [act, hsnd]
    rw [e]
    unfold actReceiving
    split
    · dsimp only
      have ht : lnk.after d.receive.1.trace = .up := by
        cases hq : d.receive.2 with
        | true => simp [(receive_true hq).1, hk]
        | false => simp [(receive_trace_false hq).1, hk]
      split <;> apply LinkInv.of_up <;> simp [ht, hr, early, hsnd]
    · split <;> apply LinkInv.of_up <;> simp [hr, hk, early]
  case sendCipclose =>
    apply LinkInv.of_down <;> simp only [act, hsnd] <;> split <;> simp [hp, isConn, late]
  case sendCwqap => apply LinkInv.of_down <;> simp [act, hsnd, hp, isConn, late]
  case finalizeDisconnect => apply LinkInv.of_down <;> simp [act, hsnd, hp, isConn, late]
  case serialError =>
    have e : act d = d := by simp only [act, hsnd]
    rw [e]; exact h

theorem linkInv_wait {d : D} {s : Ser} {m : Mem} {l : List Byte} {r : Rep} (h : LinkInv d)
    (ha : RepAfter d l r) (hl : LineDone (d.gotLine s m r l) l) :
    LinkInv (d.gotLine s m r l) ∧ LinkInv (parseWait (parseSendFail (d.gotLine s m r l))) := by
  have hu : lnk.after d.trace = .up → lnk.after (d.trace ++ [.line l]) = .up := by
    intro hu; simp [hu, link_line_up]
  have hda : r = .waitCiprecvdata ∨ r = .parseStateCiprecvdata → lnk.after d.trace = .up := by
    intro x
    rcases ha with rfl | ⟨y, _, _⟩
    · exact h.data x
    · exact h.data (Or.inl y)
  have hb : LinkInv (d.gotLine s m r l) := by
    refine ⟨fun x => hu (h.conn x), h.reset, h.early, fun x => ?_, fun x => hu (h.late x),
      fun x => hu (hda x)⟩
    rcases h.fin x with y | y | ⟨y1, y3⟩
    · exact Or.inl (hu y)
    · exact Or.inr (Or.inl y)
    · have : lnk.after (d.gotLine s m r l).trace = lnk.after d.trace ∨
          lnk.after (d.gotLine s m r l).trace = .up := by
        simp only [Observer.after_snoc]
        exact link_line l _
      rcases this with z | z
      · exact Or.inr (Or.inr ⟨z.trans y1, y3⟩)
      · exact Or.inl z
  refine ⟨hb, ?_⟩
  have hc : LinkInv (parseSendFail (d.gotLine s m r l)) := by
    unfold parseSendFail
    split
    · rename_i hsf
      have hk := hb.late (by rw [hsf.1]; rfl)
      refine ⟨by simp [isConn], by simp [isConn], by simp [isConn], fun x => ?_, fun _ => hk, hb.data⟩
      have x' : (d.gotLine s m r l).snd = .finalizeConnect := x
      rw [hsf.1] at x'
      simp at x'
    · exact hb
  have hx : (parseSendFail (d.gotLine s m r l)).snd = .finalizeConnect →
      parseSendFail (d.gotLine s m r l) = d.gotLine s m r l := by
    unfold parseSendFail
    split
    · rename_i hsf
      intro x
      have x' : (d.gotLine s m r l).snd = .finalizeConnect := x
      rw [hsf.1] at x'
      simp at x'
    · exact fun _ => rfl
  generalize parseSendFail (d.gotLine s m r l) = e at *
  unfold parseWait
  split
  · rename_i hm
    refine ⟨hc.conn, hc.reset, hc.early, fun x => ?_, hc.late, hc.data⟩
    have x' := hx x
    subst x'
    rcases h.fin x with y | y | ⟨y1, y3⟩
    · exact Or.inl (hu y)
    · exact Or.inr (Or.inl y)
    · have hp : b!"OK" <+: l := by
        apply hl.has (by decide)
        simpa [waitMatches, y3, okStr] using hm
      left
      simp only [Observer.after_snoc, y1]
      exact link_line_asked hp
  · exact hc

theorem linkInv_reply (p : Platform) {d : D} (h : LinkInv d) : LinkInv (parseReply p d) := by
  unfold parseReply
  split
  · rename_i hr
    have hk := h.data (Or.inr hr)
    dsimp only
    unfold parseCiprecvdata
    split
    · exact ⟨fun _ => hk, h.reset, by simp [early], by simp, fun _ => hk, by simp⟩
    · exact h
  · split
    · exact h.setRep rfl rfl rfl rfl (by simp) (Or.inl rfl)
    · exact h
  · split
    · exact h.setRep rfl rfl rfl rfl (by simp) (Or.inl rfl)
    · split
      · exact h.setRep rfl rfl rfl rfl (by simp) (Or.inl rfl)
      · exact h
  · exact h
  · exact h

theorem linkInv_check (p : Platform) {d : D} (h : LinkInv d) : LinkInv (checkState p d) := by
  unfold checkState
  split
  · rename_i hi
    split
    · dsimp only
      split <;> exact h.same rfl
    · split
      · exact h.same rfl
      · split
        · exact ⟨h.conn, h.reset, by simp [early], by simp, by simp [late], h.data⟩
        · exact h
  · exact h

theorem linkInv_calls : Calls LinkInv where
  io _ _ _ _ _ h := h.same rfl
  isOpen _ _ h := h.same rfl
  host _ _ _ _ h := h.same rfl
  conn _ h _ _ := h.same (by simp [Dev.log])
  disc0 _ h _ := h.same (by simp [Dev.log])
  disc _ h _ := h.same (by simp [Dev.log])
  write0 _ h _ := h.same (by simp [Dev.log])
  write _ _ h _ := h.same (by simp [Dev.log])
  read _ _ h := h.same (by simp [Dev.log])
  rssi _ h := h.same rfl
  userTx _ _ _ _ h := h.same (by simp)
  userRx _ _ _ _ h := h.same (by simp)

theorem linkInv_sections (p : Platform) : Sections p LinkInv where
  fail d h _ := ⟨h.conn, h.reset, by simp [early], by simp, by simp [late], h.data⟩
  reset d h hr := by
    have hc := h.reset hr
    apply LinkInv.of_down
    · simpa [handleReset] using hc
    all_goals
      simp only [handleReset]
      (try split) <;> simp [late]
  line d s m l r _ h _ _ ha h1 _ _ := by
    unfold parseLine
    have hw := linkInv_wait h ha h1
    split
    · exact ⟨by simp [isConn], by simp [isConn], by simp [isConn],
        fun _ => Or.inr (Or.inl rfl), hw.1.late, hw.1.data⟩
    · exact linkInv_check p (linkInv_reply p hw.2)
  drop d h _ _ _ := h.same (by simp)
  csq d h _ hw _ _ _ _ :=
    h.setRep (by simp) (by simp) (by simp) (by simp) (by simp) (Or.inr hw)
  mac d h _ hw _ _ _ _ :=
    h.setRep (by simp) (by simp) (by simp) (by simp) (by simp) (Or.inr hw)
  act d h hr hw hp hs := linkInv_act h hr hw hp hs

theorem linkInv_own : Own LinkInv where
  reset d h := by
    apply LinkInv.of_down <;> simp [resetStates, isConn, late]
  ext _ _ h := h.same rfl
  ub _ h := h.same rfl

end Espressif
end Verif
