import Verif.Lemmas.Link

/-! The SIM800 driver reports a connection only when there is one. -/

namespace Verif

namespace Sim800

open Dev Spec

/-- Observer for the connection. -/
abbrev lnk : Observer Link :=
  link b!"AT+CIPSTART" b!"0, CONNECT OK" [b!"ATE0", b!"AT+CIPCLOSE=0", b!"AT+CIPSHUT"]

/-- States before the connection is up. -/
def early : Snd → Bool
  | .notConnected | .connecting | .sendCiprxget | .sendCipmux | .sendCstt | .sendCiicr | .sendCifsr
  | .sendDnsQuery | .sendCipstart | .finalizeConnect => true
  | _ => false

/-- States in which the connection is up. -/
def late : Snd → Bool
  | .connected | .sendData | .sendCiprxget4 | .sendCiprxget2 | .waitReceive | .receiving => true
  | _ => false

structure LinkInv (d : D) : Prop where
  conn : isConn d.cs = true → lnk.after d.trace = .up
  reset : d.resetPending = true → isConn d.cs = false
  early : early d.snd = true → isConn d.cs = false
  rep : d.rep = .cdnsgip ∨ d.rep = .cipstart → isConn d.cs = false
  fin : d.snd = .finalizeConnect → lnk.after d.trace = .up ∨ d.resetPending = true ∨
    (lnk.after d.trace = .asked ∧ d.rep = .cipstart ∧ d.wait = some b!"0, CONNECT OK")
  late : late d.snd = true → lnk.after d.trace = .up
  data : d.rep = .ciprxget2 → lnk.after d.trace = .up

/-- Nothing is up and nothing claims it. -/
theorem LinkInv.of_down {d : D} (h1 : isConn d.cs = false) (h2 : Sim800.late d.snd = false)
    (h3 : d.snd ≠ .finalizeConnect) (h4 : d.rep ≠ .ciprxget2) : LinkInv d :=
  ⟨by simp [h1], fun _ => h1, fun _ => h1, fun _ => h1, fun h => absurd h h3, by simp [h2],
    fun h => absurd h h4⟩

/-- The connection is up. -/
theorem LinkInv.of_up {d : D} (h1 : lnk.after d.trace = .up) (h2 : d.resetPending = false)
    (h3 : Sim800.early d.snd = false) (h5 : d.rep ≠ .cdnsgip) (h6 : d.rep ≠ .cipstart) : LinkInv d :=
  ⟨fun _ => h1, by simp [h2], by simp [h3],
    fun h => by rcases h with h | h; exact absurd h h5; exact absurd h h6,
    fun h => by rw [h] at h3; simp [Sim800.early] at h3, fun _ => h1, fun _ => h1⟩

theorem LinkInv.same {d e : D} (h : LinkInv d) (h1 : lnk.after e.trace = lnk.after d.trace)
    (h2 : e.cs = d.cs := by rfl) (h3 : e.resetPending = d.resetPending := by rfl)
    (h4 : e.snd = d.snd := by rfl) (h5 : e.rep = d.rep := by rfl) (h6 : e.wait = d.wait := by rfl) :
    LinkInv e := by
  obtain ⟨a, b, c, x, y, z, w⟩ := h
  constructor
  · rw [h1, h2]; exact a
  · rw [h2, h3]; exact b
  · rw [h2, h4]; exact c
  · rw [h2, h5]; exact x
  · rw [h1, h3, h4, h5, h6]; exact y
  · rw [h1, h4]; exact z
  · rw [h1, h5]; exact w

theorem linkInv_act {d : D} (h : LinkInv d) (hr : d.resetPending = false) (hw : d.wait = none)
    (hp : d.rep = .okReply) (hs : 20 ≤ d.ser.txFree) : LinkInv (act d) := by
  cases hsnd : d.snd
  case notConnected =>
    apply LinkInv.of_down <;> simp only [act, hsnd, handleConnect_cs, handleConnect_rep, hp] <;>
      (try decide) <;> (simp only [handleConnect_snd]; split <;> simp [late])
  case connecting => apply LinkInv.of_down <;> simp [act, hsnd, hp, isConn, late]
  case sendCiprxget =>
    have hc := h.early (by rw [hsnd]; rfl)
    apply LinkInv.of_down <;> simp [act, hsnd, hp, hc, late]
  case sendCipmux =>
    have hc := h.early (by rw [hsnd]; rfl)
    apply LinkInv.of_down <;> simp [act, hsnd, hp, hc, late]
  case sendCipsprt =>
    have e : act d = d := by simp only [act, hsnd]
    rw [e]; exact h
  case sendCstt =>
    have hc := h.early (by rw [hsnd]; rfl)
    apply LinkInv.of_down <;> simp only [act, hsnd, actCstt] <;> (try split) <;>
      simp [hp, hc, late]
  case sendCiicr =>
    have hc := h.early (by rw [hsnd]; rfl)
    apply LinkInv.of_down <;> simp [act, hsnd, hp, hc, late]
  case sendCifsr =>
    have hc := h.early (by rw [hsnd]; rfl)
    apply LinkInv.of_down <;> simp only [act, hsnd] <;> split <;>
      simp_all [handleDisconnect_snd, late]
  case sendDnsQuery =>
    have hc := h.early (by rw [hsnd]; rfl)
    apply LinkInv.of_down <;> simp only [act, hsnd] <;> split <;> simp [hp, hc, hsnd, late]
  case sendCipstart =>
    have hc := h.early (by rw [hsnd]; rfl)
    have h0 : (d.ser.writeStr b!"AT+CIPSTART").2 = 11 :=
      (Ser.writeStr_all d.ser b!"AT+CIPSTART" (by decide) (by simp; omega)).1
    have hk : lnk.after (actCipstart d).trace = .asked := by
      unfold actCipstart
      dsimp only
      split <;> simp [h0]
    have e : act d = actCipstart d := by simp only [act, hsnd]
    rw [e]
    have e1 : (actCipstart d).cs = d.cs := by
      unfold actCipstart
      dsimp only
      split <;> simp
    have e2 : (actCipstart d).snd = .finalizeConnect := by unfold actCipstart; simp
    have e3 : (actCipstart d).rep = .cipstart := by unfold actCipstart; simp
    have e4 : (actCipstart d).wait = some b!"0, CONNECT OK" := by unfold actCipstart; simp
    exact ⟨by rw [e1, hc]; simp, fun _ => by rw [e1, hc], fun _ => by rw [e1, hc],
      fun _ => by rw [e1, hc], fun _ => Or.inr (Or.inr ⟨hk, e3, e4⟩), by rw [e2]; simp [late],
      by rw [e3]; simp⟩
  case finalizeConnect =>
    have hk : lnk.after d.trace = .up := by
      rcases h.fin hsnd with h | h | h
      · exact h
      · rw [hr] at h; simp at h
      · rw [hp] at h; simp at h
    apply LinkInv.of_up <;> simp [act, hsnd, hr, hk, early]
  case connected =>
    have hk := h.late (by rw [hsnd]; rfl)
    have e : act d = actConnected d := by simp only [act, hsnd]
    rw [e]
    unfold actConnected
    split
    · dsimp only
      by_cases hq : (d.prepareSending true).2 = true
      · rw [if_pos hq]
        obtain ⟨_, _, g1, g2, g3, ht⟩ := prepareSending_true hq
        have ht' : lnk.after (d.prepareSending true).1.trace = .up := by simp [ht, hk]
        apply LinkInv.of_up <;> dsimp only <;> (try split) <;> simp [ht', hr, hp, early]
      · rw [if_neg hq]
        have := prepareSending_trace_false (by simpa using hq)
        apply LinkInv.of_up <;> simp [this.1, hr, hk, hp, early, hsnd]
    · split
      · apply LinkInv.of_up <;> simp [hr, hk, hp, early]
      · split
        · cases hd : d.disconnectPending <;> apply LinkInv.of_up <;>
            simp [hr, hk, hp, early, handleDisconnect_snd, hd, hsnd]
        · apply LinkInv.of_up <;> simp [hr, hk, hp, early]
  case sendData =>
    have hk := h.late (by rw [hsnd]; rfl)
    apply LinkInv.of_up <;> simp [act, hsnd, hr, hk, hp, early]
  case sendCiprxget4 =>
    have hk := h.late (by rw [hsnd]; rfl)
    apply LinkInv.of_up <;> simp [act, hsnd, hr, hk, early]
  case sendCiprxget2 =>
    have hk := h.late (by rw [hsnd]; rfl)
    have e : act d = actCiprxget2 d := by simp only [act, hsnd]
    rw [e]
    unfold actCiprxget2
    split
    · cases hd : d.disconnectPending <;> apply LinkInv.of_up <;>
        simp [hr, hk, hp, early, handleDisconnect_snd, hd, hsnd]
    · split
      · dsimp only
        by_cases hq : d.sendCiprxget2.2 = true
        · rw [if_pos hq]
          obtain ⟨g1, g2, g3, ht⟩ := SimDev.sendCiprxget2_true hq
          apply LinkInv.of_up <;> simp [ht, hr, hk, early]
        · rw [if_neg hq]
          have := SimDev.sendCiprxget2_false (d := d) (by simpa using hq)
          apply LinkInv.of_up <;> simp [this, hr, hk, hp, early, hsnd]
      · split <;> apply LinkInv.of_up <;> simp [hr, hk, hp, early]
  case waitReceive =>
    have e : act d = d := by simp only [act, hsnd]
    rw [e]; exact h
  case receiving =>
    have hk := h.late (by rw [hsnd]; rfl)
    have e : act d = actReceiving d := by simp only [act, hsnd]
    rw [e]
    unfold actReceiving
    split
    · dsimp only
      by_cases hq : d.receive.2 = true
      · rw [if_pos hq]
        have := receive_true hq
        apply LinkInv.of_up <;> simp [this.1, hr, hk, early, hsnd]
      · rw [if_neg hq]
        have := receive_trace_false (d := d) (by simpa using hq)
        apply LinkInv.of_up <;> simp [this.1, hr, hk, hp, early, hsnd]
    · split <;> apply LinkInv.of_up <;> simp [hr, hk, hp, early]
  case ipUnconnected =>
    cases hd : d.disconnectPending <;> cases hk : d.connectPending <;>
      apply LinkInv.of_down <;> simp [act, hsnd, hd, hk, hp, isConn, late, handleConnect_snd,
        handleDisconnect_snd]
  case sendCipclose =>
    apply LinkInv.of_down <;> simp only [act, hsnd] <;> split <;> simp [hp, isConn, late]
  case sendCipshut => apply LinkInv.of_down <;> simp [act, hsnd, hp, isConn, late]
  case finalizeDisconnect => apply LinkInv.of_down <;> simp [act, hsnd, hp, isConn, late]
  case serialError =>
    have e : act d = d := by simp only [act, hsnd]
    rw [e]; exact h

theorem linkInv_wait {d : D} {s : Ser} {m : Mem} {l : List Byte} (h : LinkInv d)
    (hl : LineDone (d.gotLine s m d.rep l) l) :
    LinkInv (d.gotLine s m d.rep l) ∧ LinkInv (parseWait (d.gotLine s m d.rep l)) := by
  have hu : lnk.after d.trace = .up → lnk.after (d.trace ++ [.line l]) = .up := by
    intro hu; simp [hu, link_line_up]
  have hb : LinkInv (d.gotLine s m d.rep l) := by
    refine ⟨fun x => hu (h.conn x), h.reset, h.early, h.rep, fun x => ?_, fun x => hu (h.late x),
      fun x => hu (h.data x)⟩
    rcases h.fin x with y | y | ⟨y1, y2, y3⟩
    · exact Or.inl (hu y)
    · exact Or.inr (Or.inl y)
    · have : lnk.after (d.gotLine s m d.rep l).trace = lnk.after d.trace ∨
          lnk.after (d.gotLine s m d.rep l).trace = .up := by
        simp only [Observer.after_snoc]
        exact link_line l _
      rcases this with z | z
      · exact Or.inr (Or.inr ⟨z.trans y1, y2, y3⟩)
      · exact Or.inl z
  refine ⟨hb, ?_⟩
  unfold parseWait
  split
  · rename_i hm
    refine ⟨hb.conn, hb.reset, hb.early, hb.rep, fun x => ?_, hb.late, hb.data⟩
    rcases h.fin x with y | y | ⟨y1, y2, y3⟩
    · exact Or.inl (hu y)
    · exact Or.inr (Or.inl y)
    · have hp : b!"0, CONNECT OK" <+: l := by
        apply hl.has (by decide)
        simpa [waitMatches, y3] using hm
      left
      simp only [Observer.after_snoc, y1]
      exact link_line_asked hp
  · exact hb

theorem LinkInv.okRep {d e : D} (h : LinkInv d) (h6 : d.rep ≠ .cipstart) (h1 : e.cs = d.cs)
    (h2 : e.trace = d.trace) (h3 : e.resetPending = d.resetPending) (h4 : e.snd = d.snd)
    (h5 : e.rep = .okReply) : LinkInv e := by
  refine ⟨?_, ?_, ?_, by simp [h5], ?_, ?_, by simp [h5]⟩
  · rw [h1, h2]; exact h.conn
  · rw [h1, h3]; exact h.reset
  · rw [h1, h4]; exact h.early
  · rw [h2, h3, h4]
    intro x
    rcases h.fin x with y | y | y
    · exact Or.inl y
    · exact Or.inr (Or.inl y)
    · exact absurd y.2.1 h6
  · rw [h2, h4]; exact h.late

theorem linkInv_reply (p : Platform) {d : D} (h : LinkInv d) : LinkInv (parseReply p d) := by
  have ht : ∀ (e : D), e.cs = d.cs → e.trace = d.trace → e.resetPending = d.resetPending →
      e.snd = d.snd → e.rep = .okReply → (d.rep ≠ .cipstart) → LinkInv e :=
    fun e h1 h2 h3 h4 h5 h6 => h.okRep h6 h1 h2 h3 h4 h5
  unfold parseReply
  split
  · rename_i hr
    split
    · exact ht _ rfl rfl rfl rfl rfl (by simp [hr])
    · exact h
  · rename_i hr
    have hc := h.rep (Or.inl hr)
    dsimp only
    unfold SimDev.parseDnsReply
    dsimp only
    have hl : late d.snd = true → lnk.after d.trace = .up := h.late
    split
    · split
      · refine ⟨by simp [isConn], by simp [isConn], by simp [isConn], by simp [isConn], ?_, hl,
          by simp [hr]⟩
        intro x
        rcases h.fin x with y | y | y
        · exact Or.inl y
        · exact Or.inr (Or.inl y)
        · rw [hr] at y; simp at y
      · exact ht _ rfl rfl rfl rfl rfl (by simp [hr])
    · split
      · exact ⟨by simp [hc], by simp [hc], by simp [hc], by simp [hc], by simp, hl, by simp [hr]⟩
      · exact h
  · rename_i hr
    have hc := h.rep (Or.inr hr)
    split
    · rename_i hd
      have e : d.handleDisconnect .sendCipshut =
          { d with disconnectPending := false, snd := .sendCipshut } := by
        unfold handleDisconnect; rw [if_pos hd]
      rw [e]
      exact LinkInv.of_down hc rfl (by simp) (by simp)
    split
    · rename_i hw
      refine ⟨h.conn, h.reset, h.early, by simp, ?_, h.late, by simp⟩
      intro x
      rcases h.fin x with y | y | y
      · exact Or.inl y
      · exact Or.inr (Or.inl y)
      · rw [hw] at y; simp at y
    · split
      · exact ⟨by simp [isConn], by simp [isConn], by simp [isConn], by simp [isConn], by simp,
          h.late, by simp [hr]⟩
      · exact h
  · rename_i hr
    dsimp only
    unfold SimDev.parseCiprxget4
    split
    · exact ht _ rfl rfl rfl rfl rfl (by simp [hr])
    · exact h
  · rename_i hr
    have hk := h.data hr
    dsimp only
    unfold SimDev.parseCiprxget2
    split
    · exact ⟨fun _ => hk, h.reset, by simp [early], by simp, by simp, fun _ => hk, by simp⟩
    · exact h
  · rename_i hr
    dsimp only
    have h1 : LinkInv (if (SimDev.parseCsq p d).2 = true then
        { (SimDev.parseCsq p d).1 with rep := .okReply } else (SimDev.parseCsq p d).1) := by
      unfold SimDev.parseCsq
      split
      · exact ht _ rfl rfl rfl rfl rfl (by simp [hr])
      · exact h
    have h2 : (if (SimDev.parseCsq p d).2 = true then
        { (SimDev.parseCsq p d).1 with rep := .okReply } else (SimDev.parseCsq p d).1).rep ≠
          .cipstart := by
      split <;> simp [hr]
    generalize (if (SimDev.parseCsq p d).2 = true then
        { (SimDev.parseCsq p d).1 with rep := .okReply } else (SimDev.parseCsq p d).1) = e at *
    split
    · exact h1.okRep h2 (by simp) (by simp) (by simp) (by simp) rfl
    · rename_i hq
      rw [SimDev.parseIDReply_false (d := e) (by simpa using hq)]
      exact h1
  · rename_i hr
    dsimp only
    split
    · exact ht _ (by simp) (by simp) (by simp) (by simp) rfl (by simp [hr])
    · rename_i hq
      rw [SimDev.parseIDReply_false (d := d) (by simpa using hq)]
      exact h
  · exact h

theorem linkInv_check {d : D} (h : LinkInv d) : LinkInv (checkState d) := by
  unfold checkState
  split
  · rename_i hi
    unfold SimDev.checkConnectionState
    split
    · exact h.same rfl
    · split
      · refine ⟨h.conn, h.reset, h.early, h.rep, ?_, h.late, h.data⟩
        intro x
        have x' : d.snd = .finalizeConnect := x
        rw [x'] at hi
        exact absurd hi (by decide)
      · exact h
  · exact h

theorem linkInv_calls : Calls LinkInv where
  io _ _ _ _ _ h := h.same rfl
  isOpen _ _ h := h.same rfl
  host _ _ _ _ h := h.same rfl
  conn _ h _ _ := h.same (by simp [Dev.log])
  disc0 _ h _ := h.same (by simp [Dev.log])
  disc _ h _ := h.same (by simp [Dev.log])
  write0 _ h _ := h.same (by simp [Dev.log])
  write _ _ h _ := h.same (by simp [Dev.log])
  read _ _ h := h.same (by simp [Dev.log])
  rssi _ h := h.same rfl
  userTx _ _ _ _ h := h.same (by simp)
  userRx _ _ _ _ h := h.same (by simp)

theorem linkInv_sections (p : Platform) : Sections p LinkInv where
  fail d h _ := ⟨h.conn, h.reset, by simp [early], h.rep, by simp, by simp [late], h.data⟩
  reset d h hr _ := by
    have hc := h.reset hr
    apply LinkInv.of_down
    · simp only [handleReset]; split <;> simpa using hc
    all_goals
      simp only [handleReset]
      (repeat' split) <;> simp [late]
  line d s m l _ h _ _ h1 _ := by
    unfold parseLine
    have hw := linkInv_wait h h1
    split
    · exact ⟨by simp [isConn], by simp [isConn], by simp [isConn], by simp [isConn],
        fun _ => Or.inr (Or.inl rfl), hw.1.late, hw.1.data⟩
    · exact linkInv_check (linkInv_reply p hw.2)
  drop d h _ _ _ := by
    exact h.same (by simp)
  csq d h _ hw hp _ _ _ := by
    refine ⟨?_, by simpa using h.reset, by simpa using h.early, by simp, ?_, ?_, by simp⟩ <;> simp
    · exact h.conn
    · intro x
      rcases h.fin x with y | y | y
      · exact Or.inl y
      · exact Or.inr y
      · rw [hp] at y; simp at y
    · exact h.late
  ident d h _ hw hp _ hq := by
    obtain ⟨w, hm, g1, g2, ht⟩ := SimDev.sendIDRequest_true hq
    have hk : lnk.after (d.sendIDRequest iccidCommand).1.trace = lnk.after d.trace := by
      rw [ht]
      simp only [SimDev.idCommands, iccidCommand, List.mem_cons, List.not_mem_nil, or_false] at hm
      rcases hm with rfl | rfl | rfl | rfl | rfl <;> simp
    refine ⟨?_, by simpa using h.reset, by simpa using h.early, by simp, ?_, ?_, by simp⟩ <;> simp [hk]
    · exact h.conn
    · intro x
      rcases h.fin x with y | y | y
      · exact Or.inl y
      · exact Or.inr y
      · rw [hp] at y; simp at y
    · exact h.late
  identNone d h hq := by
    exact h.same (by rw [(SimDev.sendIDRequest_false hq).1]) (by simp) (by simp) (by simp) (by simp)
      (by simp)
  act d h hr hw hp hs := linkInv_act h hr hw hp hs

theorem linkInv_own : Own LinkInv where
  reset d h := by
    apply LinkInv.of_down <;> simp [SimDev.resetStates, isConn, late]
  ext _ _ h := h.same rfl
  lock _ h _ _ := h.same rfl
  unlock _ h := h.same rfl

end Sim800
end Verif
