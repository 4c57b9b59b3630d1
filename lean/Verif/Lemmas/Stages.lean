import Verif.Lemmas.Later

/-!
# Invariants of all histories of a driver

To show that a predicate holds in all histories it is enough to look at the sections of `run()` and at
the API calls one by one.
-/

namespace Verif

open Dev

variable {S R X : Type}

/-- State with other serial device and line buffer. -/
abbrev Dev.setIo (d : Dev S R X) (s : Ser) (m : Mem) (k : Nat) : Dev S R X :=
  { d with ser := s, line := m, lbFill := k }

/-- State after a line `l` was completed. -/
abbrev Dev.gotLine (d : Dev S R X) (s : Ser) (m : Mem) (r : R) (l : List Byte) : Dev S R X :=
  { d with ser := s, line := m, lbFill := 0, rep := r, trace := d.trace ++ [.line l] }

theorem Dev.fillLine_cases (d : Dev S R X) (stop : Mem → Nat → Byte → Option R)
    (hstop : ∀ m c, stop m lineMax c ≠ none) (h : LineOk d) :
    (∃ s m k, d.fillLine stop = (d.setIo s m k, false)) ∨
    (d.lineRead = true ∧ ∃ s m r l, d.fillLine stop = (d.gotLine s m r l, true) ∧
      LineDone (d.gotLine s m r l) l ∧ LineOk (d.gotLine s m r l) ∧
      ∃ m' c, stop m' l.length c = some r ∧ m'.cells.take l.length = l ∧ l.getLast? = some c) := by
  cases hlr : d.lineRead with
  | false => exact Or.inl ⟨d.ser, d.line, d.lbFill, fillLine_off d stop hlr⟩
  | true =>
    obtain ⟨t, h1, h2, h3⟩ := fillLine_spec d stop hstop h hlr
    rcases h3 with ⟨h3, h4, h5, h6, h7⟩ | ⟨h3, h4, h5, h6, ⟨m', c, h7, h8, h9⟩, h10⟩
    · refine Or.inl ⟨(d.fillLine stop).1.ser, (d.fillLine stop).1.line, (d.fillLine stop).1.lbFill, ?_⟩
      refine Prod.ext ?_ h3
      unfold fillLine at h4 h5 h3 ⊢
      simp only [hlr, if_true] at h4 h5 h3 ⊢
      split
      · simp only [Dev.setIo, hlr]
      · rename_i heq
        simp only [heq] at h3
        simp at h3
    · refine Or.inr ⟨rfl, (d.fillLine stop).1.ser, (d.fillLine stop).1.line,
        (d.fillLine stop).1.rep, part d ++ t, ?_⟩
      have e : d.fillLine stop = (d.gotLine (d.fillLine stop).1.ser (d.fillLine stop).1.line
          (d.fillLine stop).1.rep (part d ++ t), true) := by
        refine Prod.ext ?_ h3
        have hf := h5.fill
        unfold fillLine at h4 h3 hf ⊢
        simp only [hlr, if_true] at h4 h3 hf ⊢
        split
        · rename_i heq
          simp only [heq] at h3
          simp at h3
        · rename_i heq
          simp only [heq] at h4 hf
          dsimp only
          rw [h4, hf]
          simp only [Dev.gotLine, hlr]
      have hpl : (part d).length = d.lbFill := by
        have := h.len; have := h.fill
        simp only [part, List.length_take]; omega
      have e1 : (d.fillLine stop).1 = d.gotLine (d.fillLine stop).1.ser (d.fillLine stop).1.line
          (d.fillLine stop).1.rep (part d ++ t) := by
        conv => lhs; rw [e]
      refine ⟨e, e1 ▸ h5, e1 ▸ h2, m', c, ?_, ?_, ?_⟩
      · rw [List.length_append, hpl]; exact h8
      · rw [List.length_append, hpl]; exact h9
      · rw [List.getLast?_append, h7]; rfl

theorem Dev.later_setIo {d : Dev S R X} {stop : Mem → Nat → Byte → Option R} {s : Ser} {m : Mem}
    {k : Nat} (e : d.fillLine stop = (d.setIo s m k, false)) : Ser.Later d.ser s := by
  have h : Ser.Later d.ser (d.fillLine stop).1.ser := Dev.later_fillLine d stop
  rw [e] at h
  exact h

theorem Dev.later_gotLine {d : Dev S R X} {stop : Mem → Nat → Byte → Option R} {s : Ser} {m : Mem}
    {r : R} {l : List Byte} (e : d.fillLine stop = (d.gotLine s m r l, true)) :
    Ser.Later d.ser s := by
  have h : Ser.Later d.ser (d.fillLine stop).1.ser := Dev.later_fillLine d stop
  rw [e] at h
  exact h

/-- What the serial device does by itself. -/
structure Port (I : Dev S R X → Prop) : Prop where
  io : ∀ d s m k, Ser.Later d.ser s → I d → I (d.setIo s m k)
  isOpen : ∀ d b, I d → I { d with isOpen := b }

/-- API calls that are the same for all drivers, without `setHostPort`. -/
structure Calls0 (I : Dev S R X → Prop) : Prop extends Port I where
  conn : ∀ d : Dev S R X, I d → d.host ≠ none → d.port ≠ 0 →
    I (({ d with connectPending := true } : Dev S R X).log .apiConnect)
  disc0 : ∀ d : Dev S R X, I d → d.cs = .notConnected → I (d.log .apiDisconnect)
  disc : ∀ d : Dev S R X, I d → d.cs ≠ .notConnected →
    I (({ d with disconnectPending := true } : Dev S R X).log .apiDisconnect)
  write0 : ∀ d : Dev S R X, I d → d.cs ≠ .connected → I (d.log (.apiWrite []))
  write : ∀ (d : Dev S R X) bs, I d → d.cs = .connected →
    I (({ d with wbuf := (d.wbuf.pushN bs).1 } : Dev S R X).log
      (.apiWrite (bs.take (d.wbuf.pushN bs).2)))
  read : ∀ (d : Dev S R X) n, I d →
    I (({ d with rbuf := (d.rbuf.pullN n).1 } : Dev S R X).log (.apiRead (d.rbuf.pullN n).2))
  rssi : ∀ (d : Dev S R X), I d → I { d with rssi := int16Max }
  userTx : ∀ (d : Dev S R X) s bs, Ser.Later d.ser s → I d →
    I ({ d with ser := s, trace := d.trace ++ [.userTx bs] })
  userRx : ∀ (d : Dev S R X) s bs, Ser.Later d.ser s → I d →
    I ({ d with ser := s, trace := d.trace ++ [.userRx bs] })

/-- API calls that are the same for all drivers. -/
structure Calls (I : Dev S R X → Prop) : Prop extends Calls0 I where
  host : ∀ d h q t, I d → I { d with host := h, port := q, typ := t }

theorem Calls0.common {I : Dev S R X → Prop} (h : Calls0 I) {d : Dev S R X} (hd : I d) (op : Op)
    (hh : ∀ a q t, op = .setHostPort a q t → I { d with host := a, port := q.toNat, typ := t }) :
    I (d.common op) := by
  cases op with
  | irq hs => exact h.io d _ d.line d.lbFill (Ser.later_transfers _ _) hd
  | closePort => exact h.isOpen d false hd
  | disconnect =>
    simp only [Dev.common, Dev.disconnect]
    split
    · rename_i hc
      exact h.disc0 d hd (by simpa [Dev.isIdle] using hc)
    · rename_i hc
      exact h.disc d hd (by simpa [Dev.isIdle] using hc)
  | setHostPort hh q t => exact hh _ _ _ rfl
  | write bs =>
    simp only [Dev.common, Dev.write]
    by_cases hc : d.cs = .connected
    · rw [if_neg (by simpa using hc)]
      exact h.write d bs hd hc
    · rw [if_pos (by simpa using hc)]
      have := h.write0 d hd hc
      simpa using this
  | read n => exact h.read d n hd
  | requestRSSI => exact h.rssi d hd
  | serialWrite s =>
    simp only [Dev.common, Dev.serialWrite]
    split
    · exact h.userTx d _ _ (Ser.later_writeStr _ _) hd
    · exact hd
  | serialRead n =>
    simp only [Dev.common, Dev.serialRead]
    split
    · exact h.userRx d _ _ (Ser.later_read _ _) hd
    · exact hd
  | _ => exact hd

theorem Calls.common {I : Dev S R X → Prop} (h : Calls I) {d : Dev S R X} (hd : I d) (op : Op) :
    I (d.common op) :=
  h.toCalls0.common hd op fun a q t _ => h.host d a q.toNat t hd

theorem Calls0.ipConnect {I : Dev S R X → Prop} (h : Calls0 I) {d : Dev S R X} (hd : I d) :
    I (Dev.logConnect d.ipConnect) := by
  unfold Dev.ipConnect Dev.logConnect
  split
  · exact hd
  · rename_i hc
    exact h.conn d hd (fun e => hc (Or.inl e)) (fun e => hc (Or.inr e))

theorem Dev.txFree_askSpace (d : Dev S R X) : d.askSpace.ser.txFree = d.serSpace :=
  (Ser.txFree_spaceAvailable d.ser).1.symm

/-! ## SIM7x00 -/

namespace Sim7x00

/-- The sections of `run()`. -/
structure Sections (p : Platform) (I : D → Prop) : Prop where
  fail : ∀ d, I d → d.isOpen = false → I { d with snd := .serialError }
  reset : ∀ d, I d → d.resetPending = true → d.serialLocked = false → I (handleReset d)
  line : ∀ d s m l, Ser.Later d.ser s → I d → d.resetPending = false → d.lineRead = true →
    LineDone (d.gotLine s m d.rep l) l → LineOk (d.gotLine s m d.rep l) →
    I (parseLine p (d.gotLine s m d.rep l)).1
  drop : ∀ d, I d → d.resetPending = false → d.disconnectPending = true → d.snd = .receiving →
    I d.flushReadBuffer
  csq : ∀ d, I d → d.resetPending = false → d.wait = none → d.rep = .okReply →
    20 ≤ d.ser.txFree → d.rssi = int16Max → d.lineRead = true →
    I { d.sendCommand b!"AT+CSQ" with rep := .csq, wait := some okStr }
  ident : ∀ d, I d → d.resetPending = false → d.wait = none → d.rep = .okReply →
    20 ≤ d.ser.txFree → (d.sendIDRequest iccidCommand).2 = true →
    I { (d.sendIDRequest iccidCommand).1 with rep := .requestID, wait := some okStr }
  identNone : ∀ d, I d → (d.sendIDRequest iccidCommand).2 = false →
    I (d.sendIDRequest iccidCommand).1
  act : ∀ d, I d → d.resetPending = false → d.wait = none → d.rep = .okReply →
    20 ≤ d.ser.txFree → I (act d)

theorem parseLine_reset {p : Platform} {d : D} (h : d.resetPending = false)
    (hf : (parseLine p d).2 = false) (hr : (parseLine p d).1.rep = .okReply) :
    (parseLine p d).1.resetPending = false := by
  have hw : (parseWait d).2 = false → (parseWait d).1.resetPending = false := by
    intro hw
    unfold parseWait at hw ⊢
    (repeat' split) <;> simp_all
  have hc : ∀ e : D, (checkState e).resetPending = e.resetPending := by
    intro e; unfold checkState; split <;> simp
  have hc2 : ∀ e : D, (checkState e).rep = e.rep := by
    intro e; unfold checkState; split <;> simp
  unfold parseLine at hf hr ⊢
  dsimp only at hf hr ⊢
  split
  · rename_i h2; rw [if_pos h2] at hf; rw [hf] at h2; simp at h2
  · rename_i h2
    have h3 : (parseWait d).1.resetPending = false := hw (by simpa using h2)
    rw [if_neg h2] at hf hr
    generalize (parseWait d).1 = e at *
    split
    · rename_i h4; rw [if_pos h4] at hf; rw [hf] at h4; simp at h4
    · rename_i h4
      rw [if_neg h4] at hr
      simp only [hc, hc2] at hr ⊢
      unfold parseReply at hr ⊢
      split
      all_goals
        rename_i hrep
        simp only [hrep] at hr
        (try dsimp only at hr)
        (try dsimp only)
        (repeat' split) <;> simp_all
      · rename_i h5
        revert h5
        unfold SimDev.parseDnsReply
        (try dsimp only)
        (repeat' split) <;> simp_all

theorem Sections.proceed {p : Platform} {I : D → Prop} (hs : Sections p I) (hc : Port I) {d : D}
    (h : I d) (hr : d.rep = .okReply → d.resetPending = false) : I (proceed d) := by
  unfold Sim7x00.proceed
  split
  · exact h
  · rename_i hw
    have hw1 : d.wait = none := by
      cases hx : d.wait with
      | none => rfl
      | some w => exact absurd (Or.inl (by simp [hx])) hw
    have hw2 : d.rep = .okReply := Classical.byContradiction fun hx => hw (Or.inr hx)
    have h' : I d.askSpace := hc.io d d.ser.spaceAvailable.1 d.line d.lbFill (Ser.later_spaceAvailable _) h
    split
    · exact h'
    · rename_i hsp
      have hsp' : 20 ≤ d.askSpace.ser.txFree := by rw [Dev.txFree_askSpace]; omega
      have hr' : d.askSpace.resetPending = false := hr hw2
      have hw1' : d.askSpace.wait = none := hw1
      have hw2' : d.askSpace.rep = .okReply := hw2
      generalize d.askSpace = e at *
      unfold sendNext
      split
      · rename_i hq
        exact hs.csq e h' hr' hw1' hw2' hsp' hq.1 hq.2
      · dsimp only
        split
        · rename_i hq
          exact hs.ident e h' hr' hw1' hw2' hsp' hq
        · rename_i hq
          have hq : (SimDev.sendIDRequest e iccidCommand).2 = false := by simpa using hq
          refine hs.act _ (hs.identNone e h' hq) (by simpa using hr') (by simpa using hw1')
            (by simpa using hw2') ?_
          revert hq
          unfold SimDev.sendIDRequest
          (repeat' split) <;> simp_all

theorem Sections.run {p : Platform} {I : D → Prop} (hs : Sections p I) (hc : Port I) {d : D}
    (hl : LineOk d) (h : I d) (ok : Bool) : I (run p d ok) := by
  unfold Sim7x00.run
  split
  · rename_i ho
    unfold tryOpen
    split
    · exact hc.isOpen d true h
    · exact hs.fail d h ho
  · split
    · exact h
    · rename_i hk
      split
      · rename_i hr
        exact hs.reset d h hr (by simpa using hk)
      · rename_i hr
        have hr : d.resetPending = false := by simpa using hr
        unfold work
        dsimp only
        rcases d.fillLine_cases (SimDev.lineStop d.rep) (stopOk_sim (x := NoHeader) d.rep).full hl with
          ⟨s, m, k, e⟩ | ⟨hlr, s, m, r, l, e, h1, h2, m', c, h3, _⟩
        · have e' : SimDev.fillLineBuffer d = (d.setIo s m k, false) := e
          rw [e']
          simp only [Bool.false_eq_true, if_false]
          have h4 := hc.io d s m k (later_setIo e) h
          refine hs.proceed hc ?_ ?_
          · unfold flushIfDisconnecting
            split
            · rename_i hq
              exact hs.drop _ h4 hr hq.1 hq.2
            · exact h4
          · intro _
            unfold flushIfDisconnecting
            split
            · exact hr
            · exact hr
        · have hrr : r = d.rep := by
            unfold SimDev.lineStop at h3
            split at h3 <;> simp at h3
            exact h3.symm
          subst hrr
          have e' : SimDev.fillLineBuffer d = (d.gotLine s m d.rep l, true) := e
          rw [e']
          simp only [if_true]
          have h4 := hs.line d s m l (later_gotLine e) h hr hlr h1 h2
          split
          · exact h4
          · rename_i hq
            refine hs.proceed hc h4 fun hrep => ?_
            exact parseLine_reset (p := p) (d := d.gotLine s m d.rep l) hr (by simpa using hq) hrep

/-- API calls of this driver only. -/
structure Own (I : D → Prop) : Prop where
  reset : ∀ d, I d → I (SimDev.resetStates d .notConnected .okReply)
  ext : ∀ d e, I d → I { d with ext := e }
  lock : ∀ d, I d → d.wait = none → d.rep = .okReply → I { d with serialLocked := true }
  unlock : ∀ d, I d → I { d with serialLocked := false }

theorem step_stages {p : Platform} {I : D → Prop} (hs : Sections p I) (hc : Calls I) (ho : Own I)
    {d : D} (hl : LineOk d) (h : I d) (op : Op) : I (step p d op) := by
  cases op with
  | run ok => exact hs.run hc.toPort hl h ok
  | connect =>
    simp only [step]
    unfold SimDev.connect
    split
    · exact h
    · exact hc.ipConnect h
  | resetStates => exact ho.reset d h
  | setApn => exact ho.ext d _ h
  | serialLock =>
    simp only [step, SimDev.serialLock]
    split
    · exact h
    · rename_i hq
      refine ho.lock d h ?_ ?_
      · cases hx : d.wait with
        | none => rfl
        | some w => exact absurd (Or.inl (by simp [hx])) hq
      · exact Classical.byContradiction fun hx => hq (Or.inr hx)
  | serialUnlock => exact ho.unlock d h
  | requestID => exact ho.ext d _ h
  | _ => simp only [step]; exact hc.common h _

/-- Invariants hold in all histories. -/
theorem exec_stages {p : Platform} {I : D → Prop} (hs : Sections p I) (hc : Calls I) (ho : Own I)
    {d : D} (hv : Inv d) (h : I d) (ops : List Op) : I (exec (step p) d ops) :=
  (exec_inv (step := step p) (I := fun d => Inv d ∧ I d) (ok := fun _ => True)
    (fun _ op _ h => ⟨step_inv p op h.1, step_stages hs hc ho h.1.1.line h.2 op⟩) ⟨hv, h⟩ ops
    fun _ _ => trivial).2

end Sim7x00

/-! ## SIM800 -/

namespace Sim800

/-- The sections of `run()` with an open port. -/
structure Core (p : Platform) (I : D → Prop) : Prop where
  reset : ∀ d, I d → d.resetPending = true → d.serialLocked = false → I (handleReset d)
  line : ∀ d s m l, Ser.Later d.ser s → I d → d.resetPending = false → d.lineRead = true →
    LineDone (d.gotLine s m d.rep l) l → LineOk (d.gotLine s m d.rep l) →
    I (parseLine p (d.gotLine s m d.rep l)).1
  drop : ∀ d, I d → d.resetPending = false → d.disconnectPending = true → d.snd = .receiving →
    I d.flushReadBuffer
  csq : ∀ d, I d → d.resetPending = false → d.wait = none → d.rep = .okReply →
    20 ≤ d.ser.txFree → d.rssi = int16Max → d.lineRead = true →
    I { d.sendCommand b!"AT+CSQ" with rep := .csq, wait := some okStr }
  ident : ∀ d, I d → d.resetPending = false → d.wait = none → d.rep = .okReply →
    20 ≤ d.ser.txFree → (d.sendIDRequest iccidCommand).2 = true →
    I { (d.sendIDRequest iccidCommand).1 with rep := .requestID, wait := some okStr }
  identNone : ∀ d, I d → (d.sendIDRequest iccidCommand).2 = false →
    I (d.sendIDRequest iccidCommand).1
  act : ∀ d, I d → d.resetPending = false → d.wait = none → d.rep = .okReply →
    20 ≤ d.ser.txFree → I (act d)

/-- The sections of `run()`. -/
structure Sections (p : Platform) (I : D → Prop) : Prop extends Core p I where
  fail : ∀ d, I d → d.isOpen = false → I { d with snd := .serialError }

theorem parseLine_reset {p : Platform} {d : D} (h : d.resetPending = false)
    (hf : (parseLine p d).2 = false) (hr : (parseLine p d).1.rep = .okReply) :
    (parseLine p d).1.resetPending = false := by
  have hw : (parseWait d).resetPending = false := by
    unfold parseWait
    split <;> simp_all
  have hc : ∀ e : D, (checkState e).resetPending = e.resetPending := by
    intro e; unfold checkState; split <;> simp
  have hc2 : ∀ e : D, (checkState e).rep = e.rep := by
    intro e; unfold checkState; split <;> simp
  unfold parseLine at hf hr ⊢
  split
  · rename_i h2; rw [if_pos h2] at hf; simp at hf
  · rename_i h2
    rw [if_neg h2] at hr
    generalize parseWait d = e at *
    simp only [hc, hc2] at hr ⊢
    unfold parseReply at hr ⊢
    split
    all_goals
      rename_i hrep
      simp only [hrep] at hr
      (try dsimp only at hr)
      (try dsimp only)
      (repeat' split) <;> simp_all
    · rename_i h5
      revert h5
      unfold SimDev.parseDnsReply
      (try dsimp only)
      (repeat' split) <;> simp_all

theorem Core.proceed {p : Platform} {I : D → Prop} (hs : Core p I) (hc : Port I) {d : D}
    (h : I d) (hr : d.rep = .okReply → d.resetPending = false) : I (proceed d) := by
  unfold Sim800.proceed
  split
  · exact h
  · rename_i hw
    have hw1 : d.wait = none := by
      cases hx : d.wait with
      | none => rfl
      | some w => exact absurd (Or.inl (by simp [hx])) hw
    have hw2 : d.rep = .okReply := Classical.byContradiction fun hx => hw (Or.inr hx)
    have h' : I d.askSpace := hc.io d d.ser.spaceAvailable.1 d.line d.lbFill (Ser.later_spaceAvailable _) h
    split
    · exact h'
    · rename_i hsp
      have hsp' : 20 ≤ d.askSpace.ser.txFree := by rw [Dev.txFree_askSpace]; omega
      have hr' : d.askSpace.resetPending = false := hr hw2
      have hw1' : d.askSpace.wait = none := hw1
      have hw2' : d.askSpace.rep = .okReply := hw2
      generalize d.askSpace = e at *
      unfold sendNext
      split
      · rename_i hq
        exact hs.csq e h' hr' hw1' hw2' hsp' hq.1 hq.2
      · dsimp only
        split
        · rename_i hq
          exact hs.ident e h' hr' hw1' hw2' hsp' hq
        · rename_i hq
          have hq : (SimDev.sendIDRequest e iccidCommand).2 = false := by simpa using hq
          refine hs.act _ (hs.identNone e h' hq) (by simpa using hr') (by simpa using hw1')
            (by simpa using hw2') ?_
          revert hq
          unfold SimDev.sendIDRequest
          (repeat' split) <;> simp_all

theorem Core.work {p : Platform} {I : D → Prop} (hs : Core p I) (hc : Port I) {d : D}
    (hl : LineOk d) (h : I d) (hr : d.resetPending = false) : I (work p d) := by
  unfold Sim800.work
  dsimp only
  rcases d.fillLine_cases (SimDev.lineStop d.rep) (stopOk_sim (x := NoHeader) d.rep).full hl with
    ⟨s, m, k, e⟩ | ⟨hlr, s, m, r, l, e, h1, h2, m', c, h3, _⟩
  · have e' : SimDev.fillLineBuffer d = (d.setIo s m k, false) := e
    rw [e']
    simp only [Bool.false_eq_true, if_false]
    have h4 := hc.io d s m k (later_setIo e) h
    refine hs.proceed hc ?_ ?_
    · unfold flushIfDisconnecting
      split
      · rename_i hq
        exact hs.drop _ h4 hr hq.1 hq.2
      · exact h4
    · intro _
      unfold flushIfDisconnecting
      split
      · exact hr
      · exact hr
  · have hrr : r = d.rep := by
      unfold SimDev.lineStop at h3
      split at h3 <;> simp at h3
      exact h3.symm
    subst hrr
    have e' : SimDev.fillLineBuffer d = (d.gotLine s m d.rep l, true) := e
    rw [e']
    simp only [if_true]
    have h4 := hs.line d s m l (later_gotLine e) h hr hlr h1 h2
    split
    · exact h4
    · rename_i hq
      refine hs.proceed hc h4 fun hrep => ?_
      exact parseLine_reset (p := p) (d := d.gotLine s m d.rep l) hr (by simpa using hq) hrep

theorem handleReset_reset (d : D) : (handleReset d).resetPending = false := by
  unfold handleReset
  dsimp only
  split <;> simp

theorem Core.run {p : Platform} {I : D → Prop} (hs : Core p I) (hc : Port I) {d : D}
    (hl : LineOk d) (h : I d) (ok : Bool) (hf : ok = false → d.isOpen = false → I { d with snd := .serialError }) :
    I (run p d ok) := by
  unfold Sim800.run
  split
  · rename_i ho
    unfold tryOpen
    split
    · exact hc.isOpen d true h
    · rename_i hk
      exact hf (by simpa using hk) ho
  · split
    · exact h
    · rename_i hk
      split
      · rename_i hr
        exact hs.work hc ((eff_handleReset (x := NoHeader) (st := false) d).lineOk hl)
          (hs.reset d h hr (by simpa using hk)) (handleReset_reset d)
      · rename_i hr
        exact hs.work hc hl h (by simpa using hr)

theorem Sections.run {p : Platform} {I : D → Prop} (hs : Sections p I) (hc : Port I) {d : D}
    (hl : LineOk d) (h : I d) (ok : Bool) : I (run p d ok) :=
  hs.toCore.run hc hl h ok fun _ ho => hs.fail d h ho

/-- API calls of this driver only. -/
structure Own (I : D → Prop) : Prop where
  reset : ∀ d, I d → I (SimDev.resetStates d .notConnected .okReply)
  ext : ∀ d e, I d → I { d with ext := e }
  lock : ∀ d, I d → d.wait = none → d.rep = .okReply → I { d with serialLocked := true }
  unlock : ∀ d, I d → I { d with serialLocked := false }

theorem Core.step {p : Platform} {I : D → Prop} (hs : Core p I) (hc : Calls I) (ho : Own I)
    {d : D} (hl : LineOk d) (h : I d) (op : Op)
    (hf : op = .run false → d.isOpen = false → I { d with snd := .serialError }) : I (step p d op) := by
  cases op with
  | run ok => exact hs.run hc.toPort hl h ok fun e => hf (by rw [e])
  | connect =>
    simp only [Sim800.step]
    unfold SimDev.connect
    split
    · exact h
    · exact hc.ipConnect h
  | resetStates => exact ho.reset d h
  | setApn => exact ho.ext d _ h
  | serialLock =>
    simp only [Sim800.step, SimDev.serialLock]
    split
    · exact h
    · rename_i hq
      refine ho.lock d h ?_ ?_
      · cases hx : d.wait with
        | none => rfl
        | some w => exact absurd (Or.inl (by simp [hx])) hq
      · exact Classical.byContradiction fun hx => hq (Or.inr hx)
  | serialUnlock => exact ho.unlock d h
  | requestID => exact ho.ext d _ h
  | _ => simp only [Sim800.step]; exact hc.common h _

theorem step_stages {p : Platform} {I : D → Prop} (hs : Sections p I) (hc : Calls I) (ho : Own I)
    {d : D} (hl : LineOk d) (h : I d) (op : Op) : I (step p d op) :=
  hs.toCore.step hc ho hl h op fun _ ho => hs.fail d h ho

/-- Invariants hold in all histories in which the serial device can be opened. -/
theorem exec_core {p : Platform} {I : D → Prop} (hs : Core p I) (hc : Calls I) (ho : Own I)
    {d : D} (hv : Inv d) (h : I d) (ops : List Op) (hf : Op.run false ∉ ops) : I (exec (step p) d ops) :=
  (exec_inv (step := step p) (I := fun d => Inv d ∧ I d) (ok := fun op => op ≠ .run false)
    (fun _ op hq h => ⟨step_inv p op h.1, hs.step hc ho h.1.1.line h.2 op fun e => absurd e hq⟩) ⟨hv, h⟩ ops
    fun _ hop e => hf (e ▸ hop)).2

/-- Invariants hold in all histories. -/
theorem exec_stages {p : Platform} {I : D → Prop} (hs : Sections p I) (hc : Calls I) (ho : Own I)
    {d : D} (hv : Inv d) (h : I d) (ops : List Op) : I (exec (step p) d ops) :=
  (exec_inv (step := step p) (I := fun d => Inv d ∧ I d) (ok := fun _ => True)
    (fun _ op _ h => ⟨step_inv p op h.1, step_stages hs hc ho h.1.1.line h.2 op⟩) ⟨hv, h⟩ ops
    fun _ _ => trivial).2

end Sim800

/-! ## Espressif -/

namespace Espressif

/-- The reply state after a line was completed: the header of a data block moves it on. -/
def RepAfter (d : D) (l : List Byte) (r : Rep) : Prop :=
  r = d.rep ∨ (d.rep = .waitCiprecvdata ∧ r = .parseStateCiprecvdata ∧
    (b!"+CIPRECVDATA," <+: l ∨ b!"+CIPRECVDATA:" <+: l))

theorem repAfter_of_stop {d : D} {m' : Mem} {l : List Byte} {c : Byte} {r : Rep}
    (h : lineStop d.typ d.rep m' l.length c = some r) (ht : m'.cells.take l.length = l) :
    RepAfter d l r := by
  unfold lineStop at h
  split at h
  · simp at h; exact Or.inl h.symm
  · split at h
    · rename_i hc
      simp at h
      refine Or.inr ⟨hc.1, h.symm, ?_⟩
      have key : ∀ lit : List Byte, (0 : Byte) ∉ lit → lit.length = 13 → hasPrefix m' lit = true →
          lit <+: l := by
        intro lit h0 hlen hp
        have h1 : lit <+: m'.cells := (hasPrefix_iff _ _ h0).mp hp
        have h2 : l <+: m'.cells := by
          have := List.take_prefix l.length m'.cells
          rw [ht] at this
          exact this
        exact List.prefix_of_prefix_length_le h1 h2 (by have := hc.2.1; omega)
      rcases hc.2.2 with h3 | h3
      · exact Or.inl (key _ (by decide) rfl h3.2)
      · exact Or.inr (key _ (by decide) rfl h3.2)
    · simp at h

/-- Where a line ends. -/
def LineEnd (d : D) (l : List Byte) (r : Rep) : Prop :=
  ∃ m c, lineStop d.typ d.rep m l.length c = some r ∧ m.cells.take l.length = l ∧ l.getLast? = some c

/-- The sections of `run()`. -/
structure Sections (p : Platform) (I : D → Prop) : Prop where
  fail : ∀ d, I d → d.isOpen = false → I { d with snd := .serialError }
  reset : ∀ d, I d → d.resetPending = true → I (handleReset d)
  line : ∀ d s m l r, Ser.Later d.ser s → I d → d.resetPending = false → d.lineRead = true → RepAfter d l r →
    LineDone (d.gotLine s m r l) l → LineOk (d.gotLine s m r l) →
    LineEnd d l r → I (parseLine p (d.gotLine s m r l)).1
  drop : ∀ d, I d → d.resetPending = false → d.disconnectPending = true → d.snd = .receiving →
    I d.flushReadBuffer
  csq : ∀ d, I d → d.resetPending = false → d.wait = none → d.rep = .okReply →
    20 ≤ d.ser.txFree → d.rssi = int16Max → d.lineRead = true →
    I { d.sendCommand b!"AT+CWJAP?" with rep := .rssi, wait := some okStr }
  mac : ∀ d, I d → d.resetPending = false → d.wait = none → d.rep = .okReply →
    20 ≤ d.ser.txFree → macMarked p d.ext.mac = true → d.lineRead = true →
    I { d.sendCommand b!"AT+CIPSTAMAC?" with
      ext := { d.ext with mac := d.ext.mac.store 1 0 }, rep := .reqMac, wait := some okStr }
  act : ∀ d, I d → d.resetPending = false → d.wait = none → d.rep = .okReply →
    20 ≤ d.ser.txFree → I (act d)

theorem parseLine_reset {p : Platform} {d : D} (h : d.resetPending = false)
    (hf : (parseLine p d).2 = false) : (parseLine p d).1.resetPending = false := by
  have hw : ∀ e : D, (parseWait e).resetPending = e.resetPending := by
    intro e; unfold parseWait; split <;> rfl
  have hc : ∀ e : D, (checkState p e).resetPending = e.resetPending := by
    intro e; unfold checkState; dsimp only; (repeat' split) <;> rfl
  have hp : ∀ e : D, (parseReply p e).resetPending = e.resetPending := by
    intro e; unfold parseReply; split <;> (try dsimp only) <;> (repeat' split) <;> simp
  have hs : ∀ e : D, (parseSendFail e).resetPending = e.resetPending := by
    intro e; unfold parseSendFail; split <;> rfl
  unfold parseLine at hf ⊢
  split
  · rename_i h2; rw [if_pos h2] at hf; simp at hf
  · simp only [hw, hc, hp, hs, h]

theorem Sections.proceed {p : Platform} {I : D → Prop} (hs : Sections p I) (hc : Port I) {d : D}
    (h : I d) (hr : d.resetPending = false) : I (proceed p d) := by
  unfold Espressif.proceed
  split
  · exact h
  · rename_i hw
    have hw1 : d.wait = none := by
      cases hx : d.wait with
      | none => rfl
      | some w => exact absurd (Or.inl (by simp [hx])) hw
    have hw2 : d.rep = .okReply := Classical.byContradiction fun hx => hw (Or.inr hx)
    have h' : I d.askSpace := hc.io d d.ser.spaceAvailable.1 d.line d.lbFill (Ser.later_spaceAvailable _) h
    split
    · exact h'
    · rename_i hsp
      have hsp' : 20 ≤ d.askSpace.ser.txFree := by rw [Dev.txFree_askSpace]; omega
      have hr' : d.askSpace.resetPending = false := hr
      have hw1' : d.askSpace.wait = none := hw1
      have hw2' : d.askSpace.rep = .okReply := hw2
      generalize d.askSpace = e at *
      unfold sendNext
      split
      · rename_i hq
        exact hs.csq e h' hr' hw1' hw2' hsp' hq.1 hq.2
      · split
        · rename_i hq
          exact hs.mac e h' hr' hw1' hw2' hsp' hq.1 hq.2.2
        · exact hs.act e h' hr' hw1' hw2' hsp'

theorem Sections.work {p : Platform} {I : D → Prop} (hs : Sections p I) (hc : Port I) {d : D}
    (hl : LineOk d) (h : I d) (hr : d.resetPending = false) : I (work p d) := by
  unfold Espressif.work
  dsimp only
  rcases d.fillLine_cases (lineStop d.typ d.rep) (stopOk d.typ d.rep).full hl with
    ⟨s, m, k, e⟩ | ⟨hlr, s, m, r, l, e, h1, h2, m', c, h3, ht, h5⟩
  · have e' : fillLineBuffer d = (d.setIo s m k, false) := e
    rw [e']
    simp only [Bool.false_eq_true, if_false]
    have h4 := hc.io d s m k (later_setIo e) h
    refine hs.proceed hc ?_ ?_
    · unfold flushIfDisconnecting
      split
      · rename_i hq
        exact hs.drop _ h4 hr hq.1 hq.2
      · exact h4
    · unfold flushIfDisconnecting
      split
      · exact hr
      · exact hr
  · have e' : fillLineBuffer d = (d.gotLine s m r l, true) := e
    rw [e']
    simp only [if_true]
    have h4 := hs.line d s m l r (later_gotLine e) h hr hlr (repAfter_of_stop h3 ht) h1 h2 ⟨m', c, h3, ht, h5⟩
    split
    · exact h4
    · rename_i hq
      exact hs.proceed hc h4
        (parseLine_reset (p := p) (d := d.gotLine s m r l) hr (by simpa using hq))

theorem Sections.run {p : Platform} {I : D → Prop} (hs : Sections p I) (hc : Port I) {d : D}
    (hl : LineOk d) (h : I d) (ok : Bool) : I (run p d ok) := by
  unfold Espressif.run
  split
  · rename_i ho
    unfold tryOpen
    split
    · exact hc.isOpen d true h
    · exact hs.fail d h ho
  · split
    · rename_i hr
      exact hs.reset d h hr
    · rename_i hr
      exact hs.work hc hl h (by simpa using hr)

/-- API calls of this driver only. -/
structure Own (I : D → Prop) : Prop where
  reset : ∀ d, I d → I (resetStates d)
  ext : ∀ d e, I d → I { d with ext := e }
  ub : ∀ d, I d → I { d with ub := true }

theorem step_stages0 {p : Platform} {I : D → Prop} (hs : Sections p I) (hc : Calls0 I) (ho : Own I)
    {d : D} (hl : LineOk d) (h : I d) (op : Op)
    (hh : ∀ a q t, op = .setHostPort a q t → I { d with host := a, port := q.toNat, typ := t }) :
    I (step p d op) := by
  cases op with
  | run ok => exact hs.run hc.toPort hl h ok
  | connect =>
    simp only [step]
    unfold connect
    dsimp only
    have h' : I (if d.ext.ssid = .uninit ∨ d.ext.passwd = .uninit then { d with ub := true } else d) := by
      split
      · exact ho.ub d h
      · exact h
    generalize (if d.ext.ssid = .uninit ∨ d.ext.passwd = .uninit then { d with ub := true } else d) = e at h'
    split
    · exact h'
    · exact hc.ipConnect h'
  | resetStates => exact ho.reset d h
  | setSSID => exact ho.ext d _ h
  | setPassword => exact ho.ext d _ h
  | requestMac => exact ho.ext d _ h
  | _ => simp only [step]; exact hc.common h _ hh

theorem step_stages {p : Platform} {I : D → Prop} (hs : Sections p I) (hc : Calls I) (ho : Own I)
    {d : D} (hl : LineOk d) (h : I d) (op : Op) : I (step p d op) :=
  step_stages0 hs hc.toCalls0 ho hl h op fun a q t _ => hc.host d a q.toNat t h

/-- Invariants hold in all histories. -/
theorem exec_stages {p : Platform} {I : D → Prop} (hs : Sections p I) (hc : Calls I) (ho : Own I)
    {d : D} (hv : Inv d) (h : I d) (ops : List Op) : I (exec (step p) d ops) :=
  (exec_inv (step := step p) (I := fun d => Inv d ∧ I d) (ok := fun _ => True)
    (fun _ op _ h => ⟨step_inv p op h.1, step_stages hs hc ho h.1.line h.2 op⟩) ⟨hv, h⟩ ops
    fun _ _ => trivial).2

/-- Invariants hold in all histories with TCP only. -/
theorem exec_stages_tcp {p : Platform} {I : D → Prop} (hs : Sections p I) (hc : Calls0 I)
    (hh : ∀ d a q, I d → I { d with host := a, port := q, typ := .tcp }) (ho : Own I)
    {d : D} (hv : TcpInv d) (h : I d) (ops : List Op) (hops : ∀ op ∈ ops, TcpOp op) :
    I (exec (step p) d ops) :=
  (exec_inv (step := step p) (I := fun d => TcpInv d ∧ I d) (ok := TcpOp)
    (fun d op hop h => ⟨step_tcpInv p op hop h.1, step_stages0 hs hc ho h.1.1.line h.2 op
      fun a q t e => by rw [hop a q t e]; exact hh d a _ h.2⟩) ⟨hv, h⟩ ops hops).2

end Espressif

/-! ## CC1352P7 -/

namespace CC1352P7

/-- Where a line ends. -/
def LineEnd (l : List Byte) : Prop :=
  ∃ c, l.getLast? = some c ∧ (c = nl ∨ c = gt ∨ l.length = lineMax)

/-- The sections of `run()`. -/
structure Sections (p : Platform) (I : D → Prop) : Prop where
  fail : ∀ d, I d → d.isOpen = false → I { d with snd := .serialError }
  reset : ∀ d, I d → d.resetPending = true → I (handleReset d)
  line : ∀ d s m l, Ser.Later d.ser s → I d → d.resetPending = false → d.lineRead = true →
    LineDone (d.gotLine s m d.rep l) l → LineOk (d.gotLine s m d.rep l) →
    LineEnd l → I (parseLine p (d.gotLine s m d.rep l)).1
  drop : ∀ d, I d → d.resetPending = false → d.disconnectPending = true → d.snd = .receiving →
    I d.flushReadBuffer
  csq : ∀ d, I d → d.resetPending = false → d.wait = none → d.rep = .okReply →
    20 ≤ d.ser.txFree → d.rssi = int16Max → d.lineRead = true →
    I { d.sendCommand b!"AT+CSQ" with rep := .csq, wait := some okStr }
  mac : ∀ d, I d → d.resetPending = false → d.wait = none → d.rep = .okReply →
    20 ≤ d.ser.txFree → Espressif.macMarked p d.ext.mac = true → d.lineRead = true →
    I { d.sendCommand b!"AT+CIPSTAMAC" with
      ext := { mac := d.ext.mac.store 1 0 }, rep := .reqMac, wait := some okStr }
  act : ∀ d, I d → d.resetPending = false → d.wait = none → d.rep = .okReply →
    20 ≤ d.ser.txFree → I (act d)

theorem parseLine_reset {p : Platform} {d : D} (h : d.resetPending = false)
    (hf : (parseLine p d).2 = false) : (parseLine p d).1.resetPending = false := by
  have hw : ∀ e : D, (parseWait e).resetPending = e.resetPending := by
    intro e; unfold parseWait; split <;> rfl
  have hc : ∀ e : D, (checkState p e).resetPending = e.resetPending := by
    intro e; unfold checkState; (try dsimp only); (repeat' split) <;> rfl
  have hp : ∀ e : D, (parseReply p e).resetPending = e.resetPending := by
    intro e; unfold parseReply; split <;> (try dsimp only) <;> (repeat' split) <;> simp
  unfold parseLine at hf ⊢
  split
  · rename_i h2; rw [if_pos h2] at hf; simp at hf
  · simp only [hw, hc, hp, h]

theorem Sections.proceed {p : Platform} {I : D → Prop} (hs : Sections p I) (hc : Port I) {d : D}
    (h : I d) (hr : d.resetPending = false) : I (proceed p d) := by
  unfold CC1352P7.proceed
  split
  · exact h
  · rename_i hw
    have hw1 : d.wait = none := by
      cases hx : d.wait with
      | none => rfl
      | some w => exact absurd (Or.inl (by simp [hx])) hw
    have hw2 : d.rep = .okReply := Classical.byContradiction fun hx => hw (Or.inr hx)
    have h' : I d.askSpace := hc.io d d.ser.spaceAvailable.1 d.line d.lbFill (Ser.later_spaceAvailable _) h
    split
    · exact h'
    · rename_i hsp
      have hsp' : 20 ≤ d.askSpace.ser.txFree := by rw [Dev.txFree_askSpace]; omega
      have hr' : d.askSpace.resetPending = false := hr
      have hw1' : d.askSpace.wait = none := hw1
      have hw2' : d.askSpace.rep = .okReply := hw2
      generalize d.askSpace = e at *
      unfold sendNext
      split
      · rename_i hq
        exact hs.csq e h' hr' hw1' hw2' hsp' hq.1 hq.2
      · split
        · rename_i hq
          exact hs.mac e h' hr' hw1' hw2' hsp' hq.1 hq.2.2
        · exact hs.act e h' hr' hw1' hw2' hsp'

theorem Sections.work {p : Platform} {I : D → Prop} (hs : Sections p I) (hc : Port I) {d : D}
    (hl : LineOk d) (h : I d) (hr : d.resetPending = false) : I (work p d) := by
  unfold CC1352P7.work
  dsimp only
  rcases d.fillLine_cases (lineStop d.rep) (stopOk (x := NoHeader) d.rep).full hl with
    ⟨s, m, k, e⟩ | ⟨hlr, s, m, r, l, e, h1, h2, m', c, h3, _, h5⟩
  · have e' : fillLineBuffer d = (d.setIo s m k, false) := e
    rw [e']
    simp only [Bool.false_eq_true, if_false]
    have h4 := hc.io d s m k (later_setIo e) h
    refine hs.proceed hc ?_ ?_
    · unfold flushIfDisconnecting
      split
      · rename_i hq
        exact hs.drop _ h4 hr hq.1 hq.2
      · exact h4
    · unfold flushIfDisconnecting
      split
      · exact hr
      · exact hr
  · have hrr : r = d.rep := by
      unfold lineStop at h3
      split at h3 <;> simp at h3
      exact h3.symm
    have hend : LineEnd l := by
      refine ⟨c, h5, ?_⟩
      unfold lineStop at h3
      split at h3
      · assumption
      · simp at h3
    subst hrr
    have e' : fillLineBuffer d = (d.gotLine s m d.rep l, true) := e
    rw [e']
    simp only [if_true]
    have h4 := hs.line d s m l (later_gotLine e) h hr hlr h1 h2 hend
    split
    · exact h4
    · rename_i hq
      exact hs.proceed hc h4
        (parseLine_reset (p := p) (d := d.gotLine s m d.rep l) hr (by simpa using hq))

theorem handleReset_reset (d : D) : (handleReset d).resetPending = false := by
  unfold handleReset
  dsimp only
  split <;> simp

theorem Sections.run {p : Platform} {I : D → Prop} (hs : Sections p I) (hc : Port I) {d : D}
    (hl : LineOk d) (h : I d) (ok : Bool) : I (run p d ok) := by
  unfold CC1352P7.run
  split
  · rename_i ho
    unfold tryOpen
    split
    · exact hc.isOpen d true h
    · exact hs.fail d h ho
  · split
    · rename_i hr
      exact hs.work hc ((eff_handleReset (x := NoHeader) (st := false) d).lineOk hl)
        (hs.reset d h hr) (handleReset_reset d)
    · rename_i hr
      exact hs.work hc hl h (by simpa using hr)

/-- API calls of this driver only. -/
structure Own (I : D → Prop) : Prop where
  reset : ∀ d, I d → I (resetStates d)
  ext : ∀ d e, I d → I { d with ext := e }

theorem step_stages {p : Platform} {I : D → Prop} (hs : Sections p I) (hc : Calls I) (ho : Own I)
    {d : D} (hl : LineOk d) (h : I d) (op : Op) : I (step p d op) := by
  cases op with
  | run ok => exact hs.run hc.toPort hl h ok
  | connect => exact hc.ipConnect h
  | resetStates => exact ho.reset d h
  | requestMac => exact ho.ext d _ h
  | _ => simp only [step]; exact hc.common h _

/-- Invariants hold in all histories. -/
theorem exec_stages {p : Platform} {I : D → Prop} (hs : Sections p I) (hc : Calls I) (ho : Own I)
    {d : D} (hv : Inv d) (h : I d) (ops : List Op) : I (exec (step p) d ops) :=
  (exec_inv (step := step p) (I := fun d => Inv d ∧ I d) (ok := fun _ => True)
    (fun _ op _ h => ⟨step_inv p op h.1, step_stages hs hc ho h.1.1.line h.2 op⟩) ⟨hv, h⟩ ops
    fun _ _ => trivial).2

end CC1352P7

end Verif
