import Verif.Lemmas.Stages

/-!
# One call of `run()`

What holds before a call may change its form when the state machine acts: `A` holds up to there, `B`
afterwards.
-/

namespace Verif

open Dev

namespace Sim800

/-- The sections of one call of `run()`. -/
structure Phases (p : Platform) (A B : D → Prop) : Prop where
  le : ∀ d, A d → B d
  fail : ∀ d, A d → d.isOpen = false → B { d with snd := .serialError }
  reset : ∀ d, A d → d.resetPending = true → d.serialLocked = false → A (handleReset d)
  line : ∀ d s m l, Ser.Later d.ser s → A d → d.resetPending = false → d.lineRead = true →
    LineDone (d.gotLine s m d.rep l) l → LineOk (d.gotLine s m d.rep l) →
    A (parseLine p (d.gotLine s m d.rep l)).1
  drop : ∀ d, A d → d.resetPending = false → d.disconnectPending = true → d.snd = .receiving →
    A d.flushReadBuffer
  csq : ∀ d, A d → d.resetPending = false → d.wait = none → d.rep = .okReply →
    20 ≤ d.ser.txFree → d.rssi = int16Max → d.lineRead = true →
    B { d.sendCommand b!"AT+CSQ" with rep := .csq, wait := some okStr }
  ident : ∀ d, A d → d.resetPending = false → d.wait = none → d.rep = .okReply →
    20 ≤ d.ser.txFree → (d.sendIDRequest iccidCommand).2 = true →
    B { (d.sendIDRequest iccidCommand).1 with rep := .requestID, wait := some okStr }
  identNone : ∀ d, A d → (d.sendIDRequest iccidCommand).2 = false →
    A (d.sendIDRequest iccidCommand).1
  act : ∀ d, A d → d.resetPending = false → d.wait = none → d.rep = .okReply →
    20 ≤ d.ser.txFree → B (act d)

theorem Phases.proceed {p : Platform} {A B : D → Prop} (hs : Phases p A B) (hc : Port A) {d : D}
    (h : A d) (hr : d.rep = .okReply → d.resetPending = false) : B (proceed d) := by
  unfold Sim800.proceed
  split
  · exact hs.le _ h
  · rename_i hw
    have hw1 : d.wait = none := by
      cases hx : d.wait with
      | none => rfl
      | some w => exact absurd (Or.inl (by simp [hx])) hw
    have hw2 : d.rep = .okReply := Classical.byContradiction fun hx => hw (Or.inr hx)
    have h' : A d.askSpace := hc.io d d.ser.spaceAvailable.1 d.line d.lbFill (Ser.later_spaceAvailable _) h
    split
    · exact hs.le _ h'
    · rename_i hsp
      have hsp' : 20 ≤ d.askSpace.ser.txFree := by rw [Dev.txFree_askSpace]; omega
      have hr' : d.askSpace.resetPending = false := hr hw2
      have hw1' : d.askSpace.wait = none := hw1
      have hw2' : d.askSpace.rep = .okReply := hw2
      generalize d.askSpace = e at *
      unfold sendNext
      split
      · rename_i hq
        exact hs.csq e h' hr' hw1' hw2' hsp' hq.1 hq.2
      · dsimp only
        split
        · rename_i hq
          exact hs.ident e h' hr' hw1' hw2' hsp' hq
        · rename_i hq
          have hq : (SimDev.sendIDRequest e iccidCommand).2 = false := by simpa using hq
          refine hs.act _ (hs.identNone e h' hq) (by simpa using hr') (by simpa using hw1')
            (by simpa using hw2') ?_
          revert hq
          unfold SimDev.sendIDRequest
          (repeat' split) <;> simp_all

theorem Phases.work {p : Platform} {A B : D → Prop} (hs : Phases p A B) (hc : Port A) {d : D}
    (hl : LineOk d) (h : A d) (hr : d.resetPending = false) : B (work p d) := by
  unfold Sim800.work
  dsimp only
  rcases d.fillLine_cases (SimDev.lineStop d.rep) (stopOk_sim (x := NoHeader) d.rep).full hl with
    ⟨s, m, k, e⟩ | ⟨hlr, s, m, r, l, e, h1, h2, m', c, h3, _⟩
  · have e' : SimDev.fillLineBuffer d = (d.setIo s m k, false) := e
    rw [e']
    simp only [Bool.false_eq_true, if_false]
    have h4 := hc.io d s m k (later_setIo e) h
    refine hs.proceed hc ?_ ?_
    · unfold flushIfDisconnecting
      split
      · rename_i hq
        exact hs.drop _ h4 hr hq.1 hq.2
      · exact h4
    · intro _
      unfold flushIfDisconnecting
      split
      · exact hr
      · exact hr
  · have hrr : r = d.rep := by
      unfold SimDev.lineStop at h3
      split at h3 <;> simp at h3
      exact h3.symm
    subst hrr
    have e' : SimDev.fillLineBuffer d = (d.gotLine s m d.rep l, true) := e
    rw [e']
    simp only [if_true]
    have h4 := hs.line d s m l (later_gotLine e) h hr hlr h1 h2
    split
    · exact hs.le _ h4
    · rename_i hq
      refine hs.proceed hc h4 fun hrep => ?_
      exact parseLine_reset (p := p) (d := d.gotLine s m d.rep l) hr (by simpa using hq) hrep

theorem Phases.run {p : Platform} {A B : D → Prop} (hs : Phases p A B) (hc : Port A) {d : D}
    (hl : LineOk d) (h : A d) (ok : Bool) : B (run p d ok) := by
  unfold Sim800.run
  split
  · rename_i ho
    unfold tryOpen
    split
    · exact hs.le _ (hc.isOpen d true h)
    · exact hs.fail d h ho
  · split
    · exact hs.le _ h
    · rename_i hk
      split
      · rename_i hr
        exact hs.work hc ((eff_handleReset (x := NoHeader) (st := false) d).lineOk hl)
          (hs.reset d h hr (by simpa using hk)) (handleReset_reset d)
      · rename_i hr
        exact hs.work hc hl h (by simpa using hr)

end Sim800

namespace Espressif

/-- The sections of one call of `run()`. -/
structure Phases (p : Platform) (A B : D → Prop) : Prop where
  le : ∀ d, A d → B d
  fail : ∀ d, A d → d.isOpen = false → B { d with snd := .serialError }
  reset : ∀ d, A d → d.resetPending = true → B (handleReset d)
  line : ∀ d s m l r, Ser.Later d.ser s → A d → d.resetPending = false → d.lineRead = true → RepAfter d l r →
    LineDone (d.gotLine s m r l) l → LineOk (d.gotLine s m r l) →
    LineEnd d l r → A (parseLine p (d.gotLine s m r l)).1
  drop : ∀ d, A d → d.resetPending = false → d.disconnectPending = true → d.snd = .receiving →
    A d.flushReadBuffer
  csq : ∀ d, A d → d.resetPending = false → d.wait = none → d.rep = .okReply →
    20 ≤ d.ser.txFree → d.rssi = int16Max → d.lineRead = true →
    B { d.sendCommand b!"AT+CWJAP?" with rep := .rssi, wait := some okStr }
  mac : ∀ d, A d → d.resetPending = false → d.wait = none → d.rep = .okReply →
    20 ≤ d.ser.txFree → macMarked p d.ext.mac = true → d.lineRead = true →
    B { d.sendCommand b!"AT+CIPSTAMAC?" with
      ext := { d.ext with mac := d.ext.mac.store 1 0 }, rep := .reqMac, wait := some okStr }
  act : ∀ d, A d → d.resetPending = false → d.wait = none → d.rep = .okReply →
    20 ≤ d.ser.txFree → B (act d)

theorem Phases.proceed {p : Platform} {A B : D → Prop} (hs : Phases p A B) (hc : Port A) {d : D}
    (h : A d) (hr : d.resetPending = false) : B (proceed p d) := by
  unfold Espressif.proceed
  split
  · exact hs.le _ h
  · rename_i hw
    have hw1 : d.wait = none := by
      cases hx : d.wait with
      | none => rfl
      | some w => exact absurd (Or.inl (by simp [hx])) hw
    have hw2 : d.rep = .okReply := Classical.byContradiction fun hx => hw (Or.inr hx)
    have h' : A d.askSpace := hc.io d d.ser.spaceAvailable.1 d.line d.lbFill (Ser.later_spaceAvailable _) h
    split
    · exact hs.le _ h'
    · rename_i hsp
      have hsp' : 20 ≤ d.askSpace.ser.txFree := by rw [Dev.txFree_askSpace]; omega
      have hr' : d.askSpace.resetPending = false := hr
      have hw1' : d.askSpace.wait = none := hw1
      have hw2' : d.askSpace.rep = .okReply := hw2
      generalize d.askSpace = e at *
      unfold sendNext
      split
      · rename_i hq
        exact hs.csq e h' hr' hw1' hw2' hsp' hq.1 hq.2
      · split
        · rename_i hq
          exact hs.mac e h' hr' hw1' hw2' hsp' hq.1 hq.2.2
        · exact hs.act e h' hr' hw1' hw2' hsp'

theorem Phases.work {p : Platform} {A B : D → Prop} (hs : Phases p A B) (hc : Port A) {d : D}
    (hl : LineOk d) (h : A d) (hr : d.resetPending = false) : B (work p d) := by
  unfold Espressif.work
  dsimp only
  rcases d.fillLine_cases (lineStop d.typ d.rep) (stopOk d.typ d.rep).full hl with
    ⟨s, m, k, e⟩ | ⟨hlr, s, m, r, l, e, h1, h2, m', c, h3, ht, h5⟩
  · have e' : fillLineBuffer d = (d.setIo s m k, false) := e
    rw [e']
    simp only [Bool.false_eq_true, if_false]
    have h4 := hc.io d s m k (later_setIo e) h
    refine hs.proceed hc ?_ ?_
    · unfold flushIfDisconnecting
      split
      · rename_i hq
        exact hs.drop _ h4 hr hq.1 hq.2
      · exact h4
    · unfold flushIfDisconnecting
      split
      · exact hr
      · exact hr
  · have e' : fillLineBuffer d = (d.gotLine s m r l, true) := e
    rw [e']
    simp only [if_true]
    have h4 := hs.line d s m l r (later_gotLine e) h hr hlr (repAfter_of_stop h3 ht) h1 h2 ⟨m', c, h3, ht, h5⟩
    split
    · exact hs.le _ h4
    · rename_i hq
      exact hs.proceed hc h4
        (parseLine_reset (p := p) (d := d.gotLine s m r l) hr (by simpa using hq))

theorem Phases.run {p : Platform} {A B : D → Prop} (hs : Phases p A B) (hc : Port A) {d : D}
    (hl : LineOk d) (h : A d) (ok : Bool) : B (run p d ok) := by
  unfold Espressif.run
  split
  · rename_i ho
    unfold tryOpen
    split
    · exact hs.le _ (hc.isOpen d true h)
    · exact hs.fail d h ho
  · split
    · rename_i hr
      exact hs.reset d h hr
    · rename_i hr
      exact hs.work hc hl h (by simpa using hr)

end Espressif

namespace CC1352P7

/-- The sections of one call of `run()`. -/
structure Phases (p : Platform) (A B : D → Prop) : Prop where
  le : ∀ d, A d → B d
  fail : ∀ d, A d → d.isOpen = false → B { d with snd := .serialError }
  reset : ∀ d, A d → d.resetPending = true → A (handleReset d)
  line : ∀ d s m l, Ser.Later d.ser s → A d → d.resetPending = false → d.lineRead = true →
    LineDone (d.gotLine s m d.rep l) l → LineOk (d.gotLine s m d.rep l) →
    LineEnd l → A (parseLine p (d.gotLine s m d.rep l)).1
  drop : ∀ d, A d → d.resetPending = false → d.disconnectPending = true → d.snd = .receiving →
    A d.flushReadBuffer
  csq : ∀ d, A d → d.resetPending = false → d.wait = none → d.rep = .okReply →
    20 ≤ d.ser.txFree → d.rssi = int16Max → d.lineRead = true →
    B { d.sendCommand b!"AT+CSQ" with rep := .csq, wait := some okStr }
  mac : ∀ d, A d → d.resetPending = false → d.wait = none → d.rep = .okReply →
    20 ≤ d.ser.txFree → Espressif.macMarked p d.ext.mac = true → d.lineRead = true →
    B { d.sendCommand b!"AT+CIPSTAMAC" with
      ext := { mac := d.ext.mac.store 1 0 }, rep := .reqMac, wait := some okStr }
  act : ∀ d, A d → d.resetPending = false → d.wait = none → d.rep = .okReply →
    20 ≤ d.ser.txFree → B (act d)

theorem Phases.proceed {p : Platform} {A B : D → Prop} (hs : Phases p A B) (hc : Port A) {d : D}
    (h : A d) (hr : d.resetPending = false) : B (proceed p d) := by
  unfold CC1352P7.proceed
  split
  · exact hs.le _ h
  · rename_i hw
    have hw1 : d.wait = none := by
      cases hx : d.wait with
      | none => rfl
      | some w => exact absurd (Or.inl (by simp [hx])) hw
    have hw2 : d.rep = .okReply := Classical.byContradiction fun hx => hw (Or.inr hx)
    have h' : A d.askSpace := hc.io d d.ser.spaceAvailable.1 d.line d.lbFill (Ser.later_spaceAvailable _) h
    split
    · exact hs.le _ h'
    · rename_i hsp
      have hsp' : 20 ≤ d.askSpace.ser.txFree := by rw [Dev.txFree_askSpace]; omega
      have hr' : d.askSpace.resetPending = false := hr
      have hw1' : d.askSpace.wait = none := hw1
      have hw2' : d.askSpace.rep = .okReply := hw2
      generalize d.askSpace = e at *
      unfold sendNext
      split
      · rename_i hq
        exact hs.csq e h' hr' hw1' hw2' hsp' hq.1 hq.2
      · split
        · rename_i hq
          exact hs.mac e h' hr' hw1' hw2' hsp' hq.1 hq.2.2
        · exact hs.act e h' hr' hw1' hw2' hsp'

theorem Phases.work {p : Platform} {A B : D → Prop} (hs : Phases p A B) (hc : Port A) {d : D}
    (hl : LineOk d) (h : A d) (hr : d.resetPending = false) : B (work p d) := by
  unfold CC1352P7.work
  dsimp only
  rcases d.fillLine_cases (lineStop d.rep) (stopOk (x := NoHeader) d.rep).full hl with
    ⟨s, m, k, e⟩ | ⟨hlr, s, m, r, l, e, h1, h2, m', c, h3, _, h5⟩
  · have e' : fillLineBuffer d = (d.setIo s m k, false) := e
    rw [e']
    simp only [Bool.false_eq_true, if_false]
    have h4 := hc.io d s m k (later_setIo e) h
    refine hs.proceed hc ?_ ?_
    · unfold flushIfDisconnecting
      split
      · rename_i hq
        exact hs.drop _ h4 hr hq.1 hq.2
      · exact h4
    · unfold flushIfDisconnecting
      split
      · exact hr
      · exact hr
  · have hrr : r = d.rep := by
      unfold lineStop at h3
      split at h3 <;> simp at h3
      exact h3.symm
    have hend : LineEnd l := by
      refine ⟨c, h5, ?_⟩
      unfold lineStop at h3
      split at h3
      · assumption
      · simp at h3
    subst hrr
    have e' : fillLineBuffer d = (d.gotLine s m d.rep l, true) := e
    rw [e']
    simp only [if_true]
    have h4 := hs.line d s m l (later_gotLine e) h hr hlr h1 h2 hend
    split
    · exact hs.le _ h4
    · rename_i hq
      exact hs.proceed hc h4
        (parseLine_reset (p := p) (d := d.gotLine s m d.rep l) hr (by simpa using hq))

theorem Phases.run {p : Platform} {A B : D → Prop} (hs : Phases p A B) (hc : Port A) {d : D}
    (hl : LineOk d) (h : A d) (ok : Bool) : B (run p d ok) := by
  unfold CC1352P7.run
  split
  · rename_i ho
    unfold tryOpen
    split
    · exact hs.le _ (hc.isOpen d true h)
    · exact hs.fail d h ho
  · split
    · rename_i hr
      exact hs.work hc ((eff_handleReset (x := NoHeader) (st := false) d).lineOk hl)
        (hs.reset d h hr) (handleReset_reset d)
    · rename_i hr
      exact hs.work hc hl h (by simpa using hr)

end CC1352P7

end Verif
