import Verif.Lemmas.DevIo

/-! A `run()` of any driver is a sequence of primitive operations. Facts about the serial stream, the
line buffer and the trace are proved once for all such sequences. -/

namespace Verif

/-- The condition on the end of a line shared by all drivers; `x` is a further condition under which a
line may end. -/
structure StopOk {R : Type} (x : List Byte → Byte → Prop) (stop : Mem → Nat → Byte → Option R) :
    Prop where
  full : ∀ m c, stop m lineMax c ≠ none
  nl : ∀ m k, stop m k nl ≠ none
  gt : ∀ m k, stop m k gt ≠ none
  fin : ∀ m k c r, stop m k c = some r →
    c = Verif.nl ∨ c = Verif.gt ∨ k = lineMax ∨ x (m.cells.take k) c

namespace Dev

variable {S R X : Type}

/-- Only control members changed; text of a completed line may change. -/
structure SameIo (d d' : Dev S R X) : Prop where
  ser : d'.ser = d.ser
  rbuf : d'.rbuf = d.rbuf
  wbuf : d'.wbuf = d.wbuf
  trace : d'.trace = d.trace
  fill : d'.lbFill = d.lbFill
  len : d'.line.cells.length = d.line.cells.length
  oob : d'.line.oob = d.line.oob
  line : d'.line = d.line ∨ d.lbFill = 0

/-- Sequences of primitive operations. With `strict`, payload is read only when no unfinished line is
in the buffer. -/
inductive Eff (x : List Byte → Byte → Prop) (strict : Bool) : Dev S R X → Dev S R X → Prop
  | ctl {d d' : Dev S R X} (h : SameIo d d') : Eff x strict d d'
  | cmd (d : Dev S R X) (s : List Byte) : Eff x strict d (d.cmd s)
  | arg (d : Dev S R X) (s : List Byte) : Eff x strict d (d.arg s)
  | cmdN (d : Dev S R X) (s : List Byte) : Eff x strict d (d.cmdN s)
  | argN (d : Dev S R X) (s : List Byte) : Eff x strict d (d.argN s)
  | askSpace (d : Dev S R X) : Eff x strict d d.askSpace
  | askAvail (d : Dev S R X) : Eff x strict d d.askAvail
  | flushSer (d : Dev S R X) : Eff x strict d d.flushSer
  | flushReadBuffer (d : Dev S R X) (h : strict = true → d.bytesToRead ≠ 0 → d.lbFill = 0) :
      Eff x strict d d.flushReadBuffer
  | sendData (d : Dev S R X) : Eff x strict d d.sendData
  | receive (d : Dev S R X) (h : strict = true → d.bytesToRead ≠ 0 → d.lbFill = 0) :
      Eff x strict d d.receive.1
  | fillLine (d : Dev S R X) (stop : Mem → Nat → Byte → Option R) (h : StopOk x stop) :
      Eff x strict d (d.fillLine stop).1
  | trans {a b c : Dev S R X} (h : Eff x strict a b) (k : Eff x strict b c) : Eff x strict a c

namespace Eff

variable {x : List Byte → Byte → Prop} {st : Bool}

theorem refl (d : Dev S R X) : Eff x st d d := .ctl ⟨rfl, rfl, rfl, rfl, rfl, rfl, rfl, Or.inl rfl⟩

/-- Control members only, by computation. -/
theorem set {d e : Dev S R X} (d' : Dev S R X) (h : Eff x st d d')
    (h1 : e.ser = d'.ser) (h2 : e.rbuf = d'.rbuf) (h3 : e.wbuf = d'.wbuf) (h4 : e.trace = d'.trace)
    (h5 : e.lbFill = d'.lbFill) (h6 : e.line = d'.line) : Eff x st d e :=
  h.trans (.ctl ⟨h1, h2, h3, h4, h5, by rw [h6], by rw [h6], Or.inl h6⟩)

theorem sendCommand {d d' : Dev S R X} (h : Eff x st d d') (s : List Byte) :
    Eff x st d (d'.sendCommand s) :=
  (h.trans (.cmd d' s)).trans (.arg _ lineEnd)

theorem cmd' {d d' : Dev S R X} (h : Eff x st d d') (s : List Byte) : Eff x st d (d'.cmd s) :=
  h.trans (.cmd _ _)
theorem arg' {d d' : Dev S R X} (h : Eff x st d d') (s : List Byte) : Eff x st d (d'.arg s) :=
  h.trans (.arg _ _)
theorem cmdN' {d d' : Dev S R X} (h : Eff x st d d') (s : List Byte) : Eff x st d (d'.cmdN s) :=
  h.trans (.cmdN _ _)
theorem argN' {d d' : Dev S R X} (h : Eff x st d d') (s : List Byte) : Eff x st d (d'.argN s) :=
  h.trans (.argN _ _)
theorem askSpace' {d d' : Dev S R X} (h : Eff x st d d') : Eff x st d d'.askSpace :=
  h.trans (.askSpace _)
theorem askAvail' {d d' : Dev S R X} (h : Eff x st d d') : Eff x st d d'.askAvail :=
  h.trans (.askAvail _)

theorem handleDisconnect {d d' : Dev S R X} (h : Eff x st d d') (n : S) :
    Eff x st d (d'.handleDisconnect n) := by
  refine h.trans (.ctl ?_)
  unfold Dev.handleDisconnect
  split <;> exact ⟨rfl, rfl, rfl, rfl, rfl, rfl, rfl, Or.inl rfl⟩

theorem handleConnect {d d' : Dev S R X} (h : Eff x st d d') (n : S) :
    Eff x st d (d'.handleConnect n) := by
  refine h.trans (.ctl ?_)
  unfold Dev.handleConnect
  split <;> exact ⟨rfl, rfl, rfl, rfl, rfl, rfl, rfl, Or.inl rfl⟩

theorem ipConnect {d d' : Dev S R X} (h : Eff x st d d') : Eff x st d d'.ipConnect.1 := by
  refine h.trans (.ctl ?_)
  unfold Dev.ipConnect
  split <;> exact ⟨rfl, rfl, rfl, rfl, rfl, rfl, rfl, Or.inl rfl⟩

theorem prepareSending {d d' : Dev S R X} (h : Eff x st d d') (c : Bool) :
    Eff x st d (d'.prepareSending c).1 := by
  refine h.trans ?_
  unfold Dev.prepareSending
  split
  · exact .askSpace _
  · have h2 : Eff x st d' (if d'.askSpace.wbuf.bytesAvailable > d'.askSpace.serSpace - minSpace
        then d'.askSpace.askSpace.askSpace else d'.askSpace.askSpace) := by
      split
      · exact ((Eff.askSpace _).askSpace').askSpace'
      · exact (Eff.askSpace _).askSpace'
    have h3 := Eff.set (e := { (if d'.askSpace.wbuf.bytesAvailable > d'.askSpace.serSpace - minSpace
        then d'.askSpace.askSpace.askSpace else d'.askSpace.askSpace) with
          bytesToWrite := amount d'.askSpace.wbuf.bytesAvailable d'.askSpace.serSpace
            d'.askSpace.askSpace.serSpace }) _ h2 rfl rfl rfl rfl rfl rfl
    have h4 := h3.cmd' b!"AT+CIPSEND="
    cases c with
    | false => exact Eff.set _ (h4.arg' _) rfl rfl rfl rfl rfl rfl
    | true => exact Eff.set _ ((h4.arg' _).arg' _) rfl rfl rfl rfl rfl rfl

end Eff

/-! ### Receive side and line buffer -/

theorem rxOk_flushLoop (n : Nat) {s : Ser} {rq : List Byte} (h : Ser.RxRep s rq) :
    ∃ rq', Ser.RxRep (flushLoop s n).1 rq' := by
  induction n generalizing s rq with
  | zero => exact ⟨rq, h⟩
  | succ n ih =>
    obtain ⟨a, h1, e1⟩ := Ser.rxRep_bytesAvailable h
    unfold flushLoop
    by_cases hz : s.bytesAvailable.2 = 0
    · simp only [hz, if_true]; exact ⟨_, h1⟩
    · simp only [hz, if_false]
      cases hq : rq ++ a with
      | nil => rw [hq] at e1; simp at e1; exact absurd e1 hz
      | cons c cs =>
        rw [hq] at h1
        obtain ⟨a2, h2, _⟩ := Ser.rxRep_read1 h1
        exact ih h2

theorem rxOk_fillLoop (stop : Mem → Nat → Byte → Option R) (fuel : Nat) {s : Ser} {rq : List Byte}
    (h : Ser.RxRep s rq) (l : Mem) (k : Nat) : ∃ rq', Ser.RxRep (fillLoop stop fuel s l k).1 rq' := by
  induction fuel generalizing s rq l k with
  | zero => exact ⟨rq, h⟩
  | succ n ih =>
    obtain ⟨a, h1, e1⟩ := Ser.rxRep_bytesAvailable h
    unfold fillLoop
    by_cases hz : s.bytesAvailable.2 = 0
    · simp only [hz, if_true]; exact ⟨_, h1⟩
    · simp only [hz, if_false]
      cases hq : rq ++ a with
      | nil => rw [hq] at e1; simp at e1; exact absurd e1 hz
      | cons c cs =>
        rw [hq] at h1
        obtain ⟨a2, h2, _⟩ := Ser.rxRep_read1 h1
        split
        · exact ⟨_, h2⟩
        · exact ih h2 _ _

/-- The receive side of the serial device stays in order: bytes are read only when available. -/
theorem Eff.rxOk {x : List Byte → Byte → Prop} {st : Bool} {d d' : Dev S R X} (h : Eff x st d d') (hr : Ser.RxOk d.ser) : Ser.RxOk d'.ser := by
  induction h with
  | ctl h => rw [h.ser]; exact hr
  | cmd d s => obtain ⟨rq, hr⟩ := hr; obtain ⟨a, h⟩ := Ser.rxRep_writeStr hr s; exact ⟨_, h⟩
  | arg d s => obtain ⟨rq, hr⟩ := hr; obtain ⟨a, h⟩ := Ser.rxRep_writeStr hr s; exact ⟨_, h⟩
  | cmdN d s => obtain ⟨rq, hr⟩ := hr; obtain ⟨a, h⟩ := Ser.rxRep_write hr s; exact ⟨_, h⟩
  | argN d s => obtain ⟨rq, hr⟩ := hr; obtain ⟨a, h⟩ := Ser.rxRep_write hr s; exact ⟨_, h⟩
  | askSpace d => obtain ⟨rq, hr⟩ := hr; obtain ⟨a, h⟩ := Ser.rxRep_spaceAvailable hr; exact ⟨_, h⟩
  | askAvail d => obtain ⟨rq, hr⟩ := hr; obtain ⟨a, h, _⟩ := Ser.rxRep_bytesAvailable hr; exact ⟨_, h⟩
  | flushSer d => obtain ⟨rq, hr⟩ := hr; exact ⟨_, Ser.rxRep_flush hr⟩
  | flushReadBuffer d _ => obtain ⟨rq, hr⟩ := hr; exact rxOk_flushLoop d.bytesToRead hr
  | sendData d =>
    obtain ⟨rq, hr⟩ := hr
    obtain ⟨a, h⟩ := Ser.rxRep_writeLoop hr (pulls d.wbuf d.bytesToWrite).2
    exact ⟨_, h⟩
  | receive d _ =>
    obtain ⟨rq, hr⟩ := hr
    obtain ⟨a, h, e⟩ := Ser.rxRep_bytesAvailable hr
    unfold Dev.receive
    split
    · rename_i hc
      obtain ⟨a2, h2, _⟩ := Ser.rxRep_readLoop d.bytesToRead h (by rw [← e]; exact hc)
      exact ⟨_, h2⟩
    · exact ⟨_, h⟩
  | fillLine d stop hs =>
    obtain ⟨rq, hr⟩ := hr
    unfold Dev.fillLine
    split
    · have := rxOk_fillLoop stop (lineMax - d.lbFill) hr d.line d.lbFill
      simp only
      split <;> exact this
    · exact ⟨_, hr⟩
  | trans _ _ ih1 ih2 => exact ih2 (ih1 hr)

theorem SameIo.lineOk {d d' : Dev S R X} (h : SameIo d d') (hl : LineOk d) : LineOk d' :=
  ⟨h.len.trans hl.len, by rw [h.fill]; exact hl.fill, h.oob.trans hl.oob⟩

/-- The line buffer stays intact. -/
theorem Eff.lineOk {x : List Byte → Byte → Prop} {st : Bool} {d d' : Dev S R X} (h : Eff x st d d') (hl : LineOk d) : LineOk d' := by
  induction h with
  | ctl h => exact h.lineOk hl
  | fillLine d stop hs =>
    cases hlr : d.lineRead with
    | false => rw [fillLine_off d stop hlr]; exact hl
    | true =>
      obtain ⟨t, _, h1, _⟩ := fillLine_spec d stop hs.full hl hlr
      exact h1
  | receive d _ =>
    have e1 : d.receive.1.line = d.line := by simp
    have e2 : d.receive.1.lbFill = d.lbFill := by simp
    exact ⟨by rw [e1]; exact hl.len, by rw [e2]; exact hl.fill, by rw [e1]; exact hl.oob⟩
  | trans _ _ ih1 ih2 => exact ih2 (ih1 hl)
  | _ => exact ⟨hl.len, hl.fill, hl.oob⟩

/-! ### The received stream -/

/-- Bytes an event takes out of the serial stream. -/
def evRead : Ev → List Byte
  | .line bs | .data bs | .drop bs | .userRx bs => bs
  | _ => []

/-- Bytes taken out of the serial stream by a list of events. -/
def reads (t : List Ev) : List Byte := t.flatMap evRead

/-- The event throws away what the serial device holds. -/
def isFlush : Ev → Bool
  | .flush | .apiReset => true
  | _ => false

@[simp] theorem reads_nil : reads [] = [] := rfl
@[simp] theorem reads_append (a b : List Ev) : reads (a ++ b) = reads a ++ reads b := by
  simp [reads]
@[simp] theorem reads_single (e : Ev) : reads [e] = evRead e := by simp [reads]

/-- From `d` to `d'` the bytes `t` were taken, in order, and each of them is in an event or in the
unfinished line. -/
structure Acct (d d' : Dev S R X) (new : List Ev) (t : List Byte) : Prop where
  trace : d'.trace = d.trace ++ new
  bytes : part d ++ t = reads new ++ part d'
  taken : (∀ e ∈ new, isFlush e = false) → d'.ser.taken = d.ser.taken ++ t

theorem Acct.trans {a b c : Dev S R X} {n1 n2 t1 t2} (h : Acct a b n1 t1) (k : Acct b c n2 t2) :
    Acct a c (n1 ++ n2) (t1 ++ t2) where
  trace := by rw [k.trace, h.trace]; simp
  bytes := by
    rw [← List.append_assoc, h.bytes, List.append_assoc, k.bytes]; simp
  taken := by
    intro hf
    rw [k.taken (fun e he => hf e (by simp [he])), h.taken (fun e he => hf e (by simp [he]))]
    simp

theorem Acct.same {d d' : Dev S R X} (h1 : d'.trace = d.trace) (h2 : part d' = part d)
    (h3 : d'.ser.taken = d.ser.taken) : Acct d d' [] [] :=
  ⟨by simpa using h1, by simpa using h2.symm, fun _ => by simpa using h3⟩

theorem Acct.event {d d' : Dev S R X} (e : Ev) (h1 : d'.trace = d.trace ++ [e])
    (h2 : part d' = part d) (h3 : d'.ser.taken = d.ser.taken) (he : evRead e = []) :
    Acct d d' [e] [] :=
  ⟨h1, by simp [he, h2], fun _ => by simpa using h3⟩

theorem taken_flushLoop (s : Ser) (n : Nat) :
    (flushLoop s n).1.taken = s.taken ++ (flushLoop s n).2.2 := by
  induction n generalizing s with
  | zero => simp [flushLoop]
  | succ n ih =>
    unfold flushLoop
    by_cases hz : s.bytesAvailable.2 = 0
    · simp only [hz, if_true, Ser.taken_bytesAvailable, List.append_nil]
    · simp only [hz, if_false, ih, Ser.taken_read1, Ser.taken_bytesAvailable]
      simp

theorem part_nil {d : Dev S R X} (h : d.lbFill = 0) : part d = [] := by simp [part, h]

/-- Every strict sequence of primitive operations keeps account of the received bytes. -/
theorem Eff.acct {x : List Byte → Byte → Prop} {d d' : Dev S R X} (h : Eff x true d d') (hl : LineOk d) :
    ∃ new t, Acct d d' new t := by
  induction h with
  | ctl h =>
    refine ⟨[], [], .same h.trace ?_ (by rw [h.ser])⟩
    rcases h.line with e | e
    · simp only [part, h.fill, e]
    · rw [part_nil e, part_nil (h.fill.trans e)]
  | cmd d s => exact ⟨_, _, .event _ rfl rfl (Ser.taken_writeStr _ _) rfl⟩
  | arg d s => exact ⟨_, _, .event _ rfl rfl (Ser.taken_writeStr _ _) rfl⟩
  | cmdN d s => exact ⟨_, _, .event _ rfl rfl (Ser.taken_write _ _) rfl⟩
  | argN d s => exact ⟨_, _, .event _ rfl rfl (Ser.taken_write _ _) rfl⟩
  | askSpace d => exact ⟨_, _, .same rfl rfl (Ser.taken_spaceAvailable _)⟩
  | askAvail d => exact ⟨_, _, .same rfl rfl (Ser.taken_bytesAvailable _)⟩
  | flushSer d =>
    refine ⟨[.flush], [], rfl, by simp [evRead]; rfl, fun hf => ?_⟩
    have := hf .flush (by simp)
    simp [isFlush] at this
  | flushReadBuffer d hz =>
    refine ⟨_, (flushLoop d.ser d.bytesToRead).2.2, rfl, ?_, fun _ => taken_flushLoop _ _⟩
    simp only [reads_single, evRead]
    by_cases hb : d.bytesToRead = 0
    · have : (flushLoop d.ser d.bytesToRead).2.2 = [] := by rw [hb]; rfl
      rw [this]; simp; rfl
    · have e := hz rfl hb
      rw [part_nil e, part_nil (d := d.flushReadBuffer) e]; simp
  | sendData d => exact ⟨_, _, .event _ rfl rfl (Ser.taken_writeLoop _ _) rfl⟩
  | receive d hz =>
    cases hr : d.receive.2 with
    | false =>
      rw [receive_false hr]
      exact ⟨_, _, .same rfl rfl (Ser.taken_bytesAvailable _)⟩
    | true =>
      obtain ⟨h1, _, _, _, h5, _⟩ := receive_true hr
      refine ⟨_, (d.askAvail.ser.readLoop d.bytesToRead).2, h1, ?_, fun _ => ?_⟩
      · simp only [reads_single, evRead]
        have ep : part d.receive.1 = part d := by simp [part]
        rw [ep]
        by_cases hb : d.bytesToRead = 0
        · have : (d.askAvail.ser.readLoop d.bytesToRead).2 = [] := by rw [hb]; rfl
          rw [this]; simp
        · rw [part_nil (hz rfl hb)]; simp
      · rw [h5, Ser.taken_readLoop]
        show d.ser.bytesAvailable.1.taken ++ _ = _
        rw [Ser.taken_bytesAvailable]
  | fillLine d stop hs =>
    cases hlr : d.lineRead with
    | false => rw [fillLine_off d stop hlr]; exact ⟨[], [], .same rfl rfl rfl⟩
    | true =>
      obtain ⟨t, h1, _, h3 | h3⟩ := fillLine_spec d stop hs.full hl hlr
      · obtain ⟨_, h4, _, h5, _⟩ := h3
        exact ⟨[], t, by simpa using h4, by simp [h5], fun _ => h1⟩
      · obtain ⟨_, h4, h5, _⟩ := h3
        exact ⟨_, t, h4, by simp [evRead, part_nil h5.fill], fun _ => h1⟩
  | trans ha hb ih1 ih2 =>
    obtain ⟨n1, t1, h1⟩ := ih1 hl
    obtain ⟨n2, t2, h2⟩ := ih2 (ha.lineOk hl)
    exact ⟨_, _, h1.trans h2⟩

/-! ### Lines -/

/-- A line as the drivers assemble it: at most 60 bytes, no newline or `>` except at the end, and the
last byte is one of these unless the line is full or the further condition holds. -/
structure LineShape (x : List Byte → Byte → Prop) (l : List Byte) : Prop where
  len : l.length ≤ lineMax
  init : ∀ c ∈ l.dropLast, c ≠ nl ∧ c ≠ gt
  last : ∃ c, l.getLast? = some c ∧ (c = nl ∨ c = gt ∨ l.length = lineMax ∨ x l c)

/-- No newline or `>` in the unfinished line, and all lines so far have the right shape. -/
structure Shapes (x : List Byte → Byte → Prop) (d : Dev S R X) : Prop where
  part : ∀ c ∈ part d, c ≠ nl ∧ c ≠ gt
  lines : ∀ l, .line l ∈ d.trace → LineShape x l

variable {x : List Byte → Byte → Prop}

theorem Shapes.of_same {d d' : Dev S R X} (h : Shapes x d) (h1 : d'.trace = d.trace)
    (h2 : Dev.part d' = Dev.part d) : Shapes x d' :=
  ⟨by rw [h2]; exact h.part, by rw [h1]; exact h.lines⟩

theorem Shapes.of_event {d d' : Dev S R X} (h : Shapes x d) (e : Ev) (h1 : d'.trace = d.trace ++ [e])
    (h2 : Dev.part d' = Dev.part d) (he : ∀ l, e ≠ .line l) : Shapes x d' := by
  refine ⟨by rw [h2]; exact h.part, ?_⟩
  intro l hl
  rw [h1, List.mem_append, List.mem_singleton] at hl
  rcases hl with hl | hl
  · exact h.lines l hl
  · exact absurd hl.symm (he l)

theorem stop_ne {stop : Mem → Nat → Byte → Option R} (hs : StopOk x stop) {m : Mem} {k : Nat} {c : Byte}
    (h : stop m k c = none) : c ≠ nl ∧ c ≠ gt :=
  ⟨fun e => hs.nl m k (e ▸ h), fun e => hs.gt m k (e ▸ h)⟩

theorem Eff.shapes {st : Bool} {d d' : Dev S R X} (h : Eff x st d d') (hl : LineOk d)
    (hs : Shapes x d) : Shapes x d' := by
  induction h with
  | ctl h =>
    refine hs.of_same h.trace ?_
    rcases h.line with e | e
    · simp only [Dev.part, h.fill, e]
    · rw [part_nil e, part_nil (h.fill.trans e)]
  | cmd d s => exact hs.of_event _ rfl rfl (by intro l; simp)
  | arg d s => exact hs.of_event _ rfl rfl (by intro l; simp)
  | cmdN d s => exact hs.of_event _ rfl rfl (by intro l; simp)
  | argN d s => exact hs.of_event _ rfl rfl (by intro l; simp)
  | askSpace d => exact hs.of_same rfl rfl
  | askAvail d => exact hs.of_same rfl rfl
  | flushSer d => exact hs.of_event _ rfl rfl (by intro l; simp)
  | flushReadBuffer d _ => exact hs.of_event _ rfl rfl (by intro l; simp)
  | sendData d => exact hs.of_event _ rfl rfl (by intro l; simp)
  | receive d _ =>
    have ep : Dev.part d.receive.1 = Dev.part d := by simp [Dev.part]
    cases hr : d.receive.2 with
    | false => rw [receive_false hr]; exact hs.of_same rfl rfl
    | true => exact hs.of_event _ (receive_true hr).1 ep (by intro l; simp)
  | fillLine d stop hst =>
    cases hlr : d.lineRead with
    | false => rw [fillLine_off d stop hlr]; exact hs
    | true =>
      obtain ⟨t, _, _, h3 | h3⟩ := fillLine_spec d stop hst.full hl hlr
      · obtain ⟨_, h4, _, h5, h6⟩ := h3
        refine ⟨?_, by rw [h4]; exact hs.lines⟩
        intro c hc
        rw [h5, List.mem_append] at hc
        rcases hc with hc | hc
        · exact hs.part c hc
        · obtain ⟨j, hj⟩ := List.mem_iff_getElem?.mp hc
          obtain ⟨m, hm, _⟩ := h6 j c hj
          exact stop_ne hst hm
      · obtain ⟨_, h4, h5, h6, h7, h8⟩ := h3
        refine ⟨by rw [part_nil h5.fill]; simp, ?_⟩
        intro l hl'
        rw [h4, List.mem_append, List.mem_singleton] at hl'
        rcases hl' with hl' | hl'
        · exact hs.lines l hl'
        · cases hl'
          obtain ⟨m, c, hc, hc2, hc3⟩ := h7
          have hne : t ≠ [] := by intro e; rw [e] at hc; simp at hc
          have hpl : (Dev.part d).length = d.lbFill := by
            have := hl.len; have := hl.fill
            simp only [Dev.part, List.length_take]; omega
          refine ⟨by simpa using h6, ?_, c, by rw [List.getLast?_append]; simp [hc], ?_⟩
          rotate_left
          · have := hst.fin _ _ _ _ hc2
            rw [hc3] at this
            rw [List.length_append, hpl]
            exact this
          rw [List.dropLast_append_of_ne_nil hne]
          intro x hx
          rw [List.mem_append] at hx
          rcases hx with hx | hx
          · exact hs.part x hx
          · obtain ⟨j, hj⟩ := List.mem_iff_getElem?.mp hx
            rw [List.getElem?_dropLast] at hj
            split at hj
            · obtain ⟨m, hm, _⟩ := h8 j x (by omega) hj
              exact stop_ne hst hm
            · simp at hj
  | trans ha hb ih1 ih2 => exact ih2 (ha.lineOk hl) (ih1 hl hs)

end Dev
end Verif
