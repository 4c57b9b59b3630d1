import Verif.Model.ModemDetect
import Verif.Lemmas.Serial
import Verif.Lemmas.CString

/-!
# C50: modem detection
-/

namespace Verif.Props.ModemDetect

open Verif.ModemDetect

/-- These events happened in this order (others in between), each meeting its condition. -/
def InOrder : List (DEv → Prop) → List DEv → Prop
  | [], _ => True
  | q :: qs, t => ∃ a e b, t = a ++ e :: b ∧ q e ∧ InOrder qs b

/-- A line that starts with `s` was read. -/
def heard (s : List Byte) : DEv → Prop
  | .line l => s <+: l
  | _ => False

/-- This command was sent. -/
def said (s : List Byte) (e : DEv) : Prop := e = .cmd s

theorem InOrder.more {qs : List (DEv → Prop)} {t : List DEv} (h : InOrder qs t) (s : List DEv) :
    InOrder qs (t ++ s) := by
  induction qs generalizing t with
  | nil => trivial
  | cons q qs ih =>
    obtain ⟨a, e, b, ht, hq, hb⟩ := h
    exact ⟨a, e, b ++ s, by rw [ht]; simp, hq, ih hb⟩

theorem InOrder.snoc {qs : List (DEv → Prop)} {t : List DEv} (h : InOrder qs t) {q : DEv → Prop}
    {e : DEv} (he : q e) : InOrder (qs ++ [q]) (t ++ [e]) := by
  induction qs generalizing t with
  | nil => exact ⟨t, e, [], rfl, he, trivial⟩
  | cons q' qs ih =>
    obtain ⟨a, e', b, ht, hq, hb⟩ := h
    exact ⟨a, e', b ++ [e], by rw [ht]; simp, hq, ih hb⟩

theorem InOrder.mono {qs qs' : List (DEv → Prop)} (h : qs.length = qs'.length)
    (hi : ∀ i (h1 : i < qs.length) (h2 : i < qs'.length) e, qs[i] e → qs'[i] e) {t : List DEv}
    (ht : InOrder qs t) : InOrder qs' t := by
  induction qs generalizing t qs' with
  | nil =>
    cases qs' with
    | nil => trivial
    | cons => simp at h
  | cons q qs ih =>
    cases qs' with
    | nil => simp at h
    | cons q' qs' =>
      obtain ⟨a, e, b, he, hq, hb⟩ := ht
      refine ⟨a, e, b, he, hi 0 (by simp) (by simp) e hq, ih (by simpa using h) ?_ hb⟩
      intro i h1 h2 e he
      exact hi (i + 1) (by simpa using h1) (by simpa using h2) e he

/-- What must have happened in the states of the detection. -/
def Evidence : Det → List DEv → Prop
  | .noState, _ => True
  | .errorState, _ => True
  | .modemDetectedState, _ => False
  | .beginState, t => InOrder [(· = .start)] t
  | .cgmmSent, t => InOrder [(· = .start), (· = .flush), said b!"AT+CGMM\r\n"] t
  | .gmrSent, t => InOrder [(· = .start), (· = .flush), said b!"AT+CGMM\r\n", heard b!"ERROR",
      said b!"AT+GMR\r\n"] t
  | .espressifWaitOk, t => InOrder [(· = .start), (· = .flush), said b!"AT+CGMM\r\n", heard b!"ERROR",
      said b!"AT+GMR\r\n",
      fun e => heard b!"AT version:1.7" e ∨ heard b!"AT version:2.1" e] t
  | .detectedSim800, t =>
      InOrder [(· = .start), (· = .flush), said b!"AT+CGMM\r\n", heard b!"SIMCOM_SIM800"] t
  | .detectedSim7x00, t =>
      InOrder [(· = .start), (· = .flush), said b!"AT+CGMM\r\n", heard b!"SIMCOM_SIM7600"] t
  | .detectedCC1352P7, t =>
      InOrder [(· = .start), (· = .flush), said b!"AT+CGMM\r\n", heard b!"CC1352P7"] t
  | .detectedEspressif, t => InOrder [(· = .start), (· = .flush), said b!"AT+CGMM\r\n",
      heard b!"ERROR", said b!"AT+GMR\r\n",
      (fun e => heard b!"AT version:1.7" e ∨ heard b!"AT version:2.1" e), heard b!"OK\r\n"] t

theorem Evidence.more {d : Det} {t : List DEv} (h : Evidence d t) (s : List DEv) :
    Evidence d (t ++ s) := by
  cases d <;> first | trivial | exact h.elim | exact InOrder.more h s

/-- `strncmp` with a literal without zeros: the line starts with it. -/
theorem starts (lit l : List Byte) (hz : (0 : Byte) ∉ lit)
    (h : strncmpEq lit (l ++ [0]) lit.length = true) : lit <+: l := by
  induction lit generalizing l with
  | nil => exact List.nil_prefix
  | cons c lit ih =>
    have hc : c ≠ 0 := fun e => hz (by simp [e])
    have hz' : (0 : Byte) ∉ lit := fun e => hz (by simp [e])
    cases l with
    | nil =>
      simp only [List.length_cons, strncmpEq, List.headD_cons, List.nil_append] at h
      simp [hc] at h
    | cons b l =>
      simp only [List.length_cons, strncmpEq, List.headD_cons, List.cons_append,
        List.tail_cons] at h
      simp [hc] at h
      obtain ⟨h1, h2⟩ := h
      subst h1
      obtain ⟨r, hr⟩ := ih l hz' h2
      exact ⟨r, by simp [← hr]⟩

theorem readLine_shape (s : Ser) (n : Nat) (hn : n ≠ 0) :
    (s.readLine n).2.1 = (s.readLine n).2.1.take (s.readLine n).2.2 ++ [0] := by
  unfold Ser.readLine
  rw [if_neg hn]
  simp

theorem evidence_examine (m : MD) (l : List Byte)
    (h : Evidence m.det m.trace) :
    Evidence (examine { m with trace := m.trace ++ [.line l] } (l ++ [0])).det
      (examine { m with trace := m.trace ++ [.line l] } (l ++ [0])).trace := by
  have hm := Evidence.more h [.line l]
  unfold examine
  dsimp only
  split
  · rename_i hd
    rw [hd] at h
    split
    · rename_i hs
      exact InOrder.snoc h (q := heard b!"SIMCOM_SIM800") (starts b!"SIMCOM_SIM800" l (by decide) hs)
    split
    · rename_i hs
      exact InOrder.snoc h (q := heard b!"SIMCOM_SIM7600") (starts b!"SIMCOM_SIM7600" l (by decide) hs)
    split
    · rename_i hs
      exact InOrder.snoc h (q := heard b!"CC1352P7") (starts b!"CC1352P7" l (by decide) hs)
    split
    · rename_i hs
      exact InOrder.snoc (InOrder.snoc h (q := heard b!"ERROR") (e := .line l)
        (starts b!"ERROR" l (by decide) hs)) (q := said b!"AT+GMR\r\n") rfl
    · exact hm
  · rename_i hd
    rw [hd] at h
    split
    · rename_i hs
      refine InOrder.snoc h
        (q := fun e => heard b!"AT version:1.7" e ∨ heard b!"AT version:2.1" e) (e := .line l) ?_
      rw [Bool.or_eq_true] at hs
      rcases hs with hs | hs
      · exact Or.inl (starts b!"AT version:1.7" l (by decide) hs)
      · exact Or.inr (starts b!"AT version:2.1" l (by decide) hs)
    · exact hm
  · rename_i hd
    rw [hd] at h
    split
    · rename_i hs
      exact InOrder.snoc h (q := heard b!"OK\r\n") (starts b!"OK\r\n" l (by decide) hs)
    · exact hm
  · exact hm

/-- The invariant of all histories. -/
structure Inv (m : MD) : Prop where
  ev : Evidence m.det m.trace
  start : m.started = true → DEv.start ∈ m.trace

theorem examine_rest (m : MD) (l : List Byte) :
    (examine m l).started = m.started ∧ (∃ s, (examine m l).trace = m.trace ++ s) ∧
      (examine m l).modem = m.modem ∧ (examine m l).isOpen = m.isOpen ∧ (examine m l).ub = m.ub := by
  unfold examine send
  dsimp only
  (repeat' split) <;> exact ⟨rfl, ⟨_, by first | exact (List.append_nil _).symm | rfl⟩, rfl, rfl, rfl⟩

theorem inv_query {m : MD} (h : Inv m) : Inv (query m) := by
  unfold query
  split
  · rename_i hd
    split
    · rename_i hs
      refine ⟨?_, h.start⟩
      obtain ⟨a, b, hab⟩ := List.append_of_mem (h.start hs)
      exact ⟨a, .start, b, hab, rfl, trivial⟩
    · exact h
  · rename_i hd
    have he := h.ev
    rw [hd] at he
    refine ⟨?_, fun hs => ?_⟩
    · exact InOrder.snoc (InOrder.snoc he (q := (· = .flush)) rfl) (q := said b!"AT+CGMM\r\n") rfl
    · have := h.start hs
      show DEv.start ∈ m.trace ++ [.flush] ++ [.cmd cgmm]
      simp [this]
  · exact h

theorem inv_readReply {m : MD} (h : Inv m) : Inv (readReply m) := by
  unfold readReply
  dsimp only
  split
  · split
    · exact ⟨h.ev, h.start⟩
    · rename_i hn
      generalize hr : m.ser.canReadLine.1.bytesAvailable = r at hn ⊢
      have hs := readLine_shape r.1 _ hn
      generalize hl : r.1.readLine ((r.2 + 1) % 65536) = l at hs ⊢
      have e := evidence_examine { m with ser := l.1 } (l.2.1.take l.2.2) h.ev
      rw [← hs] at e
      refine ⟨e, fun hst => ?_⟩
      obtain ⟨e1, ⟨s, e2⟩, _⟩ := examine_rest
        { m with ser := l.1, trace := m.trace ++ [.line (l.2.1.take l.2.2)] } l.2.1
      rw [e1] at hst
      rw [e2]
      have := h.start hst
      simp [this]
  · exact ⟨h.ev, h.start⟩

theorem inv_step (p : Platform) {m : MD} (h : Inv m) (op : DOp) : Inv (step p m op) := by
  cases op with
  | irq hs => unfold step; dsimp only; split <;> exact ⟨h.ev, h.start⟩
  | closePort => unfold step; dsimp only; split <;> exact ⟨h.ev, h.start⟩
  | app op => unfold step; dsimp only; split <;> exact ⟨h.ev, h.start⟩
  | start =>
    refine ⟨Evidence.more h.ev _, fun _ => ?_⟩
    show DEv.start ∈ m.trace ++ [.start]
    simp
  | get b =>
    show Inv (getDetectedModem m b)
    unfold getDetectedModem
    split <;> exact ⟨h.ev, h.start⟩
  | run ok =>
    show Inv (run p m ok)
    unfold run
    split
    · exact ⟨h.ev, h.start⟩
    · split
      · split
        · exact ⟨h.ev, h.start⟩
        · exact ⟨trivial, h.start⟩
      · exact inv_readReply (inv_query h)

theorem inv_exec (p : Platform) (ops : List DOp) {m : MD} (h : Inv m) : Inv (execD p m ops) := by
  induction ops generalizing m with
  | nil => exact h
  | cons op ops ih => exact ih (inv_step p h op)

/-- Soundness, for all histories: a modem counts as detected only after `startDetection()` was called,
the receive buffer was flushed, the query was sent and then the identification of that modem was read,
in this order (for an Espressif modem: the query, an error, the second query, a supported version, OK). -/
theorem C50_sound (p : Platform) (ser : Ser) (ops : List DOp)
    (h : modemDetected (execD p (init ser) ops) = true) :
    let m := execD p (init ser) ops
    (m.det = .detectedSim800 ∧ InOrder [(· = .start), (· = .flush), said b!"AT+CGMM\r\n",
      heard b!"SIMCOM_SIM800"] m.trace) ∨
    (m.det = .detectedSim7x00 ∧ InOrder [(· = .start), (· = .flush), said b!"AT+CGMM\r\n",
      heard b!"SIMCOM_SIM7600"] m.trace) ∨
    (m.det = .detectedCC1352P7 ∧ InOrder [(· = .start), (· = .flush), said b!"AT+CGMM\r\n",
      heard b!"CC1352P7"] m.trace) ∨
    (m.det = .detectedEspressif ∧ InOrder [(· = .start), (· = .flush), said b!"AT+CGMM\r\n",
      heard b!"ERROR", said b!"AT+GMR\r\n",
      (fun e => heard b!"AT version:1.7" e ∨ heard b!"AT version:2.1" e), heard b!"OK\r\n"] m.trace) := by
  have hi : Inv (execD p (init ser) ops) :=
    inv_exec p ops ⟨trivial, fun h => absurd h (by simp [init])⟩
  have he := hi.ev
  dsimp only
  generalize execD p (init ser) ops = m at h he ⊢
  unfold modemDetected at h
  cases hd : m.det <;> rw [hd] at h he <;>
    first
      | exact absurd h (by decide)
      | exact Or.inl ⟨rfl, he⟩
      | exact Or.inr (Or.inl ⟨rfl, he⟩)
      | exact Or.inr (Or.inr (Or.inl ⟨rfl, he⟩))
      | exact Or.inr (Or.inr (Or.inr ⟨rfl, he⟩))

/-- The driver created is the one for the detected modem, freshly constructed with the buffers of the
application, on the serial device of the detector. Without a detected modem nothing is created. -/
theorem C50_driver (m : MD) (b : Mems) :
    (m.det = .detectedSim800 → (getDetectedModem m b).modem = some (.sim800
      { Sim800.init m.serial b.rmem b.wmem b.typ b.line b.ip b.id with isOpen := m.serialOpen })) ∧
    (m.det = .detectedSim7x00 → (getDetectedModem m b).modem = some (.sim7x00
      { Sim7x00.init m.serial b.rmem b.wmem b.typ b.line b.ip b.id with isOpen := m.serialOpen })) ∧
    (m.det = .detectedEspressif → (getDetectedModem m b).modem = some (.espressif
      { Espressif.init m.serial b.rmem b.wmem b.typ b.line b.mac b.ssid b.passwd with
        isOpen := m.serialOpen })) ∧
    (m.det = .detectedCC1352P7 → (getDetectedModem m b).modem = some (.cc1352p7
      { CC1352P7.init m.serial b.rmem b.wmem b.typ b.line b.mac with isOpen := m.serialOpen })) ∧
    (modemDetected m = false → getDetectedModem m b = m) := by
  unfold getDetectedModem construct modemDetected
  refine ⟨?_, ?_, ?_, ?_, ?_⟩
  · intro h; rw [h]
  · intro h; rw [h]
  · intro h; rw [h]
  · intro h; rw [h]
  · intro h
    cases hd : m.det <;> rw [hd] at h <;> first | rfl | exact absurd h (by decide)

/-- Once a driver exists, `run()` is the `run()` of the driver and takes over its delay. -/
theorem C50_forward (p : Platform) (m : MD) (d : Driver) (ok : Bool) (h : m.modem = some d) :
    (run p m ok).modem = some (d.run p ok) ∧ (run p m ok).delay = (d.run p ok).delay ∧
    (run p m ok).det = m.det := by
  unfold run
  rw [h]
  exact ⟨rfl, rfl, rfl⟩

theorem readReply_det (m : MD) (h : modemDetected m = true) : (readReply m).det = m.det := by
  unfold readReply
  dsimp only
  split
  · split
    · rfl
    · unfold examine
      dsimp only
      unfold modemDetected at h
      cases hd : m.det <;> rw [hd] at h <;> first | exact absurd h (by decide) | simp [hd]
  · rfl

/-- A detected modem stays detected, unless the serial port gets closed before a driver was created,
and cannot be opened again. -/
theorem C50_final (p : Platform) (m : MD) (op : DOp) (h : modemDetected m = true)
    (ho : m.modem = none → m.isOpen = false → op ≠ .run false) :
    (step p m op).det = m.det := by
  cases op with
  | irq hs => unfold step; dsimp only; split <;> rfl
  | closePort => unfold step; dsimp only; split <;> rfl
  | app op => unfold step; dsimp only; split <;> rfl
  | start => rfl
  | get b =>
    show (getDetectedModem m b).det = _
    unfold getDetectedModem
    split <;> rfl
  | run ok =>
    show (run p m ok).det = _
    unfold run
    split
    · rfl
    · rename_i hm
      split
      · rename_i hop
        split
        · rfl
        · rename_i hk
          exact absurd (show DOp.run ok = .run false by cases ok <;> simp_all) (ho hm hop)
      · have hq : query m = m := by
          unfold query
          unfold modemDetected at h
          cases hd : m.det <;> rw [hd] at h <;> first | exact absurd h (by decide) | rfl
        rw [hq]
        exact readReply_det m h

/-- The exception is real: detected, port closed, opening fails once, and `modemDetected()` is false
again. -/
theorem C50_forgotten (p : Platform) (m : MD) (h : m.modem = none) :
    modemDetected (step p (step p m .closePort) (.run false)) = false := by
  unfold step
  dsimp only
  rw [h]
  rfl

/-- And final: after one failed `open()` the detection never succeeds, whatever happens, also if the
port can be opened later and the detection is started again. -/
theorem C50_error_final (p : Platform) (m : MD) (h : m.modem = none) (he : m.det = .errorState)
    (ops : List DOp) :
    modemDetected (execD p m ops) = false ∧ (execD p m ops).modem = none ∧
    (execD p m ops).det = .errorState := by
  have key : ∀ (ops : List DOp) (m : MD), m.modem = none → m.det = .errorState →
      (execD p m ops).modem = none ∧ (execD p m ops).det = .errorState := by
    intro ops
    induction ops with
    | nil => intro m h he; exact ⟨h, he⟩
    | cons op ops ih =>
      intro m h he
      have hs : (step p m op).modem = none ∧ (step p m op).det = .errorState := by
        cases m with
        | mk ser isOpen det started modem delay ub trace =>
        dsimp only at h he
        subst h he
        cases op with
        | irq hs => exact ⟨rfl, rfl⟩
        | closePort => exact ⟨rfl, rfl⟩
        | app op => exact ⟨rfl, rfl⟩
        | start => exact ⟨rfl, rfl⟩
        | get b => exact ⟨rfl, rfl⟩
        | run ok =>
          unfold step run query readReply examine
          dsimp only
          (repeat' split) <;> first | exact ⟨rfl, rfl⟩ | (rename_i hx; cases hx)
      exact ih _ hs.1 hs.2
  obtain ⟨a, b⟩ := key ops m h he
  refine ⟨?_, a, b⟩
  unfold modemDetected
  rw [b]
  rfl

/-! ## What is written to the serial device -/

/-- All commands in a trace. -/
def commands : List DEv → List (List Byte)
  | [] => []
  | .cmd s :: r => s :: commands r
  | _ :: r => commands r

theorem commands_append (a b : List DEv) : commands (a ++ b) = commands a ++ commands b := by
  induction a with
  | nil => rfl
  | cons e a ih => cases e <;> simp [commands, ih]

/-- The queries sent in each state. -/
def Queries (d : Det) (cs : List (List Byte)) : Prop :=
  (d = .noState ∨ d = .beginState → cs = []) ∧
  (d = .cgmmSent ∨ d = .detectedSim800 ∨ d = .detectedSim7x00 ∨ d = .detectedCC1352P7 →
    cs = [b!"AT+CGMM\r\n"]) ∧
  (d = .gmrSent ∨ d = .espressifWaitOk ∨ d = .detectedEspressif →
    cs = [b!"AT+CGMM\r\n", b!"AT+GMR\r\n"]) ∧
  (cs = [] ∨ cs = [b!"AT+CGMM\r\n"] ∨ cs = [b!"AT+CGMM\r\n", b!"AT+GMR\r\n"])

theorem queries_examine {m : MD} {l : List Byte} (h : Queries m.det (commands m.trace)) :
    Queries (examine m l).det (commands (examine m l).trace) := by
  obtain ⟨h1, h2, h3, h4⟩ := h
  unfold examine send
  dsimp only
  split
  · rename_i hd
    have e := h2 (Or.inl hd)
    (repeat' split) <;> simp [Queries, e, hd, commands_append, commands, gmr]
  · rename_i hd
    have e := h3 (Or.inl hd)
    split <;> simp [Queries, e, hd]
  · rename_i hd
    have e := h3 (Or.inr (Or.inl hd))
    split <;> simp [Queries, e, hd]
  · exact ⟨h1, h2, h3, h4⟩

theorem queries_step (p : Platform) {m : MD} (h : Queries m.det (commands m.trace)) (op : DOp) :
    Queries (step p m op).det (commands (step p m op).trace) := by
  cases op with
  | irq hs => unfold step; dsimp only; split <;> exact h
  | closePort => unfold step; dsimp only; split <;> exact h
  | app op => unfold step; dsimp only; split <;> exact h
  | start =>
    show Queries m.det (commands (m.trace ++ [.start]))
    simpa [commands_append, commands] using h
  | get b =>
    show Queries (getDetectedModem m b).det (commands (getDetectedModem m b).trace)
    unfold getDetectedModem
    split <;> exact h
  | run ok =>
    show Queries (run p m ok).det (commands (run p m ok).trace)
    unfold run
    split
    · exact h
    · split
      · split
        · exact h
        · exact ⟨by simp, by simp, by simp, h.2.2.2⟩
      · have hq : Queries (query m).det (commands (query m).trace) := by
          unfold query
          split
          · rename_i hd
            split
            · have e := h.1 (Or.inl hd)
              simp [Queries, e]
            · exact h
          · rename_i hd
            have e := h.1 (Or.inr hd)
            simp [Queries, send, commands_append, commands, e, cgmm]
          · exact h
        generalize query m = m' at hq ⊢
        unfold readReply
        dsimp only
        split
        · split
          · exact hq
          · apply queries_examine
            simpa [commands_append, commands] using hq
        · exact hq

/-- At most the two queries are ever sent, each at most once; nothing before `startDetection()`. In
particular a query whose answer got lost is never repeated. -/
theorem C50_queries (p : Platform) (ser : Ser) (ops : List DOp) :
    let m := execD p (init ser) ops
    (commands m.trace = [] ∨ commands m.trace = [b!"AT+CGMM\r\n"] ∨
      commands m.trace = [b!"AT+CGMM\r\n", b!"AT+GMR\r\n"]) ∧
    (DEv.start ∉ m.trace → m.det ≠ .errorState → commands m.trace = []) := by
  have key : ∀ (ops : List DOp) (m : MD), Queries m.det (commands m.trace) →
      Queries (execD p m ops).det (commands (execD p m ops).trace) := by
    intro ops
    induction ops with
    | nil => intro m h; exact h
    | cons op ops ih => intro m h; exact ih _ (queries_step p h op)
  have hq := key ops (init ser) ⟨by simp [init, commands], by simp [init], by simp [init],
    Or.inl rfl⟩
  have hi : Inv (execD p (init ser) ops) :=
    inv_exec p ops ⟨trivial, fun h => absurd h (by simp [init])⟩
  dsimp only
  generalize execD p (init ser) ops = m at hq hi ⊢
  refine ⟨hq.2.2.2, fun hs he => hq.1 ?_⟩
  have hev := hi.ev
  have first : ∀ (qs : List (DEv → Prop)), ¬ InOrder ((· = DEv.start) :: qs) m.trace := by
    rintro qs ⟨a, e, b, ht, hq, _⟩
    exact hs (by rw [ht, hq]; simp)
  cases hd : m.det <;> rw [hd] at hev he <;>
    first
      | exact Or.inl rfl
      | exact Or.inr rfl
      | exact absurd rfl he
      | exact hev.elim
      | exact absurd hev (first _)

/-! ## Memory safety -/

/-- `run()` stores outside of its line buffer exactly if a line is buffered and the number of bytes
buffered is 65535 modulo 65536: the size of the array is computed with 16 bits. -/
theorem C50_ub (p : Platform) (m : MD) (hm : m.modem = none) (ho : m.isOpen = true) (ok : Bool) :
    (run p m ok).ub = true ↔
      m.ub = true ∨ ((query m).ser.canReadLine.2 = true ∧
        (query m).ser.canReadLine.1.bytesAvailable.2 % 65536 = 65535) := by
  unfold run
  rw [hm]
  dsimp only
  rw [if_neg (by simp [ho])]
  have hu : (query m).ub = m.ub := by
    unfold query send
    (repeat' split) <;> rfl
  rw [← hu]
  generalize query m = m'
  unfold readReply
  dsimp only
  split
  · rename_i hc
    split
    · rename_i hz
      have : m'.ser.canReadLine.1.bytesAvailable.2 % 65536 = 65535 := by omega
      simp [hc, this]
    · rename_i hz
      rw [(examine_rest _ _).2.2.2.2]
      have : m'.ser.canReadLine.1.bytesAvailable.2 % 65536 ≠ 65535 := by omega
      simp [this]
  · rename_i hc
    simp [hc]

/-! ## The lines examined are the lines received -/

/-- The lines read since the last flush, put together. -/
def linesSince : List DEv → List Byte → List Byte
  | [], acc => acc
  | .flush :: r, _ => linesSince r []
  | .line l :: r, acc => linesSince r (acc ++ l)
  | _ :: r, acc => linesSince r acc

theorem linesSince_append (a b : List DEv) (acc : List Byte) :
    linesSince (a ++ b) acc = linesSince b (linesSince a acc) := by
  induction a generalizing acc with
  | nil => rfl
  | cons e a ih => cases e <;> simp [linesSince, ih]

theorem takeLine_append {a b : List Byte} (h : nl ∈ a) : Spec.takeLine (a ++ b) = Spec.takeLine a := by
  induction a with
  | nil => cases h
  | cons c a ih =>
    simp only [List.cons_append, Spec.takeLine]
    split
    · rfl
    · rename_i hc
      have : nl ∈ a := by
        rcases List.mem_cons.mp h with h | h
        · exact absurd h.symm hc
        · exact h
      rw [ih this]

theorem takeLine_length (a : List Byte) : (Spec.takeLine a).length ≤ a.length := by
  have := congrArg List.length (Spec.takeLine_append_dropLine a)
  simp at this
  omega

theorem takeLine_nl {a : List Byte} (h : nl ∈ a) : ∃ l, Spec.takeLine a = l ++ [nl] ∧ nl ∉ l := by
  induction a with
  | nil => cases h
  | cons c a ih =>
    simp only [Spec.takeLine]
    split
    · rename_i hc; exact ⟨[], by simp [hc], by simp⟩
    · rename_i hc
      have : nl ∈ a := by
        rcases List.mem_cons.mp h with h | h
        · exact absurd h.symm hc
        · exact h
      obtain ⟨l, h1, h2⟩ := ih this
      refine ⟨c :: l, by rw [h1]; rfl, ?_⟩
      intro hm
      rcases List.mem_cons.mp hm with hm | hm
      · exact hc hm.symm
      · exact h2 hm

/-- Invariant while no driver exists: `n` is the size of the receive buffer. -/
structure Hears (n : Nat) (m : MD) : Prop where
  rep : ∃ rq tq, Ser.Rep m.ser rq tq
  taken : m.ser.taken = linesSince m.trace []
  size : m.ser.rx.ring.size = n
  whole : ∀ l, .line l ∈ m.trace → ∃ k, l = k ++ [nl] ∧ nl ∉ k

theorem hears_send {n : Nat} {m : MD} (h : Hears n m) (c : List Byte) (hc : c = cgmm ∨ c = gmr) :
    Hears n (send m c) := by
  obtain ⟨⟨rq, tq, hr⟩, h2, h3, h4⟩ := h
  have hz : c.takeWhile (· ≠ 0) = c := by rcases hc with hc | hc <;> subst hc <;> decide
  obtain ⟨add, gone, tq', r, _, _, _, t, _, z⟩ := Ser.rep_write hr c
  have e : m.ser.writeStr c = m.ser.write c := by rw [Ser.writeStr_eq, hz]
  refine ⟨⟨rq ++ add, tq', ?_⟩, ?_, ?_, ?_⟩
  · show Ser.Rep (m.ser.writeStr c).1 _ _
    rw [e]; exact r
  · show (m.ser.writeStr c).1.taken = linesSince (m.trace ++ [.cmd c]) []
    rw [e, t, h2, linesSince_append]; rfl
  · show (m.ser.writeStr c).1.rx.ring.size = n
    rw [e, z.1, h3]
  · intro l hl
    apply h4
    have : DEv.line l ∈ m.trace ++ [.cmd c] := hl
    simpa using this

theorem hears_examine {n : Nat} {m : MD} (h : Hears n m) (l : List Byte) :
    Hears n (examine m l) := by
  have hg : Hears n { send m gmr with det := .gmrSent } := by
    have := hears_send h gmr (Or.inr rfl)
    exact ⟨this.rep, this.taken, this.size, this.whole⟩
  unfold examine
  dsimp only
  (repeat' split) <;> first | exact hg | exact ⟨h.rep, h.taken, h.size, h.whole⟩

theorem hears_query {n : Nat} {m : MD} (h : Hears n m) : Hears n (query m) := by
  unfold query
  split
  · split <;> exact ⟨h.rep, h.taken, h.size, h.whole⟩
  · dsimp only
    obtain ⟨⟨rq, tq, hr⟩, h2, h3, h4⟩ := h
    obtain ⟨gone, tq', r, _, _, z⟩ := Ser.rep_flush hr
    have h' : Hears n { m with ser := m.ser.flushReceiveBuffers, trace := m.trace ++ [.flush] } := by
      refine ⟨⟨_, _, r⟩, ?_, z.1.trans h3, ?_⟩
      · show ([] : List Byte) = linesSince (m.trace ++ [.flush]) []
        rw [linesSince_append]; rfl
      · intro l hl
        apply h4
        have : DEv.line l ∈ m.trace ++ [.flush] := hl
        simpa using this
    have := hears_send h' cgmm (Or.inl rfl)
    exact ⟨this.rep, this.taken, this.size, this.whole⟩
  · exact h

theorem hears_readReply {n : Nat} (hn : n < 65535) {m : MD} (h : Hears n m) :
    Hears n (readReply m) := by
  obtain ⟨⟨rq, tq, hr⟩, h2, h3, h4⟩ := h
  obtain ⟨a1, g1, t1, r1, _, c1, _, k1, _, z1⟩ := Ser.rep_canReadLine hr
  unfold readReply
  dsimp only
  split
  · rename_i hc
    obtain ⟨a2, g2, t2, r2, _, c2, _, k2, _, z2, _⟩ := Ser.rep_bytesAvailable r1
    have hsz : m.ser.canReadLine.1.bytesAvailable.1.rx.ring.size = n := by
      rw [z2.1, z1.1, h3]
    have hle : (rq ++ a1 ++ a2).length ≤ n := by
      have := r2.rx.ring.le
      rw [hsz] at this
      exact this
    have hmod : (m.ser.canReadLine.1.bytesAvailable.2 + 1) % 65536 =
        (rq ++ a1 ++ a2).length + 1 := by
      rw [c2]; omega
    rw [if_neg (by omega)]
    obtain ⟨a3, g3, t3, _, _, _, z3, r3, k3, l3, v3⟩ := Ser.rep_readLine r2
      ((m.ser.canReadLine.1.bytesAvailable.2 + 1) % 65536) (by omega)
    have hmem : nl ∈ rq ++ a1 := by
      rw [c1] at hc
      have : 0 < (rq ++ a1).count nl % 65536 := of_decide_eq_true hc
      have : 0 < (rq ++ a1).count nl := by
        rcases Nat.eq_zero_or_pos ((rq ++ a1).count nl) with h0 | h0
        · rw [h0] at this; simp at this
        · exact h0
      exact List.count_pos_iff.mp this
    have hmem2 : nl ∈ rq ++ a1 ++ a2 ++ a3 := by simp at hmem ⊢; rcases hmem with h | h <;> simp [h]
    have htl : Spec.takeLine (rq ++ a1 ++ a2 ++ a3) = Spec.takeLine (rq ++ a1) := by
      rw [List.append_assoc (rq ++ a1) a2 a3]
      exact takeLine_append hmem
    have hlen : (Spec.takeLine (rq ++ a1)).length ≤ (rq ++ a1 ++ a2).length := by
      have := takeLine_length (rq ++ a1)
      simp at this ⊢; omega
    have htake : (Spec.takeLine (rq ++ a1)).take
        ((m.ser.canReadLine.1.bytesAvailable.2 + 1) % 65536 - 1) = Spec.takeLine (rq ++ a1) := by
      rw [List.take_of_length_le]
      rw [hmod]; omega
    rw [htl, htake] at l3 v3
    rw [htl] at k3
    have hline : (m.ser.canReadLine.1.bytesAvailable.1.readLine
        ((m.ser.canReadLine.1.bytesAvailable.2 + 1) % 65536)).2.1.take
        (m.ser.canReadLine.1.bytesAvailable.1.readLine
        ((m.ser.canReadLine.1.bytesAvailable.2 + 1) % 65536)).2.2 = Spec.takeLine (rq ++ a1) := by
      rw [l3, v3, List.take_append_of_le_length (Nat.le_refl _), List.take_length]
    apply hears_examine
    rw [hline]
    refine ⟨⟨_, _, r3⟩, ?_, ?_, ?_⟩
    · dsimp only
      rw [k3, k2, k1, h2, linesSince_append]; rfl
    · dsimp only
      rw [z3.1, hsz]
    · intro l hl
      rcases List.mem_append.mp hl with hl | hl
      · exact h4 l hl
      · simp at hl
        subst hl
        exact takeLine_nl hmem
  · refine ⟨⟨_, _, r1⟩, ?_, ?_, h4⟩
    · dsimp only; rw [k1, h2]
    · dsimp only; rw [z1.1, h3]

/-- The lines the detector examines are complete lines, and are the bytes received since the last
flush, in order and without gaps, as far as they have been read: nothing is skipped, cut or invented.
For a receive buffer of less than 65535 bytes, in all histories until a driver is created. -/
theorem C50_lines (p : Platform) (rmem wmem : List Byte) (sched : List (List Hw))
    (hsz : rmem.length < 65535) (ops : List DOp)
    (hm : (execD p (init (Ser.init rmem wmem sched)) ops).modem = none) :
    let m := execD p (init (Ser.init rmem wmem sched)) ops
    (∃ rq, linesSince m.trace [] ++ rq = m.ser.accepted ∧ rq.length = m.ser.rx.ring.bytesAvailable) ∧
    (∀ l, .line l ∈ m.trace → ∃ k, l = k ++ [nl] ∧ nl ∉ k) := by
  have key : ∀ (ops : List DOp) (m : MD), (m.modem = none → Hears rmem.length m) →
      ((execD p m ops).modem = none → Hears rmem.length (execD p m ops)) := by
    intro ops
    induction ops with
    | nil => intro m h; exact h
    | cons op ops ih =>
      intro m h
      apply ih
      cases op with
      | irq hs =>
        unfold step; dsimp only
        split
        · rename_i hn
          intro _
          obtain ⟨⟨rq, tq, hr⟩, h2, h3, h4⟩ := h hn
          obtain ⟨a, g, t, r, _⟩ := Ser.ext_transfers hr hs
          have hf := Ser.frame_transfers m.ser hs
          exact ⟨⟨_, _, r⟩, hf.taken.trans h2, hf.rxSize.trans h3, h4⟩
        · intro hx; cases hx
      | closePort =>
        unfold step; dsimp only
        split
        · rename_i hn
          intro _
          have := h hn
          exact ⟨this.rep, this.taken, this.size, this.whole⟩
        · intro hx; cases hx
      | app op =>
        unfold step; dsimp only
        split
        · exact h
        · intro hx; cases hx
      | start =>
        intro hn
        have := h hn
        refine ⟨this.rep, ?_, this.size, ?_⟩
        · show m.ser.taken = linesSince (m.trace ++ [.start]) []
          rw [linesSince_append, this.taken]; rfl
        · intro l hl
          apply this.whole
          have : DEv.line l ∈ m.trace ++ [.start] := hl
          simpa using this
      | get b =>
        show (getDetectedModem m b).modem = none → Hears _ (getDetectedModem m b)
        unfold getDetectedModem
        split
        · intro hx; cases hx
        · exact h
      | run ok =>
        show (run p m ok).modem = none → Hears _ (run p m ok)
        unfold run
        split
        · intro hx; cases hx
        · rename_i hn
          intro _
          have hh := h hn
          split
          · split <;> exact ⟨hh.rep, hh.taken, hh.size, hh.whole⟩
          · exact hears_readReply hsz (hears_query hh)
  have h := key ops (init (Ser.init rmem wmem sched)) (fun _ =>
    ⟨⟨_, _, Ser.rep_init rmem wmem sched⟩, rfl, rfl, by simp [init]⟩) hm
  dsimp only
  obtain ⟨⟨rq, tq, hr⟩, h2, h3, h4⟩ := h
  refine ⟨⟨rq, ?_, hr.rx.ring.bytesAvailable.symm⟩, h4⟩
  rw [← h2]; exact hr.rxs

/-! ## A session -/

/-- The modem says this. -/
def says (l : List Byte) : DOp := .irq (l.map fun c => ⟨some c, true⟩)

/-- A serial device with two buffers of 40 bytes. -/
def ser0 : Ser := Ser.init (List.replicate 40 0) (List.replicate 40 0) []

example : (execD ⟨true, true⟩ (init ser0)
      [.run true, .start, .run true, .run true, says b!"\r\n", .run true,
       says b!"SIMCOM_SIM7600E\r\n", .run true]).det = .detectedSim7x00 ∧
    (execD ⟨true, true⟩ (init ser0)
      [.run true, .start, .run true, .run true, says b!"ERROR\r\n", .run true,
       says b!"AT version:1.7.4.0\r\n", .run true, says b!"OK\r\n", .run true]).det =
      .detectedEspressif ∧
    (execD ⟨true, true⟩ (init ser0)
      [.run true, .start, .run true, .run true, says b!"SIMCOM_SIM800L\r\n", .run true,
       .closePort, .run false, .run true, .start, .run true]).det = .errorState := by
  decide +kernel

end Verif.Props.ModemDetect
