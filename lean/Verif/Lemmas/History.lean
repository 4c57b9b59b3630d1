import Verif.Lemmas.Busy

/-!
# Histories: API calls between two calls of `run()`

What the operations other than `run()` do to the serial stream, the line buffer and the trace.
-/

namespace Verif

open Dev

variable {S R X : Type} {x : List Byte → Byte → Prop}

/-- Events of the application other than `resetStates()` and `serialRead()`. -/
def isCall : Ev → Bool
  | .apiConnect => true
  | .apiDisconnect => true
  | .apiWrite _ => true
  | .apiRead _ => true
  | .userTx _ => true
  | _ => false

/-- Effects of API calls. -/
inductive Api : Dev S R X → Dev S R X → Prop
  | quiet {d d' : Dev S R X} (h1 : Ser.RxOk d.ser → Ser.RxOk d'.ser)
      (h2 : d'.ser.taken = d.ser.taken) (h3 : d'.line = d.line) (h4 : d'.lbFill = d.lbFill)
      (h5 : d'.trace = d.trace ∨ ∃ e, isCall e = true ∧ d'.trace = d.trace ++ [e]) : Api d d'
  | userRx {d d' : Dev S R X} (bs : List Byte) (h1 : Ser.RxOk d.ser → Ser.RxOk d'.ser)
      (h3 : d'.line = d.line) (h4 : d'.lbFill = d.lbFill)
      (h5 : d'.trace = d.trace ++ [.userRx bs]) : Api d d'
  | reset {d d' : Dev S R X} (h1 : Ser.RxOk d.ser → Ser.RxOk d'.ser)
      (h3 : d'.line = d.line) (h4 : d'.lbFill = 0) (h5 : d'.trace = d.trace ++ [.apiReset]) : Api d d'

/-- Invariant of all histories: the serial device and the line buffer are in order, all lines have the
right shape. -/
structure Io (x : List Byte → Byte → Prop) (d : Dev S R X) : Prop where
  rx : Ser.RxOk d.ser
  line : LineOk d
  shapes : Shapes x d

theorem Io.eff {st : Bool} {d d' : Dev S R X} (h : Io x d) (e : Eff x st d d') : Io x d' :=
  ⟨e.rxOk h.rx, e.lineOk h.line, e.shapes h.line h.shapes⟩

theorem Io.api {d d' : Dev S R X} (h : Io x d) (a : Api d d') : Io x d' := by
  cases a with
  | quiet h1 h2 h3 h4 h5 =>
    have hp : part d' = part d := by simp only [part, h3, h4]
    refine ⟨h1 h.rx, ⟨by rw [h3]; exact h.line.len, by rw [h4]; exact h.line.fill,
      by rw [h3]; exact h.line.oob⟩, ?_⟩
    rcases h5 with h5 | ⟨e, he, h5⟩
    · exact h.shapes.of_same h5 hp
    · exact h.shapes.of_event e h5 hp (by intro l hl; rw [hl] at he; simp [isCall] at he)
  | userRx bs h1 h3 h4 h5 =>
    have hp : part d' = part d := by simp only [part, h3, h4]
    exact ⟨h1 h.rx, ⟨by rw [h3]; exact h.line.len, by rw [h4]; exact h.line.fill,
      by rw [h3]; exact h.line.oob⟩, h.shapes.of_event _ h5 hp (by intro l; simp)⟩
  | reset h1 h3 h4 h5 =>
    refine ⟨h1 h.rx, ⟨by rw [h3]; exact h.line.len, by rw [h4]; decide,
      by rw [h3]; exact h.line.oob⟩, ⟨by rw [part_nil h4]; simp, ?_⟩⟩
    intro l hl
    rw [h5, List.mem_append, List.mem_singleton] at hl
    rcases hl with hl | hl
    · exact h.shapes.lines l hl
    · simp at hl

theorem Api.log {d : Dev S R X} {e : Ev} (he : isCall e = true) : Api d (d.log e) :=
  .quiet id rfl rfl rfl (Or.inr ⟨e, he, rfl⟩)

theorem api_common (d : Dev S R X) (op : Op) : Api d (d.common op) := by
  have hq : Api d d := .quiet id rfl rfl rfl (Or.inl rfl)
  cases op with
  | irq hs =>
    refine .quiet ?_ (Ser.taken_transfers _ _) rfl rfl (Or.inl rfl)
    rintro ⟨rq, h⟩
    obtain ⟨a, h⟩ := Ser.rxRep_transfers h hs
    exact ⟨_, h⟩
  | closePort => exact .quiet id rfl rfl rfl (Or.inl rfl)
  | disconnect =>
    exact .quiet (by simp [Dev.common]) (by simp [Dev.common]) (by simp [Dev.common])
      (by simp [Dev.common]) (Or.inr ⟨.apiDisconnect, rfl, by simp [Dev.common]⟩)
  | setHostPort => exact .quiet id rfl rfl rfl (Or.inl rfl)
  | write bs =>
    exact .quiet (by simp [Dev.common]) (by simp [Dev.common]) (by simp [Dev.common])
      (by simp [Dev.common]) (Or.inr ⟨_, rfl, by simp [Dev.common]; rfl⟩)
  | read n =>
    exact .quiet (by simp [Dev.common]) (by simp [Dev.common]) (by simp [Dev.common])
      (by simp [Dev.common]) (Or.inr ⟨_, rfl, by simp [Dev.common]; rfl⟩)
  | requestRSSI => exact .quiet id rfl rfl rfl (Or.inl rfl)
  | serialWrite s =>
    simp only [Dev.common, Dev.serialWrite]
    split
    · refine .quiet ?_ (Ser.taken_writeStr _ _) rfl rfl (Or.inr ⟨_, rfl, rfl⟩)
      rintro ⟨rq, h⟩
      obtain ⟨a, h⟩ := Ser.rxRep_writeStr h s
      exact ⟨_, h⟩
    · exact hq
  | serialRead n =>
    simp only [Dev.common, Dev.serialRead]
    split
    · refine .userRx _ ?_ rfl rfl rfl
      rintro ⟨rq, h⟩
      exact Ser.rxRep_read h n
    · exact hq
  | _ => exact hq

theorem api_logConnect (d : Dev S R X) (r : Dev S R X × Bool)
    (h : SameIo d r.1) (hl : r.1.line = d.line) : Api d (Dev.logConnect r) := by
  unfold Dev.logConnect
  split
  · exact .quiet (by rw [log_ser, h.ser]; exact id) (by rw [log_ser, h.ser])
      (by rw [log_line, hl]) (by rw [log_lbFill, h.fill]) (Or.inr ⟨_, rfl, by rw [log_trace, h.trace]⟩)
  · exact .quiet (by rw [h.ser]; exact id) (by rw [h.ser]) hl h.fill (Or.inl h.trace)

/-! ### Accounting over histories -/

/-- Events after which part of the input is gone: `flushReceiveBuffers()`, `resetStates()` and
`serialRead()`. -/
def isLoss : Ev → Bool
  | .flush => true
  | .apiReset => true
  | .userRx _ => true
  | _ => false

/-- All bytes taken from the serial device are accounted for by the new events and the unfinished
line. -/
def Balanced (d d' : Dev S R X) : Prop :=
  ∃ new, d'.trace = d.trace ++ new ∧
    ((∀ e ∈ new, isLoss e = false) →
      ∃ t, d'.ser.taken = d.ser.taken ++ t ∧ part d ++ t = reads new ++ part d')

theorem Balanced.refl (d : Dev S R X) : Balanced d d :=
  ⟨[], by simp, fun _ => ⟨[], by simp, by simp⟩⟩

theorem Balanced.trans {a b c : Dev S R X} (h : Balanced a b) (k : Balanced b c) : Balanced a c := by
  obtain ⟨n1, h1, h2⟩ := h
  obtain ⟨n2, k1, k2⟩ := k
  refine ⟨n1 ++ n2, by rw [k1, h1]; simp, fun hn => ?_⟩
  obtain ⟨t1, h3, h4⟩ := h2 fun e he => hn e (List.mem_append_left _ he)
  obtain ⟨t2, k3, k4⟩ := k2 fun e he => hn e (List.mem_append_right _ he)
  refine ⟨t1 ++ t2, by rw [k3, h3]; simp, ?_⟩
  rw [reads_append, ← List.append_assoc, h4, List.append_assoc, k4, List.append_assoc]

theorem Balanced.eff {d d' : Dev S R X} (hl : LineOk d) (e : Eff x true d d') : Balanced d d' := by
  obtain ⟨new, t, h⟩ := e.acct hl
  refine ⟨new, h.trace, fun hn => ⟨t, h.taken fun e he => ?_, h.bytes⟩⟩
  have := hn e he
  cases e <;> simp_all [isLoss, isFlush]

theorem Balanced.api {d d' : Dev S R X} (a : Api d d') : Balanced d d' := by
  cases a with
  | quiet h1 h2 h3 h4 h5 =>
    have hp : part d' = part d := by simp only [part, h3, h4]
    rcases h5 with h5 | ⟨e, he, h5⟩
    · exact ⟨[], by simpa using h5, fun _ => ⟨[], by simpa using h2, by simp [hp]⟩⟩
    · refine ⟨[e], h5, fun _ => ⟨[], by simpa using h2, ?_⟩⟩
      rw [hp]
      cases e <;> simp_all [isCall, evRead]
  | userRx bs h1 h3 h4 h5 =>
    exact ⟨_, h5, fun hn => by have := hn (.userRx bs) (by simp); simp [isLoss] at this⟩
  | reset h1 h3 h4 h5 =>
    exact ⟨_, h5, fun hn => by have := hn .apiReset (by simp); simp [isLoss] at this⟩

/-- Histories of a system whose steps keep an invariant. -/
theorem exec_inv {D : Type} {step : D → Op → D} {I : D → Prop} {ok : Op → Prop}
    (h : ∀ d op, ok op → I d → I (step d op)) {d : D} (hd : I d) :
    ∀ ops : List Op, (∀ op ∈ ops, ok op) → I (exec step d ops) := by
  intro ops
  induction ops generalizing d with
  | nil => intro _; exact hd
  | cons op ops ih =>
    intro ho
    exact ih (h d op (ho op (by simp)) hd) fun o h => ho o (by simp [h])

theorem exec_balanced {step : Dev S R X → Op → Dev S R X} {I : Dev S R X → Prop} {ok : Op → Prop}
    (h : ∀ d op, ok op → I d → I (step d op)) (hb : ∀ d op, ok op → I d → Balanced d (step d op))
    {d : Dev S R X} (hd : I d) :
    ∀ ops : List Op, (∀ op ∈ ops, ok op) → Balanced d (exec step d ops) := by
  intro ops
  induction ops generalizing d with
  | nil => intro _; exact .refl d
  | cons op ops ih =>
    intro ho
    have h1 := ho op (by simp)
    exact (hb d op h1 hd).trans (ih (h d op h1 hd) fun o h => ho o (by simp [h]))

end Verif
