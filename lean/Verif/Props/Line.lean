import Verif.Lemmas.Line
import Verif.Props.Ring

/-!
# Properties C07, C09 (and C01, C06 again) for the line buffer
-/

namespace Verif.Props.Line

open Verif Verif.Spec

/-- One call of the interface of `LineCircularBuffer`. -/
def call (b : LineBuf) : LOp → LineBuf × QOut Byte
  | .q (.pushN d) => let (b, n) := b.pushN d; (b, .num n)
  | .q (.push c) => (b.push c, .unit)
  | .q (.pullN n) => let (b, cs) := b.pullN n; (b, .elems cs)
  | .q .pull => let (b, c) := b.pull; (b, .elem c)
  | .q .flush => (b.flush, .unit)
  | .q .peek => let (r, c) := b.ring.peek; ({ b with ring := r }, .elem c)
  | .q .bytesAvailable => (b, .num b.ring.bytesAvailable)
  | .q .spaceAvailable => (b, .num b.ring.spaceAvailable)
  | .q .isEmpty => (b, .flag b.ring.isEmpty)
  | .q .isFull => (b, .flag b.ring.isFull)
  | .q .size => (b, .num b.ring.size)
  | .readLine n => let (b, cs) := b.readLine n; (b, .elems cs)
  | .numBufferedLines => (b, .num b.numBufferedLines)

/-- A history of calls. -/
def calls (b : LineBuf) : List LOp → LineBuf × List (QOut Byte)
  | [] => (b, [])
  | op :: ops =>
    let (b', o) := call b op
    let (b'', os) := calls b' ops
    (b'', o :: os)

theorem size_call (b : LineBuf) (op : LOp) : (call b op).1.ring.size = b.ring.size := by
  cases op with
  | q op => cases op <;> simp [call, LineBuf.pushN, LineBuf.pullN]
  | readLine n => simp [call, LineBuf.readLine]
  | numBufferedLines => rfl

theorem call_refines {b : LineBuf} {q : List Byte} (h : LineBuf.Rep b q) (op : LOp) {q' o}
    (hs : lineStep b.ring.size q op = some (q', o)) :
    LineBuf.Rep (call b op).1 q' ∧ (call b op).2 = o := by
  cases op with
  | readLine n =>
    simp only [lineStep, Option.some.injEq, Prod.mk.injEq] at hs
    obtain ⟨rfl, rfl⟩ := hs
    have := LineBuf.rep_readLine h n
    exact ⟨this.1, by simp [call, this.2]⟩
  | numBufferedLines =>
    simp only [lineStep, Option.some.injEq, Prod.mk.injEq] at hs
    obtain ⟨rfl, rfl⟩ := hs
    exact ⟨h, by simp [call, LineBuf.numBufferedLines, h.lines]⟩
  | q op =>
    simp only [lineStep] at hs
    cases op with
    | pushN d =>
      simp only [fifoStep, Option.some.injEq, Prod.mk.injEq] at hs
      obtain ⟨rfl, rfl⟩ := hs
      have := LineBuf.rep_pushN h d
      exact ⟨this.1, by simp [call, this.2]⟩
    | push x =>
      simp only [fifoStep] at hs
      split at hs
      · simp only [Option.some.injEq, Prod.mk.injEq] at hs
        obtain ⟨rfl, rfl⟩ := hs
        exact ⟨LineBuf.rep_push h x ‹_›, rfl⟩
      · simp at hs
    | pullN n =>
      simp only [fifoStep, Option.some.injEq, Prod.mk.injEq] at hs
      obtain ⟨rfl, rfl⟩ := hs
      have := LineBuf.rep_pullN h n
      exact ⟨this.1, by simp [call, this.2]⟩
    | pull =>
      cases q with
      | nil => simp [fifoStep] at hs
      | cons x q =>
        simp only [fifoStep, Option.some.injEq, Prod.mk.injEq] at hs
        obtain ⟨rfl, rfl⟩ := hs
        have := LineBuf.rep_pull h
        exact ⟨this.1, by simp [call, this.2]⟩
    | peek =>
      cases q with
      | nil => simp [fifoStep] at hs
      | cons x q =>
        simp only [fifoStep, Option.some.injEq, Prod.mk.injEq] at hs
        obtain ⟨rfl, rfl⟩ := hs
        have := Ring.rep_peek h.ring
        refine ⟨⟨?_, h.lines⟩, by simp [call, this.2]⟩
        show Ring.Rep b.ring.peek.1 _
        rw [this.1]; exact h.ring
    | flush =>
      simp only [fifoStep, Option.some.injEq, Prod.mk.injEq] at hs
      obtain ⟨rfl, rfl⟩ := hs
      exact ⟨LineBuf.rep_flush h.ring.len h.ring.ok, rfl⟩
    | bytesAvailable =>
      simp only [fifoStep, Option.some.injEq, Prod.mk.injEq] at hs
      obtain ⟨rfl, rfl⟩ := hs
      exact ⟨h, by simp [call, h.ring.bytesAvailable]⟩
    | spaceAvailable =>
      simp only [fifoStep, Option.some.injEq, Prod.mk.injEq] at hs
      obtain ⟨rfl, rfl⟩ := hs
      exact ⟨h, by simp [call, h.ring.spaceAvailable]⟩
    | isEmpty =>
      simp only [fifoStep, Option.some.injEq, Prod.mk.injEq] at hs
      obtain ⟨rfl, rfl⟩ := hs
      exact ⟨h, by simp only [call, Ring.isEmpty, h.ring.av]; congr 1⟩
    | isFull =>
      simp only [fifoStep, Option.some.injEq, Prod.mk.injEq] at hs
      obtain ⟨rfl, rfl⟩ := hs
      exact ⟨h, by simp only [call, Ring.isFull, h.ring.av]; congr 1⟩
    | size =>
      simp only [fifoStep, Option.some.injEq, Prod.mk.injEq] at hs
      obtain ⟨rfl, rfl⟩ := hs
      exact ⟨h, rfl⟩

theorem calls_refine {b : LineBuf} {q : List Byte} (h : LineBuf.Rep b q) (ops : List LOp) {q' os}
    (hs : lineRun b.ring.size q ops = some (q', os)) :
    LineBuf.Rep (calls b ops).1 q' ∧ (calls b ops).2 = os := by
  induction ops generalizing b q os with
  | nil =>
    simp only [lineRun, Option.some.injEq, Prod.mk.injEq] at hs
    obtain ⟨rfl, rfl⟩ := hs
    exact ⟨h, rfl⟩
  | cons op ops ih =>
    simp only [lineRun, Option.bind_eq_bind, Option.bind_eq_some_iff, Prod.exists] at hs
    obtain ⟨q1, o, h1, q2, os2, h2, h3⟩ := hs
    simp only [pure, Option.some.injEq, Prod.mk.injEq] at h3
    obtain ⟨rfl, rfl⟩ := h3
    obtain ⟨hr, ho⟩ := call_refines h op h1
    rw [← size_call b op] at h2
    obtain ⟨hr2, ho2⟩ := ih hr h2
    exact ⟨hr2, by simp [calls, ho, ho2]⟩

/-- **C07, C09** (and C01/C06 for the line buffer). Every in-contract history of the line buffer
returns what a bounded byte queue with lines returns: `numBufferedLines()` is the number of
newlines in the buffer modulo 65536; `readLine(data, n)` removes exactly the first line and
stores its first `n` bytes. -/
theorem C07_C09_line_buffer (mem : List Byte) (ops : List LOp) {q os}
    (hs : lineRun mem.length [] ops = some (q, os)) :
    (calls (LineBuf.init mem) ops).2 = os ∧ (calls (LineBuf.init mem) ops).1.ring.oob = false := by
  have := calls_refine (LineBuf.rep_init mem) ops (q' := q) (os := os) hs
  exact ⟨this.2, this.1.ring.ok⟩

/-- A history meeting the hypothesis: two lines, one truncated, wrap-around. -/
example : lineRun 8 [] [.q (.pushN b!"ab\ncde\nf"), .numBufferedLines, .readLine 2,
      .numBufferedLines, .q (.pushN b!"gh\nijk"), .numBufferedLines, .readLine 9, .readLine 9] =
    some (b!"",
      [.num 8, .num 2, .elems b!"ab", .num 1, .num 3, .num 2, .elems b!"cde\n",
        .elems b!"fgh\n"]) := by decide

/-- **C07.** Number of lines, directly: in every state reached by an in-contract history. -/
theorem C07_line_count (mem : List Byte) (ops : List LOp) {q os}
    (hs : lineRun mem.length [] ops = some (q, os)) :
    (calls (LineBuf.init mem) ops).1.numBufferedLines = q.count nl % 65536 :=
  (calls_refine (LineBuf.rep_init mem) ops (q' := q) (os := os) hs).1.lines

/-- **C09.** `readLine` on every state representing the text `q`. -/
theorem C09_readLine (mem : List Byte) (ops : List LOp) {q os} (n : Nat)
    (hs : lineRun mem.length [] ops = some (q, os)) :
    let b := (calls (LineBuf.init mem) ops).1
    (b.readLine n).2 = (takeLine q).take n ∧
      (b.readLine n).1.ring.bytesAvailable = q.length - (takeLine q).length ∧
      ((b.readLine n).1.pullN q.length).2 = dropLine q := by
  intro b
  have h := (calls_refine (LineBuf.rep_init mem) ops (q' := q) (os := os) hs).1
  have hr := LineBuf.rep_readLine h n
  have hl : (takeLine q).length + (dropLine q).length = q.length := by
    rw [← List.length_append, takeLine_append_dropLine]
  refine ⟨hr.2, ?_, ?_⟩
  · rw [hr.1.ring.bytesAvailable]; omega
  · rw [(LineBuf.rep_pullN hr.1 _).2, List.take_of_length_le (by omega)]

/-- **C06** for the line buffer: flush after any in-contract history. -/
theorem C06_flush_line (mem : List Byte) (before after : List LOp) {q os q' os'}
    (hb : lineRun mem.length [] before = some (q, os))
    (hs : lineRun mem.length [] after = some (q', os')) :
    (calls (calls (LineBuf.init mem) before).1.flush after).2 = os' := by
  have h := (calls_refine (LineBuf.rep_init mem) before (q' := q) (os := os) hb).1
  have hsz : ∀ (b0 : LineBuf) (ops : List LOp), (calls b0 ops).1.ring.size = b0.ring.size := by
    intro b0 ops
    induction ops generalizing b0 with
    | nil => rfl
    | cons op ops ih => simp only [calls]; rw [ih, size_call]
  exact (calls_refine (LineBuf.rep_flush h.ring.len h.ring.ok) after (q' := q') (os := os')
    (by rw [LineBuf.size_flush, hsz]; exact hs)).2

end Verif.Props.Line
