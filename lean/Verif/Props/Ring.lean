import Verif.Lemmas.Ring
import Verif.Spec.Fifo

/-!
# Properties C01–C06: the circular buffer
-/

namespace Verif.Props.Ring

open Verif Verif.Spec

variable {α : Type} [Inhabited α]

/-- One call of the interface of `CircularBuffer<T>`, dispatched to the modelled functions. -/
def call (r : Ring α) : QOp α → Ring α × QOut α
  | .pushN d => let (r, n) := r.pushN d; (r, .num n)
  | .push x => (r.push x, .unit)
  | .pullN n => let (r, xs) := r.pullN n; (r, .elems xs)
  | .pull => let (r, x) := r.pull; (r, .elem x)
  | .peek => let (r, x) := r.peek; (r, .elem x)
  | .flush => (r.flush, .unit)
  | .bytesAvailable => (r, .num r.bytesAvailable)
  | .spaceAvailable => (r, .num r.spaceAvailable)
  | .isEmpty => (r, .flag r.isEmpty)
  | .isFull => (r, .flag r.isFull)
  | .size => (r, .num r.size)

/-- A history of calls: final state and all results. -/
def calls (r : Ring α) : List (QOp α) → Ring α × List (QOut α)
  | [] => (r, [])
  | op :: ops =>
    let (r', o) := call r op
    let (r'', os) := calls r' ops
    (r'', o :: os)

theorem calls_append (r : Ring α) (a b : List (QOp α)) :
    calls r (a ++ b) =
      ((calls (calls r a).1 b).1, (calls r a).2 ++ (calls (calls r a).1 b).2) := by
  induction a generalizing r with
  | nil => rfl
  | cons x a ih => simp [calls, ih]

theorem size_call (r : Ring α) (op : QOp α) : (call r op).1.size = r.size := by
  cases op <;> simp [call]

/-- One in-contract call refines the queue. -/
theorem call_refines {r : Ring α} {q : List α} (h : Ring.Rep r q) (op : QOp α) {q' o}
    (hs : fifoStep r.size q op = some (q', o)) :
    Ring.Rep (call r op).1 q' ∧ (call r op).2 = o := by
  cases op with
  | pushN d =>
    simp only [fifoStep, Option.some.injEq, Prod.mk.injEq] at hs
    obtain ⟨rfl, rfl⟩ := hs
    have := Ring.rep_pushN h d
    exact ⟨this.1, by simp [call, this.2]⟩
  | push x =>
    simp only [fifoStep] at hs
    split at hs
    · simp only [Option.some.injEq, Prod.mk.injEq] at hs
      obtain ⟨rfl, rfl⟩ := hs
      exact ⟨Ring.rep_push h x ‹_›, rfl⟩
    · simp at hs
  | pullN n =>
    simp only [fifoStep, Option.some.injEq, Prod.mk.injEq] at hs
    obtain ⟨rfl, rfl⟩ := hs
    have := Ring.rep_pullN h n
    exact ⟨this.1, by simp [call, this.2]⟩
  | pull =>
    cases q with
    | nil => simp [fifoStep] at hs
    | cons x q =>
      simp only [fifoStep, Option.some.injEq, Prod.mk.injEq] at hs
      obtain ⟨rfl, rfl⟩ := hs
      have := Ring.rep_pull h
      exact ⟨this.1, by simp [call, this.2]⟩
  | peek =>
    cases q with
    | nil => simp [fifoStep] at hs
    | cons x q =>
      simp only [fifoStep, Option.some.injEq, Prod.mk.injEq] at hs
      obtain ⟨rfl, rfl⟩ := hs
      have := Ring.rep_peek h
      exact ⟨by simpa [call, this.1] using h, by simp [call, this.2]⟩
  | flush =>
    simp only [fifoStep, Option.some.injEq, Prod.mk.injEq] at hs
    obtain ⟨rfl, rfl⟩ := hs
    exact ⟨Ring.rep_flush h.len h.ok, rfl⟩
  | bytesAvailable =>
    simp only [fifoStep, Option.some.injEq, Prod.mk.injEq] at hs
    obtain ⟨rfl, rfl⟩ := hs
    exact ⟨h, by simp [call, h.bytesAvailable]⟩
  | spaceAvailable =>
    simp only [fifoStep, Option.some.injEq, Prod.mk.injEq] at hs
    obtain ⟨rfl, rfl⟩ := hs
    exact ⟨h, by simp [call, h.spaceAvailable]⟩
  | isEmpty =>
    simp only [fifoStep, Option.some.injEq, Prod.mk.injEq] at hs
    obtain ⟨rfl, rfl⟩ := hs
    exact ⟨h, by simp only [call, Ring.isEmpty, h.av]; congr 1⟩
  | isFull =>
    simp only [fifoStep, Option.some.injEq, Prod.mk.injEq] at hs
    obtain ⟨rfl, rfl⟩ := hs
    exact ⟨h, by simp only [call, Ring.isFull, h.av]; congr 1⟩
  | size =>
    simp only [fifoStep, Option.some.injEq, Prod.mk.injEq] at hs
    obtain ⟨rfl, rfl⟩ := hs
    exact ⟨h, rfl⟩

theorem calls_refine {r : Ring α} {q : List α} (h : Ring.Rep r q) (ops : List (QOp α)) {q' os}
    (hs : fifoRun r.size q ops = some (q', os)) :
    Ring.Rep (calls r ops).1 q' ∧ (calls r ops).2 = os := by
  induction ops generalizing r q os with
  | nil =>
    simp only [fifoRun, Option.some.injEq, Prod.mk.injEq] at hs
    obtain ⟨rfl, rfl⟩ := hs
    exact ⟨h, rfl⟩
  | cons op ops ih =>
    simp only [fifoRun, Option.bind_eq_bind, Option.bind_eq_some_iff, Prod.exists] at hs
    obtain ⟨q1, o, h1, q2, os2, h2, h3⟩ := hs
    simp only [pure, Option.some.injEq, Prod.mk.injEq] at h3
    obtain ⟨rfl, rfl⟩ := h3
    obtain ⟨hr, ho⟩ := call_refines h op h1
    rw [← size_call r op] at h2
    obtain ⟨hr2, ho2⟩ := ih hr h2
    exact ⟨hr2, by simp [calls, ho, ho2]⟩

/-- **C01.** For every raw buffer (any capacity, including 0, any initial content) and every history
that respects the preconditions of the single-element calls, the circular buffer returns exactly
what a bounded FIFO queue returns, and touches no memory outside of the raw buffer. -/
theorem C01_fifo (mem : List α) (ops : List (QOp α)) {q os}
    (hs : fifoRun mem.length [] ops = some (q, os)) :
    (calls (Ring.init mem) ops).2 = os ∧ (calls (Ring.init mem) ops).1.oob = false := by
  have := calls_refine (Ring.rep_init mem) ops (os := os) (q' := q) hs
  exact ⟨this.2, this.1.ok⟩

/-- The hypothesis of C01 is met by a history that wraps around and truncates. -/
example : fifoRun 3 [] [.pushN [1, 2], .pull, .pushN [3, 4, 5], .isFull, .peek, .pullN 2, .push 6,
      .pullN 9] =
    some ([], [.num 2, .elem 1, .num 2, .flag true, .elem 2, .elems [2, 3], .unit,
      .elems [4, 6]]) := by decide

/-- States reachable by any calls at all, from any raw buffer. -/
def Reachable (r : Ring α) : Prop := ∃ mem ops, r = (calls (Ring.init mem) ops).1

/-- States reachable by in-contract histories. -/
def Sound (r : Ring α) : Prop :=
  ∃ mem ops q os, fifoRun mem.length [] ops = some (q, os) ∧ r = (calls (Ring.init mem) ops).1

/-- What a bulk pull of everything would deliver: the observable content. -/
def content (r : Ring α) : List α := (r.pullN r.bytesAvailable).2

theorem rep_content {r : Ring α} {q : List α} (h : Ring.Rep r q) : content r = q := by
  rw [content, (Ring.rep_pullN h _).2, h.bytesAvailable, List.take_length]

theorem Sound.rep {r : Ring α} (h : Sound r) : Ring.Rep r (content r) := by
  obtain ⟨mem, ops, q, os, h1, rfl⟩ := h
  have := (calls_refine (Ring.rep_init mem) ops h1).1
  rwa [rep_content this]

theorem bnd_call {r : Ring α} (h : Ring.Bnd r) (op : QOp α) : Ring.Bnd (call r op).1 := by
  cases op with
  | pushN d => exact Ring.bnd_pushN h d
  | push x => exact Ring.bnd_push h x
  | pullN n => exact Ring.bnd_pullN h n
  | pull => exact Ring.bnd_pull h
  | peek => exact Ring.bnd_peek h
  | flush => exact Ring.bnd_flush h
  | bytesAvailable | spaceAvailable | isEmpty | isFull | size => exact h

theorem bnd_calls {r : Ring α} (h : Ring.Bnd r) (ops : List (QOp α)) :
    Ring.Bnd (calls r ops).1 := by
  induction ops generalizing r with
  | nil => exact h
  | cons op ops ih => exact ih (bnd_call h op)

/-- **C02.** Any calls at all (also unchecked pushes on a full and pulls on an empty buffer): the
query methods stay consistent with each other and no access leaves the raw buffer. -/
theorem C02_counters (mem : List α) (hm : mem ≠ []) (ops : List (QOp α)) :
    let r := (calls (Ring.init mem) ops).1
    r.bytesAvailable + r.spaceAvailable = mem.length ∧
      r.size = mem.length ∧
      (r.isEmpty = true ↔ r.bytesAvailable = 0) ∧
      (r.isFull = true ↔ r.spaceAvailable = 0) ∧
      r.oob = false := by
  intro r
  have hb : Ring.Bnd r := bnd_calls (Ring.bnd_init hm) ops
  have hsz : ∀ (r0 : Ring α) (ops : List (QOp α)), (calls r0 ops).1.size = r0.size := by
    intro r0 ops
    induction ops generalizing r0 with
    | nil => rfl
    | cons op ops ih => simp only [calls]; rw [ih, size_call]
  have hs : r.size = mem.length := hsz (Ring.init mem) ops
  have hav := hb.av
  refine ⟨?_, hs, ?_, ?_, hb.ok⟩
  · rw [← hs]; simp only [Ring.bytesAvailable, Ring.spaceAvailable]; omega
  · simp [Ring.isEmpty, Ring.bytesAvailable]
  · simp only [Ring.isFull, Ring.spaceAvailable, beq_iff_eq]; omega

/-- A history with unchecked calls that C02 covers. -/
example : (calls (Ring.init [0, 0]) [.pull, .push 1, .push 2, .push 3, .pull, .pull, .pull]).1.oob
    = false := (C02_counters [0, 0] (by simp) _).2.2.2.2

/-- With capacity 0 the first unchecked push is out of bounds: `hm` is needed. -/
theorem C02_zero_capacity (x : α) : (calls (Ring.init []) [.push x]).1.oob = true := by
  simp [calls, call, Ring.init, Ring.push, Ring.store]

/-- **C03** (push). A bulk push appends exactly the prefix that fits and reports its length. -/
theorem C03_bulk_push {r : Ring α} (h : Sound r) (data : List α) :
    (r.pushN data).2 = min data.length r.spaceAvailable ∧
      content (r.pushN data).1 = content r ++ data.take r.spaceAvailable := by
  have hr := h.rep
  have hp := Ring.rep_pushN hr data
  rw [hr.spaceAvailable]
  exact ⟨hp.2, rep_content hp.1⟩

/-- **C03** (pull). A bulk pull delivers exactly the oldest elements and keeps the others. -/
theorem C03_bulk_pull {r : Ring α} (h : Sound r) (n : Nat) :
    (r.pullN n).2.length = min n r.bytesAvailable ∧
      (r.pullN n).2 ++ content (r.pullN n).1 = content r ∧
      content (r.pullN n).1 = (content r).drop n := by
  have hr := h.rep
  have hp := Ring.rep_pullN hr n
  rw [hp.2, rep_content hp.1, hr.bytesAvailable]
  exact ⟨by simp, List.take_append_drop _ _, rfl⟩

/-- A sound state with wrapped heads and both data and space. -/
theorem sound_example : Sound (calls (Ring.init [0, 0, 0]) [.pushN [1, 2, 3], .pullN 2, .push 4]).1 :=
  ⟨[0, 0, 0], [.pushN [1, 2, 3], .pullN 2, .push 4], [3, 4], [.num 3, .elems [1, 2], .unit],
    by decide, rfl⟩

example : let r := (calls (Ring.init [0, 0, 0]) [.pushN [1, 2, 3], .pullN 2, .push 4]).1
    content r = [3, 4] ∧ (r.pushN [7, 8]).2 = 1 ∧ content (r.pushN [7, 8]).1 = [3, 4, 7] := by
  decide

theorem rep_push_full {r : Ring α} {x : α} {l : List α} (h : Ring.Rep r (x :: l))
    (hf : (x :: l).length = r.size) (y : α) :
    content (r.push y) = y :: l ∧ (r.push y).avail = r.avail ∧ (r.push y).oob = false := by
  have hp : 0 < r.size := by simp at hf; omega
  have hb := h.bnd hp
  have hwr : r.writeHead = r.readHead := by
    rw [h.wh, h.av, hf, Nat.add_mod_right, Nat.mod_eq_of_lt hb.rh]
  have hav : r.avail = r.size := by rw [h.av, hf]
  refine ⟨?_, by simp [Ring.push, hav], (Ring.bnd_push hb y).ok⟩
  -- the buffer now starts one cell after the read head; read cell by cell
  have key : ∀ n, n ≤ (y :: l).length → ∀ r' : Ring α, r'.cells = r.cells.set r.readHead y →
      r'.size = r.size → r'.readHead = (r.readHead + ((y :: l).length - n)) % r.size →
      (r'.pullLoop n).2 = (y :: l).drop ((y :: l).length - n) := by
    intro n
    induction n with
    | zero => intro _ r' _ _ _; simp [Ring.pullLoop]
    | succ n ih =>
      intro hn r' hc hs hrh
      have hlt : (y :: l).length - (n + 1) < (y :: l).length := by omega
      have hidx : (y :: l).length - (n + 1) + 1 = (y :: l).length - n := by omega
      simp only [Ring.pullLoop]
      rw [ih (by omega) r'.advance hc hs]
      · rw [List.drop_eq_getElem_cons hlt, hidx]
        congr 1
        have hyl : (y :: l)[(y :: l).length - (n + 1)]? =
            some (y :: l)[(y :: l).length - (n + 1)] := List.getElem?_eq_getElem hlt
        have hcell : r'.cells[r'.readHead]? = (y :: l)[(y :: l).length - (n + 1)]? := by
          rw [hc, hrh]
          by_cases e : (y :: l).length - (n + 1) = 0
          · rw [e, Nat.add_zero, Nat.mod_eq_of_lt hb.rh, List.getElem?_set]
            simp [hb.len, hb.rh]
          · rw [List.getElem?_set_ne]
            · have := h.get ((y :: l).length - (n + 1)) (by simpa using hlt)
              rw [this]
              obtain ⟨k, hk⟩ := Nat.exists_eq_succ_of_ne_zero e
              rw [hk]; simp
            · have := Ring.mod_add_ne (a := r.readHead) (i := 0)
                (j := (y :: l).length - (n + 1)) (n := r.size) hp (by simp at hf ⊢; omega)
                (by omega)
              rwa [Nat.add_zero, Nat.mod_eq_of_lt hb.rh] at this
        simp only [Ring.load, List.getD_eq_getElem?_getD]
        rw [hcell, hyl]; rfl
      · show r'.inc r'.readHead = _
        rw [Ring.inc_eq_mod r' _ (by rw [hs, hrh]; exact Nat.mod_lt _ hp), hs, hrh,
          Nat.mod_add_mod]
        congr 1; omega
  have := key (y :: l).length (Nat.le_refl _) (r.push y)
    (by simp [Ring.push, Ring.store, hwr]) rfl
    (by simp [Ring.push, Ring.store, Nat.mod_eq_of_lt hb.rh])
  have hba : (r.push y).bytesAvailable = (y :: l).length := by
    show (r.push y).avail = _
    have : (r.push y).avail = r.size := by simp [Ring.push, hav]
    rw [this, ← hf]; simp
  simp only [content, Ring.pullN]
  rw [hba]
  simpa using this

/-- **C04.** Single push onto a full buffer: the oldest element is replaced in place, nothing else
changes, and no counter changes. So the *new* element comes out *first*. -/
theorem C04_push_full {r : Ring α} (h : Sound r) (hf : r.isFull = true) (x : α)
    (l : List α) (hc : content r = x :: l) (y : α) :
    content (r.push y) = y :: l ∧ (r.push y).bytesAvailable = r.bytesAvailable ∧
      (r.push y).spaceAvailable = r.spaceAvailable ∧ (r.push y).oob = false := by
  have hr := h.rep
  rw [hc] at hr
  have hl : (x :: l).length = r.size := by
    have := hr.av
    simp [Ring.isFull] at hf
    omega
  obtain ⟨h1, h2, h3⟩ := rep_push_full hr hl y
  exact ⟨h1, h2, by simp only [Ring.spaceAvailable]; rw [h2]; rfl, h3⟩

example : let r := (calls (Ring.init [0, 0, 0]) [.pushN [1, 2, 3]]).1
    r.isFull = true ∧ content r = [1, 2, 3] ∧ content (r.push 4) = [4, 2, 3] := by decide

/-- **C04, expectation refuted.** For every capacity of at least 2, after filling the buffer with
`a` a single push of another element `b` comes out before all the older elements. -/
theorem C04_order_broken (mem : List α) (hm : 2 ≤ mem.length) (a b : α) (hab : a ≠ b) :
    let r := (calls (Ring.init mem) [.pushN (List.replicate mem.length a), .push b]).1
    r.pull.2 = b ∧ content r ≠ List.replicate (mem.length - 1) a ++ [b] := by
  intro r
  obtain ⟨n, hn⟩ : ∃ n, mem.length = n + 2 := ⟨mem.length - 2, by omega⟩
  have h1 := (Ring.rep_pushN (Ring.rep_init mem) (List.replicate mem.length a)).1
  have e1 : ([] : List α) ++ (List.replicate mem.length a).take ((Ring.init mem).size - ([] : List α).length)
      = a :: List.replicate (n + 1) a := by
    simp [Ring.init, hn, List.replicate_succ]
  rw [e1] at h1
  have hsz : ((Ring.init mem).pushN (List.replicate mem.length a)).1.size = n + 2 := by
    rw [Ring.size_pushN]; exact hn
  have h2 := rep_push_full h1 (by rw [hsz]; simp) b
  have hr : r = ((Ring.init mem).pushN (List.replicate mem.length a)).1.push b := rfl
  have hcont : content r = b :: List.replicate (n + 1) a := by rw [hr]; exact h2.1
  have hpos : r.bytesAvailable = n + 2 := by
    show r.avail = _
    rw [hr, h2.2.1, h1.av]; simp
  constructor
  · have : content r = r.load :: ((r.advance).pullLoop (n + 1)).2 := by
      simp only [content, Ring.pullN]
      rw [hpos]
      simp [Ring.pullLoop]
    rw [hcont] at this
    exact (List.cons.inj this).1.symm
  · rw [hcont, hn]
    simp only [Nat.add_one_sub_one, List.replicate_succ, List.cons_append, ne_eq]
    intro h
    exact hab (List.cons.inj h).1.symm

/-- **C05.** Single pull from an empty buffer: reports still empty, nothing is touched outside of
the raw buffer. -/
theorem C05_pull_empty {r : Ring α} (h : Sound r) (hp : 0 < r.size)
    (he : r.isEmpty = true) :
    r.pull.1.isEmpty = true ∧ r.pull.1.spaceAvailable = r.size ∧ r.pull.1.oob = false := by
  have hb := h.rep.bnd hp
  simp only [Ring.isEmpty, beq_iff_eq] at he
  refine ⟨by simp [Ring.isEmpty, Ring.pull, he], by simp [Ring.spaceAvailable, Ring.pull, he], ?_⟩
  exact (Ring.bnd_pull hb).ok

/-- **C05, expectation refuted.** On every in-contract reachable empty buffer of capacity at least
2, after one pull too many there is a stale element `z` such that *whatever* is pushed next, the
next pull returns `z` and not what was pushed. -/
theorem C05_desync {r : Ring α} (h : Sound r) (hp : 2 ≤ r.size) (he : r.isEmpty = true) :
    ∃ z, ∀ y, (r.pull.1.push y).pull.2 = z := by
  have hr := h.rep
  have hb := hr.bnd (by omega)
  simp only [Ring.isEmpty, beq_iff_eq] at he
  have hwr : r.writeHead = r.readHead := by
    rw [hr.wh, he, Nat.add_zero, Nat.mod_eq_of_lt hb.rh]
  refine ⟨r.cells.getD (r.inc r.readHead) default, fun y => ?_⟩
  have hne : r.readHead ≠ r.inc r.readHead := by
    have := hb.rh
    unfold Ring.inc; split <;> omega
  simp only [Ring.pull, Ring.load, Ring.push, Ring.store, Ring.advance,
    List.getD_eq_getElem?_getD]
  rw [hwr, List.getElem?_set_ne hne]

/-- **C05, persistence.** The shift stays: whatever is written afterwards (up to capacity - 1
elements), the first element written is skipped and a stale cell comes out last. -/
theorem C05_desync_stream {r : Ring α} (h : Sound r) (he : r.isEmpty = true) (ys : List α)
    (h1 : 0 < ys.length) (h2 : ys.length < r.size) :
    ∃ z, content (r.pull.1.pushN ys).1 = ys.tail ++ [z] := by
  have hr := h.rep
  have hb := hr.bnd (by omega)
  simp only [Ring.isEmpty, beq_iff_eq] at he
  have hnil : content r = [] := List.length_eq_zero_iff.mp (by rw [← hr.av, he])
  rw [hnil] at hr
  have hp : 0 < r.size := by omega
  have hrep := Ring.rep_pushLoop hr ys (by simp; omega)
  simp only [List.nil_append] at hrep
  have hn : (if ys.length > r.pull.1.spaceAvailable then r.pull.1.spaceAvailable else ys.length)
      = ys.length := by
    have : r.pull.1.spaceAvailable = r.size := by simp [Ring.spaceAvailable, Ring.pull, he]
    rw [this]; split <;> omega
  have hst : r.pull.1 = { r with readHead := r.inc r.readHead } := by
    have := hb.len; have := hb.rh
    have hd : decide (r.cells.length ≤ r.readHead) = false := by simp; omega
    simp [Ring.pull, Ring.advance, he, hd]
  refine ⟨(r.pushLoop ys).cells.getD ((r.readHead + ys.length) % r.size) default, ?_⟩
  have hba : (r.pull.1.pushN ys).1.bytesAvailable = ys.length := by
    show (r.pull.1.pushN ys).1.avail = _
    simp only [Ring.pushN]
    rw [hn, Ring.avail_pushLoop]
    simp [Ring.pull, he]
  have hcell : (r.pull.1.pushN ys).1.cells = (r.pushLoop ys).cells := by
    simp only [Ring.pushN]
    rw [hn, List.take_length, hst, Ring.pushLoop_setReadHead]
  have hrh : (r.pull.1.pushN ys).1.readHead = (r.readHead + 1) % r.size := by
    simp only [Ring.pushN]
    rw [hn, List.take_length, hst, Ring.pushLoop_setReadHead]
    exact Ring.inc_eq_mod r _ hb.rh
  have hsz : (r.pull.1.pushN ys).1.size = r.size := by simp
  rw [content]
  simp only [Ring.pullN]
  rw [if_neg (Nat.lt_irrefl _),
    Ring.pullLoop_eq_map _ _ (by rw [hrh, hsz]; exact Nat.mod_lt _ hp), hba, hcell, hrh, hsz]
  obtain ⟨k, hk⟩ : ∃ k, ys.length = k + 1 := ⟨ys.length - 1, by omega⟩
  rw [hk, List.range_succ, List.map_append]
  congr 1
  · apply List.ext_getElem?
    intro i
    by_cases hi : i < k
    · have hg := hrep.get (i + 1) (by omega)
      simp only [Ring.size_pushLoop, Ring.readHead_pushLoop] at hg
      rw [List.getElem?_map, List.getElem?_range hi, Option.map_some, Nat.mod_add_mod,
        List.getElem?_tail, show r.readHead + 1 + i = r.readHead + (i + 1) by omega,
        List.getD_eq_getElem?_getD, hg, List.getElem?_eq_getElem (by omega : i + 1 < ys.length)]
      rfl
    · rw [List.getElem?_eq_none (by simp; omega), List.getElem?_eq_none (by simp; omega)]
  · simp only [List.map_cons, List.map_nil, Nat.mod_add_mod]
    congr 3; omega

/-- A non-trivial empty sound state: two elements went through; after one pull too many, the 9
written next is skipped and the old 1 comes out instead. -/
example : let r := (calls (Ring.init [0, 0, 0]) [.pushN [1, 2], .pullN 2]).1
    r.isEmpty = true ∧ (r.pull.1.push 9).pull.2 = 1 ∧
      content (r.pull.1.pushN [8, 9]).1 = [9, 2] := by decide

/-- **C06.** After any calls at all, `flush()` restores full FIFO behaviour: every later in-contract
history returns what a fresh queue of the same capacity returns. -/
theorem C06_flush (mem : List α) (before after : List (QOp α)) {q os}
    (hm : mem ≠ []) (hs : fifoRun mem.length [] after = some (q, os)) :
    (calls (Ring.init mem) (before ++ .flush :: after)).2 =
        (calls (Ring.init mem) before).2 ++ .unit :: os := by
  rw [calls_append]
  have hb := bnd_calls (Ring.bnd_init hm) before
  have hsz : (calls (Ring.init mem) before).1.size = mem.length :=
    (C02_counters mem hm before).2.1
  have hf := Ring.rep_flush hb.len hb.ok
  have := calls_refine hf after (q' := q) (os := os) (by rw [Ring.size_flush, hsz]; exact hs)
  simp [calls, call, this.2]

/-- C06 applies after a desynchronising history. -/
example : (calls (Ring.init [0, 0]) ([.pull, .push 1] ++ .flush :: [.push 5, .pull])).2 =
    [.elem 0, .unit, .unit, .unit, .elem 5] := by decide

end Verif.Props.Ring
