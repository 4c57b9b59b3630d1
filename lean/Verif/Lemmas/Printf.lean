import Verif.Spec.Printf
import Verif.Lemmas.Serial

/-!
# Lemmas for C97
-/

namespace Verif.Printf

open Verif.Spec.Printf

/-- Reading from the read head on, regardless of the counters, gives `l`. -/
structure Reads (r : Ring Byte) (l : List Byte) : Prop where
  len : r.cells.length = r.size
  rh : r.readHead < r.size
  get : ∀ i, i < l.length → r.cells[(r.readHead + i) % r.size]? = l[i]?
  ok : r.oob = false

theorem Reads.load {r : Ring Byte} {x : Byte} {l : List Byte} (h : Reads r (x :: l)) : r.load = x := by
  have hg := h.get 0 (by simp)
  rw [Nat.add_zero, Nat.mod_eq_of_lt h.rh] at hg
  simp [Ring.load, List.getD_eq_getElem?_getD, hg]

theorem Reads.pull {r : Ring Byte} {x : Byte} {l : List Byte} (h : Reads r (x :: l)) : Reads r.pull.1 l where
  len := h.len
  rh := Ring.inc_lt (by have := h.rh; omega) _
  ok := by
    show (r.oob || decide (r.cells.length ≤ r.readHead)) = false
    rw [h.ok, h.len]
    simpa using h.rh
  get i hi := by
    have hg := h.get (i + 1) (by simpa using hi)
    show r.cells[(r.inc r.readHead + i) % r.size]? = _
    rw [Ring.inc_eq_mod r _ h.rh, Nat.mod_add_mod]
    rw [show r.readHead + 1 + i = r.readHead + (i + 1) by omega, hg]
    simp

theorem Reads.peek {r : Ring Byte} {l : List Byte} (h : Reads r l) : r.peek.1 = r := by
  have : (r.oob || decide (r.cells.length ≤ r.readHead)) = r.oob := by
    rw [h.len]; have := h.rh; simp; intro; omega
  simp only [Ring.peek, this]

/-- The write head is `d` bytes further than it should be; `q` is what the write head left behind. -/
structure Late (r : Ring Byte) (d : Nat) (q : List Byte) : Prop where
  reads : Reads r q
  av : r.avail + d = q.length
  le : q.length ≤ r.size
  wh : r.writeHead = (r.readHead + q.length) % r.size

theorem Late.rep {r : Ring Byte} {d : Nat} {q : List Byte} (h : Late r d q) :
    Ring.Rep { r with avail := r.avail + d } q :=
  ⟨h.reads.len, .inl h.reads.rh, h.av, h.le, by show r.writeHead = (r.readHead + (r.avail + d)) % r.size; rw [h.av]; exact h.wh,
    h.reads.get, h.reads.ok⟩

theorem late_of_rep {r : Ring Byte} {d : Nat} {q : List Byte} (hp : 0 < r.size)
    (h : Ring.Rep { r with avail := r.avail + d } q) : Late r d q where
  reads := ⟨h.len, by have := h.rh; rcases this with k | k; exact k; have := k.1; simp at this; omega, h.get, h.ok⟩
  av := h.av
  le := h.le
  wh := by have := h.wh; rw [h.av] at this; exact this

theorem Late.push {r : Ring Byte} {d : Nat} {q : List Byte} (h : Late r d q) (x : Byte) (hl : q.length < r.size) :
    Late (r.push x) d (q ++ [x]) := by
  have hav := h.av
  have k := Ring.rep_store h.rep x hl
  refine late_of_rep (by show 0 < r.size; omega) ?_
  have ha : (r.push x).avail = r.avail + 1 := by
    have : r.avail < r.size := by omega
    simp [Ring.push, Ring.store, this]
  have e : ({ r.push x with avail := (r.push x).avail + d } : Ring Byte) =
      { ({ r with avail := r.avail + d } : Ring Byte).store x with avail := r.avail + d + 1 } := by
    rw [ha, show r.avail + 1 + d = r.avail + d + 1 by omega]
    rfl
  rw [e]; exact k

theorem Late.pull {r : Ring Byte} {d : Nat} {x : Byte} {q : List Byte} (h : Late r d (x :: q)) (ha : r.avail ≠ 0) :
    Late r.pull.1 d q where
  reads := h.reads.pull
  av := by
    have := h.av
    show (if r.avail > 0 then r.avail - 1 else r.avail) + d = _
    simp at this
    split <;> omega
  le := by have := h.le; show q.length ≤ r.size; simp at this; omega
  wh := by
    have := h.wh
    show r.writeHead = (r.inc r.readHead + q.length) % r.size
    rw [Ring.inc_eq_mod r _ h.reads.rh, Nat.mod_add_mod, this]
    simp [Nat.add_comm, Nat.add_left_comm]

/-! ## The serial port -/

theorem tx_transferRx (s : Ser) (c : Option Byte) :
    (s.transferRx c).tx = s.tx ∧ (s.transferRx c).wire = s.wire ∧ (s.transferRx c).sched = s.sched := by
  cases c with
  | none => exact ⟨rfl, rfl, rfl⟩
  | some c => simp only [Ser.transferRx]; split <;> exact ⟨rfl, rfl, rfl⟩

theorem sync_still {s : Ser} (h : s.sched = []) : s.sync = s := by
  unfold Ser.sync
  split
  · rw [h]
  · rfl

theorem putchar_eq {s : Ser} (h : s.sched = []) (c : Byte) :
    (putchar s c).tx = s.tx.push c ∧ (putchar s c).wire = s.wire ∧ (putchar s c).sched = [] := by
  unfold putchar Ser.write1 Ser.copyToBuffer
  rw [sync_still h]
  exact ⟨rfl, rfl, h⟩

theorem flush_eq {s : Ser} (h : s.sched = []) :
    s.flushReceiveBuffers.tx = s.tx ∧ s.flushReceiveBuffers.wire = s.wire ∧ s.flushReceiveBuffers.sched = [] := by
  unfold Ser.flushReceiveBuffers
  rw [sync_still h]
  exact ⟨rfl, rfl, h⟩

/-- The interrupt handler takes the byte at the read head. -/
theorem transfer_some {s : Ser} {x : Byte} {l : List Byte} (h : Reads s.tx.ring (x :: l)) (ha : s.tx.ring.avail ≠ 0) (hw : Hw)
    (ho : hw.txOk = true) :
    (s.transfer hw).tx.ring = s.tx.ring.pull.1 ∧ (s.transfer hw).wire = s.wire ++ [x] ∧
    (s.transfer hw).sched = s.sched := by
  obtain ⟨e1, e2, e3⟩ := tx_transferRx s hw.rx
  refine ⟨?_, ?_, Ser.sched_transfer _ _⟩
  · unfold Ser.transfer Ser.transferTx
    rw [e1, ho, if_pos (show s.tx.ring.bytesAvailable ≠ 0 from ha)]
    show (s.tx.ring.peek.1).pull.1 = _
    rw [h.peek]
  · unfold Ser.transfer Ser.transferTx
    rw [e1, e2, ho, if_pos (show s.tx.ring.bytesAvailable ≠ 0 from ha)]
    show s.wire ++ [s.tx.ring.load] = _
    rw [h.load]

theorem transfer_none {s : Ser} {l : List Byte} (h : Reads s.tx.ring l) (hw : Hw)
    (ho : hw.txOk = false ∨ s.tx.ring.avail = 0) :
    (s.transfer hw).tx.ring = s.tx.ring ∧ (s.transfer hw).wire = s.wire ∧ (s.transfer hw).sched = s.sched := by
  obtain ⟨e1, e2, e3⟩ := tx_transferRx s hw.rx
  by_cases ha : s.tx.ring.avail = 0
  · refine ⟨?_, ?_, Ser.sched_transfer _ _⟩ <;>
    · unfold Ser.transfer Ser.transferTx
      rw [if_neg (by rw [e1]; exact fun k => k ha)]
      first | rw [e1] | exact e2
  · have ho : hw.txOk = false := by rcases ho with k | k; exact k; exact absurd k ha
    refine ⟨?_, ?_, Ser.sched_transfer _ _⟩
    · unfold Ser.transfer Ser.transferTx
      rw [e1, ho, if_pos (show s.tx.ring.bytesAvailable ≠ 0 from ha)]
      show s.tx.ring.peek.1 = _
      exact h.peek
    · unfold Ser.transfer Ser.transferTx
      rw [e1, ho, if_pos (show s.tx.ring.bytesAvailable ≠ 0 from ha)]
      exact e2

/-- A history with room. -/
theorem late_steps (d : Nat) (evs : List Ev) {s : Ser} {q : List Byte} (h : Late s.tx.ring d q) (hs : s.sched = [])
    (hr : Roomy d s evs) :
    ∃ q', Late (steps s evs).tx.ring d q' ∧ (steps s evs).sched = [] ∧
      (steps s evs).wire ++ q' = s.wire ++ q ++ printed evs := by
  induction evs generalizing s q with
  | nil => exact ⟨q, h, hs, by simp [steps, printed]⟩
  | cons ev evs ih =>
    cases ev with
    | put c =>
      obtain ⟨e1, e2, e3⟩ := putchar_eq hs c
      have hl : q.length < s.tx.ring.size := by
        have := hr.1; have k := h.av
        rw [← k]; exact this
      have h1 : Late (putchar s c).tx.ring d (q ++ [c]) := by rw [e1]; exact h.push c hl
      obtain ⟨q', a1, a2, a3⟩ := ih h1 e3 hr.2
      refine ⟨q', a1, a2, ?_⟩
      show (steps (putchar s c) evs).wire ++ q' = _
      rw [a3, e2]; simp [printed]
    | flush =>
      obtain ⟨e1, e2, e3⟩ := flush_eq hs
      obtain ⟨q', a1, a2, a3⟩ := ih (s := s.flushReceiveBuffers) (by rw [e1]; exact h) e3 hr.2
      refine ⟨q', a1, a2, ?_⟩
      show (steps s.flushReceiveBuffers evs).wire ++ q' = _
      rw [a3, e2]; simp [printed]
    | irq hw =>
      by_cases hc : hw.txOk = true ∧ s.tx.ring.avail ≠ 0
      · cases q with
        | nil => have := h.av; simp at this; omega
        | cons x q =>
          obtain ⟨e1, e2, e3⟩ := transfer_some h.reads hc.2 hw hc.1
          obtain ⟨q', a1, a2, a3⟩ := ih (s := s.transfer hw) (by rw [e1]; exact h.pull hc.2) (e3.trans hs) hr.2
          refine ⟨q', a1, a2, ?_⟩
          show (steps (s.transfer hw) evs).wire ++ q' = _
          rw [a3, e2]; simp [printed]
      · obtain ⟨e1, e2, e3⟩ := transfer_none h.reads hw (by
          cases ho : hw.txOk with
          | false => exact .inl rfl
          | true => right; exact Decidable.byContradiction fun k => hc ⟨ho, k⟩)
        obtain ⟨q', a1, a2, a3⟩ := ih (s := s.transfer hw) (by rw [e1]; exact h) (e3.trans hs) hr.2
        refine ⟨q', a1, a2, ?_⟩
        show (steps (s.transfer hw) evs).wire ++ q' = _
        rw [a3, e2]; simp [printed]

/-- Taking out `n` bytes, whatever the write head is. -/
theorem drain_steps (n : Nat) {s : Ser} {l m : List Byte} (h : Reads s.tx.ring (l ++ m)) (hl : l.length = n)
    (ha : s.tx.ring.avail = n) :
    Reads (steps s (drain n)).tx.ring m ∧ (steps s (drain n)).wire = s.wire ++ l ∧ (steps s (drain n)).sched = s.sched ∧
    (steps s (drain n)).tx.ring.avail = 0 ∧ (steps s (drain n)).tx.ring.writeHead = s.tx.ring.writeHead ∧
    (steps s (drain n)).tx.ring.size = s.tx.ring.size ∧
    (steps s (drain n)).tx.ring.readHead = (s.tx.ring.readHead + n) % s.tx.ring.size := by
  induction n generalizing s l with
  | zero =>
    have : l = [] := List.eq_nil_of_length_eq_zero hl
    subst this
    exact ⟨h, by simp [steps, drain], rfl, ha, rfl, rfl, by
      show s.tx.ring.readHead = (s.tx.ring.readHead + 0) % _
      rw [Nat.add_zero, Nat.mod_eq_of_lt h.rh]⟩
  | succ n ih =>
    cases l with
    | nil => simp at hl
    | cons x l =>
      obtain ⟨e1, e2, e3⟩ := transfer_some (s := s) (l := l ++ m) h (by omega) ⟨none, true⟩ rfl
      have hp : Reads (s.transfer ⟨none, true⟩).tx.ring (l ++ m) := by rw [e1]; exact Reads.pull h
      have hav : (s.transfer ⟨none, true⟩).tx.ring.avail = n := by
        rw [e1]
        show (if s.tx.ring.avail > 0 then s.tx.ring.avail - 1 else s.tx.ring.avail) = n
        rw [ha]; simp
      obtain ⟨a1, a2, a3, a4, a5, a6, a7⟩ := ih hp (by simpa using hl) hav
      have es : steps s (drain (n + 1)) = steps (s.transfer ⟨none, true⟩) (drain n) := rfl
      rw [es]
      refine ⟨a1, by rw [a2, e2]; simp, a3.trans e3, a4, by rw [a5, e1]; rfl, by rw [a6, e1]; rfl, ?_⟩
      rw [a7, e1]
      show (s.tx.ring.inc s.tx.ring.readHead + n) % s.tx.ring.size = _
      rw [Ring.inc_eq_mod _ _ h.rh, Nat.mod_add_mod, show s.tx.ring.readHead + 1 + n = s.tx.ring.readHead + (n + 1) by omega]

/-- Pushing single bytes into a full buffer: the cells and the write head change, nothing else. -/
theorem pushes_full (ys : List Byte) (r : Ring Byte) (hf : r.avail = r.size) :
    ys.foldl Ring.push r = r.pushLoop ys := by
  induction ys generalizing r with
  | nil => rfl
  | cons y ys ih =>
    have e : r.push y = r.store y := by
      have : ¬ r.avail < r.size := by omega
      simp [Ring.push, Ring.store, this]
    show ys.foldl Ring.push (r.push y) = (r.store y).pushLoop ys
    rw [e]; exact ih _ hf

theorem pushLoop_same (ys : List Byte) (r : Ring Byte) :
    (r.pushLoop ys).readHead = r.readHead ∧ (r.pushLoop ys).avail = r.avail ∧ (r.pushLoop ys).size = r.size := by
  induction ys generalizing r with
  | nil => exact ⟨rfl, rfl, rfl⟩
  | cons y ys ih => exact ih (r.store y)

theorem pushLoop_readHead (ys : List Byte) (r : Ring Byte) (h a : Nat) :
    ({ r with readHead := h, avail := a } : Ring Byte).pushLoop ys = { r.pushLoop ys with readHead := h, avail := a } := by
  induction ys generalizing r with
  | nil => rfl
  | cons y ys ih => exact ih (r.store y)

theorem pullLoop_same (n : Nat) {r : Ring Byte} {l : List Byte} (h : Ring.Rep r l) (hn : n ≤ l.length) (hp : 0 < r.size) :
    (r.pullLoop n).1 = { r with readHead := (r.readHead + n) % r.size } := by
  induction n generalizing r l with
  | zero =>
    have : r.readHead < r.size := by have := h.rh; rcases this with k | k; exact k; omega
    rw [Nat.add_zero, Nat.mod_eq_of_lt this]; rfl
  | succ n ih =>
    cases l with
    | nil => simp at hn
    | cons x l =>
      have hrh : r.readHead < r.size := by have := h.rh; rcases this with k | k; exact k; omega
      have k := Ring.rep_advance h
      have e := ih k (by simpa using hn) hp
      have e2 := Ring.pullLoop_setAvail r.advance n (r.avail - 1)
      have ho : (r.oob || decide (r.cells.length ≤ r.readHead)) = r.oob := by
        rw [h.len]; simp; intro; omega
      show (r.advance.pullLoop n).1 = _
      have e3 : (r.advance.pullLoop n).1 = { (({ r.advance with avail := r.avail - 1 } : Ring Byte).pullLoop n).1 with avail := r.avail } := by
        have e4 := Ring.pullLoop_setAvail ({ r.advance with avail := r.avail - 1 } : Ring Byte) n r.avail
        have e5 : ({ ({ r.advance with avail := r.avail - 1 } : Ring Byte) with avail := r.avail } : Ring Byte) = r.advance := rfl
        rw [e5] at e4
        rw [e4]
      rw [e3, e]
      simp only [Ring.advance, ho, Ring.inc_eq_mod r _ hrh, Nat.mod_add_mod]
      rw [show r.readHead + 1 + n = r.readHead + (n + 1) by omega]

theorem arith (rh e n i : Nat) (he : e ≤ n) : ((rh + e) % n + (n - e + i)) % n = (rh + i) % n := by
  rw [Nat.mod_add_mod, show rh + e + (n - e + i) = rh + i + n by omega, Nat.add_mod_right]

/-- A full buffer into which further bytes are pushed: they are read first, then the newer ones of the older bytes,
then they are there again. -/
theorem full_reads {r : Ring Byte} {a b : List Byte} (h : Ring.Rep r (a ++ b)) (hf : (a ++ b).length = r.size)
    (hp : 0 < r.size) (ys : List Byte) (hy : ys.length = a.length) :
    Reads (r.pushLoop ys) (ys ++ b ++ ys) ∧ (r.pushLoop ys).writeHead = (r.readHead + ys.length) % r.size := by
  have hrh : r.readHead < r.size := by have := h.rh; rcases this with k | k; exact k; omega
  have hal : a.length + b.length = r.size := by simpa using hf
  obtain ⟨k1, _⟩ := Ring.rep_pullLoop a.length h (by simp)
  rw [pullLoop_same a.length h (by simp) hp] at k1
  have k2 := Ring.rep_pushLoop k1 ys (by show (List.drop a.length (a ++ b)).length + ys.length ≤ r.size; simp; omega)
  rw [List.drop_left] at k2
  have e := pushLoop_readHead ys r ((r.readHead + a.length) % r.size) (r.avail - a.length)
  have hz : (r.pushLoop ys).size = r.size := (pushLoop_same ys r).2.2
  have hrd : (r.pushLoop ys).readHead = r.readHead := (pushLoop_same ys r).1
  rw [e] at k2
  have glen := k2.len
  have gget := k2.get
  have gok := k2.ok
  have gwh := k2.wh
  have gav := k2.av
  dsimp only at glen gget gok gwh gav
  rw [hz] at glen gget gwh
  refine ⟨⟨by rw [hz]; exact glen, by rw [hz, hrd]; exact hrh, ?_, gok⟩, ?_⟩
  · intro i hi
    rw [hz, hrd]
    by_cases hc : i < ys.length
    · have g := gget (r.size - a.length + i) (by simp; omega)
      rw [arith _ _ _ _ (by omega)] at g
      rw [g, List.append_assoc, List.getElem?_append_left hc, List.getElem?_append_right (by omega)]
      congr 1; omega
    · have hlt : i - ys.length < (b ++ ys).length := by simp at hi ⊢; omega
      have g := gget (i - ys.length) hlt
      rw [Nat.mod_add_mod, show r.readHead + a.length + (i - ys.length) = r.readHead + i by omega] at g
      rw [g, List.append_assoc]
      exact (List.getElem?_append_right (by omega)).symm
  · rw [gwh, gav]
    simp only [List.length_append]
    rw [Nat.mod_add_mod, show r.readHead + a.length + (b.length + ys.length) = r.readHead + ys.length + r.size by omega,
      Nat.add_mod_right]

theorem print_ring (ys : List Byte) {s : Ser} (hs : s.sched = []) :
    (print s ys).tx.ring = ys.foldl Ring.push s.tx.ring ∧ (print s ys).wire = s.wire ∧ (print s ys).sched = [] := by
  induction ys generalizing s with
  | nil => exact ⟨rfl, rfl, hs⟩
  | cons y ys ih =>
    obtain ⟨e1, e2, e3⟩ := putchar_eq hs y
    obtain ⟨a1, a2, a3⟩ := ih e3
    exact ⟨by
      show (print (putchar s y) ys).tx.ring = _
      rw [a1, e1]; rfl, a2.trans e2, a3⟩

end Verif.Printf
