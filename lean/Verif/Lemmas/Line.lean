import Verif.Model.LineCircularBuffer
import Verif.Lemmas.Ring
import Verif.Spec.Line

/-! Lemmas about the line buffer. -/

namespace Verif.LineBuf

open Verif.Spec

/-- The line buffer represents the queue `l`. -/
structure Rep (b : LineBuf) (l : List Byte) : Prop where
  ring : Ring.Rep b.ring l
  lines : b.lines = l.count nl % 65536

theorem rep_init (mem : List Byte) : Rep (init mem) [] := ⟨Ring.rep_init mem, rfl⟩

theorem rep_flush {b : LineBuf} (hlen : b.ring.cells.length = b.ring.size)
    (hok : b.ring.oob = false) : Rep b.flush [] := ⟨Ring.rep_flush hlen hok, rfl⟩

@[simp] theorem size_push (b : LineBuf) (c : Byte) : (b.push c).ring.size = b.ring.size := rfl
@[simp] theorem size_pull (b : LineBuf) : b.pull.1.ring.size = b.ring.size := rfl
@[simp] theorem size_flush (b : LineBuf) : b.flush.ring.size = b.ring.size := rfl

@[simp] theorem size_pushLoop (b : LineBuf) (cs : List Byte) :
    (b.pushLoop cs).ring.size = b.ring.size := by
  induction cs generalizing b with
  | nil => rfl
  | cons c cs ih => simp [pushLoop, ih]

@[simp] theorem size_pullLoop (b : LineBuf) (n : Nat) :
    (b.pullLoop n).1.ring.size = b.ring.size := by
  induction n generalizing b with
  | zero => rfl
  | succ n ih => simp [pullLoop, ih]

@[simp] theorem size_readLineLoop (n fuel : Nat) (b : LineBuf) (c : Byte) (acc : List Byte) :
    (readLineLoop n fuel b c acc).1.ring.size = b.ring.size := by
  induction fuel generalizing b c acc with
  | zero => rfl
  | succ n ih =>
    simp only [readLineLoop]
    split
    · rw [ih]; rfl
    · rfl

theorem rep_push {b : LineBuf} {l : List Byte} (h : Rep b l) (c : Byte)
    (hr : l.length < b.ring.size) : Rep (b.push c) (l ++ [c]) := by
  refine ⟨Ring.rep_push h.ring c hr, ?_⟩
  simp only [push, h.lines, List.count_append, List.count_singleton]
  by_cases e : c = nl
  · simp [e, Nat.add_mod]
  · simp [e]

theorem rep_pushLoop {b : LineBuf} {l : List Byte} (h : Rep b l) (cs : List Byte)
    (hr : l.length + cs.length ≤ b.ring.size) : Rep (b.pushLoop cs) (l ++ cs) := by
  induction cs generalizing b l with
  | nil => simpa [pushLoop] using h
  | cons c cs ih =>
    simp only [List.length_cons] at hr
    have := ih (rep_push h c (by omega)) (by simp; omega)
    simpa [pushLoop] using this

theorem rep_pushN {b : LineBuf} {l : List Byte} (h : Rep b l) (data : List Byte) :
    Rep (b.pushN data).1 (l ++ data.take (b.ring.size - l.length)) ∧
      (b.pushN data).2 = min data.length (b.ring.size - l.length) := by
  have hn : (if data.length > b.ring.spaceAvailable then b.ring.spaceAvailable else data.length)
      = min data.length (b.ring.size - l.length) := by
    rw [h.ring.spaceAvailable]; split <;> omega
  simp only [pushN, hn, and_true]
  have e : data.take (min data.length (b.ring.size - l.length))
      = data.take (b.ring.size - l.length) := by
    rw [Nat.min_comm, ← List.take_take]; simp
  rw [e]
  have hle := h.ring.le
  exact rep_pushLoop h _ (by simp; omega)

theorem rep_pull {b : LineBuf} {c : Byte} {l : List Byte} (h : Rep b (c :: l)) :
    Rep b.pull.1 l ∧ b.pull.2 = c := by
  have hp := Ring.rep_pull h.ring
  refine ⟨⟨hp.1, ?_⟩, hp.2⟩
  simp only [pull, hp.2, h.lines, List.count_cons]
  by_cases e : c = nl
  · simp [e]; omega
  · simp [e]

theorem rep_pullLoop {b : LineBuf} {l : List Byte} (n : Nat) (h : Rep b l) (hn : n ≤ l.length) :
    Rep (b.pullLoop n).1 (l.drop n) ∧ (b.pullLoop n).2 = l.take n := by
  induction n generalizing b l with
  | zero => simpa [pullLoop] using h
  | succ n ih =>
    match l, h with
    | [], _ => simp at hn
    | c :: l, h =>
      have hp := rep_pull h
      have := ih hp.1 (by simpa using hn)
      simpa [pullLoop, hp.2] using this

theorem rep_pullN {b : LineBuf} {l : List Byte} (h : Rep b l) (n : Nat) :
    Rep (b.pullN n).1 (l.drop n) ∧ (b.pullN n).2 = l.take n := by
  have hn : (if n > b.ring.bytesAvailable then b.ring.bytesAvailable else n) = min n l.length := by
    rw [h.ring.bytesAvailable]; split <;> omega
  simp only [pullN, hn]
  have := rep_pullLoop (min n l.length) h (by omega)
  have e1 : l.take (min n l.length) = l.take n := by rw [← List.take_take]; simp
  have e2 : l.drop (min n l.length) = l.drop n := by
    by_cases hh : n ≤ l.length
    · rw [Nat.min_eq_left hh]
    · rw [Nat.min_eq_right (by omega), List.drop_of_length_le (Nat.le_refl _),
        List.drop_of_length_le (by omega)]
  rwa [e1, e2] at this

theorem rep_readLineLoop (n fuel : Nat) {b : LineBuf} {l : List Byte} (h : Rep b l)
    (hf : l.length < fuel) (c : Byte) (acc : List Byte) (hacc : acc.length ≤ n) :
    if c = nl then readLineLoop n fuel b c acc = (b, acc.reverse)
    else Rep (readLineLoop n fuel b c acc).1 (dropLine l) ∧
      (readLineLoop n fuel b c acc).2 = acc.reverse ++ (takeLine l).take (n - acc.length) := by
  induction fuel generalizing b l c acc with
  | zero => omega
  | succ fuel ih =>
    split
    · rename_i hc; simp [readLineLoop, hc]
    · rename_i hc
      match l, h with
      | [], h =>
        have : b.ring.isEmpty = true := by simp [Ring.isEmpty, h.ring.av]
        simp [readLineLoop, this, takeLine, dropLine, h]
      | d :: l, h =>
        have he : b.ring.isEmpty = false := by simp [Ring.isEmpty, h.ring.av]
        have hp := rep_pull h
        simp only [List.length_cons] at hf
        have := ih hp.1 (by omega) d (if acc.length < n then d :: acc else acc)
          (by by_cases ha : acc.length < n <;> simp only [ha, if_true, if_false, List.length_cons] <;> omega)
        have hstep : readLineLoop n (fuel + 1) b c acc = readLineLoop n fuel b.pull.1 d
            (if acc.length < n then d :: acc else acc) := by
          simp [readLineLoop, he, hc, hp.2]
        rw [hstep]
        simp only [takeLine, dropLine]
        by_cases hd : d = nl
        · simp only [hd, if_true] at this ⊢
          rw [this]
          refine ⟨hp.1, ?_⟩
          by_cases ha : acc.length < n
          · simp only [ha, if_true, List.reverse_cons]
            rw [List.take_of_length_le (by simp; omega)]
          · have : n - acc.length = 0 := by omega
            simp [ha, this]
        · simp only [hd, if_false] at this ⊢
          refine ⟨this.1, ?_⟩
          rw [this.2]
          by_cases ha : acc.length < n
          · simp only [ha, if_true, List.reverse_cons, List.length_cons, List.append_assoc]
            obtain ⟨k, hk⟩ : ∃ k, n - acc.length = k + 1 := ⟨n - acc.length - 1, by omega⟩
            rw [hk, List.take_succ_cons, show n - (acc.length + 1) = k by omega]
            rfl
          · have : n - acc.length = 0 := by omega
            simp [ha, this]

theorem rep_readLine {b : LineBuf} {l : List Byte} (h : Rep b l) (n : Nat) :
    Rep (b.readLine n).1 (dropLine l) ∧ (b.readLine n).2 = (takeLine l).take n := by
  have := rep_readLineLoop n (b.ring.bytesAvailable + 1) h (by rw [h.ring.bytesAvailable]; omega)
    0 [] (by simp)
  rw [if_neg (by decide)] at this
  simpa [readLine] using this

/-! Memory safety. -/

theorem bnd_push {b : LineBuf} (h : Ring.Bnd b.ring) (c : Byte) : Ring.Bnd (b.push c).ring :=
  Ring.bnd_push h c

theorem bnd_pull {b : LineBuf} (h : Ring.Bnd b.ring) : Ring.Bnd b.pull.1.ring := Ring.bnd_pull h

end Verif.LineBuf
