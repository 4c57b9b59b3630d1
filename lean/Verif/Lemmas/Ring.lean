import Verif.Model.CircularBuffer

/-! Lemmas about the circular buffer: well-formedness and the abstraction to a list. -/

namespace Verif.Ring

variable {α : Type}

/-- Memory safety invariant, preserved by every call whatsoever. -/
structure Bnd (r : Ring α) : Prop where
  len : r.cells.length = r.size
  pos : 0 < r.size
  wh : r.writeHead < r.size
  rh : r.readHead < r.size
  av : r.avail ≤ r.size
  ok : r.oob = false

/-- `Rep r l`: the buffer represents the queue `l` (oldest first). Also covers capacity 0. -/
structure Rep (r : Ring α) (l : List α) : Prop where
  len : r.cells.length = r.size
  rh : r.readHead < r.size ∨ (r.size = 0 ∧ r.readHead = 0)
  av : r.avail = l.length
  le : l.length ≤ r.size
  wh : r.writeHead = (r.readHead + r.avail) % r.size
  get : ∀ i, i < l.length → r.cells[(r.readHead + i) % r.size]? = l[i]?
  ok : r.oob = false

/-- Abstraction function: contents, oldest first. -/
def toList (r : Ring α) : List α :=
  (List.range r.avail).filterMap fun i => r.cells[(r.readHead + i) % r.size]?

theorem inc_eq_mod (r : Ring α) (h : Nat) (hh : h < r.size) : r.inc h = (h + 1) % r.size := by
  unfold inc
  split
  · have : h + 1 = r.size := by omega
    simp [this]
  · rw [Nat.mod_eq_of_lt]; omega

theorem Rep.toList {r : Ring α} {l : List α} (h : Rep r l) : r.toList = l := by
  unfold Ring.toList
  rw [h.av]
  have key : ∀ n, n ≤ l.length →
      (List.range n).filterMap (fun i => r.cells[(r.readHead + i) % r.size]?) = l.take n := by
    intro n
    induction n with
    | zero => intro _; simp
    | succ n ih =>
      intro hn
      rw [List.range_succ, List.filterMap_append, ih (by omega)]
      have := h.get n (by omega)
      have hl : l[n]? = some l[n] := List.getElem?_eq_getElem (by omega)
      simp only [List.filterMap_cons, List.filterMap_nil, this, hl]
      rw [List.take_add_one, hl]; rfl
  simpa using key l.length (Nat.le_refl _)

theorem Rep.unique {r : Ring α} {l l' : List α} (h : Rep r l) (h' : Rep r l') : l = l' :=
  h.toList.symm.trans h'.toList

theorem rep_init (mem : List α) : Rep (init mem) [] where
  len := rfl
  rh := by
    show 0 < mem.length ∨ (mem.length = 0 ∧ 0 = 0)
    omega
  av := rfl
  le := Nat.zero_le _
  wh := by simp [init]
  get := by intro i hi; simp at hi
  ok := rfl

theorem rep_flush {r : Ring α} (hlen : r.cells.length = r.size) (hok : r.oob = false) :
    Rep r.flush [] where
  len := hlen
  rh := by
    show 0 < r.size ∨ (r.size = 0 ∧ 0 = 0)
    omega
  av := rfl
  le := Nat.zero_le _
  wh := by simp [flush]
  get := by intro i hi; simp at hi
  ok := hok

theorem Rep.bytesAvailable {r : Ring α} {l : List α} (h : Rep r l) :
    r.bytesAvailable = l.length := h.av

theorem Rep.spaceAvailable {r : Ring α} {l : List α} (h : Rep r l) :
    r.spaceAvailable = r.size - l.length := by
  rw [Ring.spaceAvailable, h.av]

theorem Rep.bnd {r : Ring α} {l : List α} (h : Rep r l) (hp : 0 < r.size) : Bnd r where
  len := h.len
  pos := hp
  wh := by rw [h.wh]; exact Nat.mod_lt _ hp
  rh := by rcases h.rh with h | h <;> omega
  av := by rw [h.av]; exact h.le
  ok := h.ok

/-- The index arithmetic used everywhere: distinct offsets below `n` give distinct cells. -/
theorem mod_add_ne {a i j n : Nat} (hi : i < n) (hj : j < n) (hij : i ≠ j) :
    (a + i) % n ≠ (a + j) % n := by
  intro h
  have hn : 0 < n := by omega
  apply hij
  have h1 : (a + i) % n = (a % n + i) % n := by rw [Nat.add_mod, Nat.mod_eq_of_lt hi]
  have h2 : (a + j) % n = (a % n + j) % n := by rw [Nat.add_mod, Nat.mod_eq_of_lt hj]
  have ha : a % n < n := Nat.mod_lt _ hn
  rw [h1, h2] at h
  have e1 : (a % n + i) % n = if a % n + i < n then a % n + i else a % n + i - n := by
    split
    · exact Nat.mod_eq_of_lt ‹_›
    · rw [Nat.mod_eq_sub_mod (by omega), Nat.mod_eq_of_lt (by omega)]
  have e2 : (a % n + j) % n = if a % n + j < n then a % n + j else a % n + j - n := by
    split
    · exact Nat.mod_eq_of_lt ‹_›
    · rw [Nat.mod_eq_sub_mod (by omega), Nat.mod_eq_of_lt (by omega)]
  rw [e1, e2] at h
  split at h <;> split at h <;> omega

/-- Storing one element and bumping the counter appends, if there is room. -/
theorem rep_store {r : Ring α} {l : List α} (h : Rep r l) (x : α) (hr : l.length < r.size) :
    Rep { r.store x with avail := r.avail + 1 } (l ++ [x]) := by
  have hb := h.bnd (by omega)
  have hw := hb.wh
  have hlen := h.len
  refine ⟨?_, ?_, ?_, ?_, ?_, ?_, ?_⟩
  · simpa [store] using hlen
  · simpa [store] using h.rh
  · simp [h.av]
  · simp [store]; omega
  · simp only [store]
    rw [inc_eq_mod r _ hw, h.wh]
    simp [Nat.add_assoc]
  · intro i hi
    simp only [store]
    simp only [List.length_append, List.length_cons, List.length_nil] at hi
    by_cases e : i = l.length
    · subst e
      rw [List.getElem?_set]
      have : r.writeHead = (r.readHead + l.length) % r.size := by rw [h.wh, h.av]
      simp [← this]; omega
    · have hi' : i < l.length := by omega
      rw [List.getElem?_set_ne, h.get i hi', List.getElem?_append_left hi']
      rw [h.wh, h.av]
      exact mod_add_ne hr (by omega) (by omega)
  · simp only [store, h.ok, Bool.false_or, decide_eq_false_iff_not]; omega

theorem rep_push {r : Ring α} {l : List α} (h : Rep r l) (x : α) (hr : l.length < r.size) :
    Rep (r.push x) (l ++ [x]) := by
  have := rep_store h x hr
  have e : r.push x = { r.store x with avail := r.avail + 1 } := by
    have : r.avail < r.size := by rw [h.av]; exact hr
    simp [push, store, this]
  rw [e]; exact this

@[simp] theorem size_store (r : Ring α) (x : α) : (r.store x).size = r.size := rfl
@[simp] theorem avail_store (r : Ring α) (x : α) : (r.store x).avail = r.avail := rfl
@[simp] theorem size_push (r : Ring α) (x : α) : (r.push x).size = r.size := rfl
@[simp] theorem size_flush (r : Ring α) : (r.flush).size = r.size := rfl
@[simp] theorem size_advance (r : Ring α) : (r.advance).size = r.size := rfl
@[simp] theorem avail_advance (r : Ring α) : (r.advance).avail = r.avail := rfl
@[simp] theorem size_pull [Inhabited α] (r : Ring α) : (r.pull).1.size = r.size := rfl
@[simp] theorem size_peek [Inhabited α] (r : Ring α) : (r.peek).1.size = r.size := rfl

theorem pushLoop_setAvail (r : Ring α) (xs : List α) (n : Nat) :
    ({ r with avail := n } : Ring α).pushLoop xs = { r.pushLoop xs with avail := n } := by
  induction xs generalizing r with
  | nil => rfl
  | cons x xs ih =>
    simp only [pushLoop]
    rw [← ih (r.store x)]; rfl

@[simp] theorem avail_pushLoop (r : Ring α) (xs : List α) : (r.pushLoop xs).avail = r.avail := by
  induction xs generalizing r with
  | nil => rfl
  | cons x xs ih => simp [pushLoop, ih]

@[simp] theorem size_pushLoop (r : Ring α) (xs : List α) : (r.pushLoop xs).size = r.size := by
  induction xs generalizing r with
  | nil => rfl
  | cons x xs ih => simp [pushLoop, ih]

theorem rep_pushLoop {r : Ring α} {l : List α} (h : Rep r l) (xs : List α)
    (hr : l.length + xs.length ≤ r.size) :
    Rep { r.pushLoop xs with avail := r.avail + xs.length } (l ++ xs) := by
  induction xs generalizing r l with
  | nil => simpa [pushLoop] using h
  | cons x xs ih =>
    simp only [List.length_cons] at hr
    have h1 := rep_store h x (by omega)
    have h2 := ih h1 (by simp; omega)
    rw [pushLoop_setAvail] at h2
    simp only [List.append_assoc, List.singleton_append] at h2
    have e : r.avail + 1 + xs.length = r.avail + (x :: xs).length := by simp; omega
    simp only [pushLoop]
    rw [e] at h2
    exact h2

theorem rep_pushN {r : Ring α} {l : List α} (h : Rep r l) (data : List α) :
    Rep (r.pushN data).1 (l ++ data.take (r.size - l.length)) ∧
      (r.pushN data).2 = min data.length (r.size - l.length) := by
  have hn : (if data.length > r.spaceAvailable then r.spaceAvailable else data.length)
      = min data.length (r.size - l.length) := by
    rw [h.spaceAvailable]; split <;> omega
  simp only [pushN, hn, and_true, avail_pushLoop]
  have e : data.take (min data.length (r.size - l.length)) = data.take (r.size - l.length) := by
    rw [Nat.min_comm, ← List.take_take]; simp
  rw [e]
  have hl : (data.take (r.size - l.length)).length = min data.length (r.size - l.length) := by
    simp [Nat.min_comm]
  rw [← hl]
  exact rep_pushLoop h _ (by rw [hl]; have := h.le; omega)

theorem rep_load [Inhabited α] {r : Ring α} {x : α} {l : List α} (h : Rep r (x :: l)) :
    r.load = x := by
  have hg := h.get 0 (by simp)
  have hp : 0 < r.size := by have := h.le; simp at this; omega
  have := (h.bnd hp).rh
  rw [Nat.add_zero, Nat.mod_eq_of_lt this] at hg
  simp [load, List.getD_eq_getElem?_getD, hg]

theorem rep_advance {r : Ring α} {x : α} {l : List α} (h : Rep r (x :: l)) :
    Rep { r.advance with avail := r.avail - 1 } l := by
  have hle := h.le
  simp only [List.length_cons] at hle
  have hb := h.bnd (by omega)
  have hr := hb.rh
  have hpos := hb.pos
  have hav := h.av
  simp only [List.length_cons] at hav
  refine ⟨h.len, ?_, ?_, ?_, ?_, ?_, ?_⟩
  · left; simp only [advance]; rw [inc_eq_mod r _ hr]; exact Nat.mod_lt _ hpos
  · simp; omega
  · simp [advance]; omega
  · simp only [advance]
    rw [inc_eq_mod r _ hr, h.wh, Nat.mod_add_mod]
    congr 1; omega
  · intro i hi
    simp only [advance]
    have := h.get (i + 1) (by simp; omega)
    rw [inc_eq_mod r _ hr, Nat.mod_add_mod]
    rw [show r.readHead + 1 + i = r.readHead + (i + 1) by omega, this]
    simp
  · have := h.len
    simp only [advance, h.ok, Bool.false_or, decide_eq_false_iff_not]; omega

theorem rep_pull [Inhabited α] {r : Ring α} {x : α} {l : List α} (h : Rep r (x :: l)) :
    Rep r.pull.1 l ∧ r.pull.2 = x := by
  have hav := h.av
  simp only [List.length_cons] at hav
  refine ⟨?_, rep_load h⟩
  have e : r.pull.1 = { r.advance with avail := r.avail - 1 } := by
    have : r.avail > 0 := by omega
    simp [pull, this]
  rw [e]; exact rep_advance h

theorem rep_peek [Inhabited α] {r : Ring α} {x : α} {l : List α} (h : Rep r (x :: l)) :
    r.peek.1 = r ∧ r.peek.2 = x := by
  refine ⟨?_, rep_load h⟩
  have hle := h.le
  simp only [List.length_cons] at hle
  have hb := h.bnd (by omega)
  have := hb.rh
  have := hb.len
  have hd : decide (r.cells.length ≤ r.readHead) = false := by simp; omega
  simp only [peek, hd, Bool.or_false]

theorem pullLoop_setAvail [Inhabited α] (r : Ring α) (n m : Nat) :
    ({ r with avail := m } : Ring α).pullLoop n =
      ({ (r.pullLoop n).1 with avail := m }, (r.pullLoop n).2) := by
  induction n generalizing r with
  | zero => rfl
  | succ n ih =>
    simp only [pullLoop]
    have := ih r.advance
    rw [show ({ r with avail := m } : Ring α).advance = { r.advance with avail := m } from rfl,
      this]
    rfl

@[simp] theorem avail_pullLoop [Inhabited α] (r : Ring α) (n : Nat) :
    (r.pullLoop n).1.avail = r.avail := by
  induction n generalizing r with
  | zero => rfl
  | succ n ih => simp [pullLoop, ih]

@[simp] theorem size_pullLoop [Inhabited α] (r : Ring α) (n : Nat) :
    (r.pullLoop n).1.size = r.size := by
  induction n generalizing r with
  | zero => rfl
  | succ n ih => simp [pullLoop, ih]

theorem rep_pullLoop [Inhabited α] {r : Ring α} {l : List α} (n : Nat) (h : Rep r l)
    (hn : n ≤ l.length) :
    Rep { (r.pullLoop n).1 with avail := r.avail - n } (l.drop n) ∧
      (r.pullLoop n).2 = l.take n := by
  induction n generalizing r l with
  | zero => simpa [pullLoop] using h
  | succ n ih =>
    match l, h with
    | [], _ => simp at hn
    | x :: l, h =>
      simp only [List.length_cons] at hn
      have h1 := rep_advance h
      have h2 := ih h1 (by omega)
      rw [pullLoop_setAvail] at h2
      refine ⟨?_, ?_⟩
      · have := h2.1
        simp only [List.drop_succ_cons]
        rw [show r.avail - (n + 1) = r.avail - 1 - n by omega]
        simpa [pullLoop] using this
      · simp only [pullLoop, List.take_succ_cons]
        rw [rep_load h, h2.2]

theorem rep_pullN [Inhabited α] {r : Ring α} {l : List α} (h : Rep r l) (n : Nat) :
    Rep (r.pullN n).1 (l.drop n) ∧ (r.pullN n).2 = l.take n := by
  have hn : (if n > r.bytesAvailable then r.bytesAvailable else n) = min n l.length := by
    rw [h.bytesAvailable]; split <;> omega
  simp only [pullN, hn, avail_pullLoop]
  have := rep_pullLoop (min n l.length) h (by omega)
  have e1 : l.take (min n l.length) = l.take n := by
    rw [← List.take_take]; simp
  have e2 : l.drop (min n l.length) = l.drop n := by
    by_cases hh : n ≤ l.length
    · rw [Nat.min_eq_left hh]
    · rw [Nat.min_eq_right (by omega), List.drop_of_length_le (Nat.le_refl _),
        List.drop_of_length_le (by omega)]
  rw [e1, e2] at this
  exact this

@[simp] theorem size_pushN (r : Ring α) (xs : List α) : (r.pushN xs).1.size = r.size := by
  simp [pushN]
@[simp] theorem size_pullN [Inhabited α] (r : Ring α) (n : Nat) : (r.pullN n).1.size = r.size := by
  simp [pullN]

/-! ### Memory safety for arbitrary calls -/

theorem inc_lt {r : Ring α} (hp : 0 < r.size) (h : Nat) : r.inc h < r.size := by
  unfold inc; split <;> omega

theorem bnd_store {r : Ring α} (h : Bnd r) (x : α) : Bnd (r.store x) where
  len := by simp [store, h.len]
  pos := h.pos
  wh := by simp only [store]; exact inc_lt h.pos _
  rh := h.rh
  av := h.av
  ok := by
    have := h.len; have := h.wh
    simp only [store, h.ok, Bool.false_or, decide_eq_false_iff_not]; omega

theorem bnd_setAvail {r : Ring α} (h : Bnd r) {n : Nat} (hn : n ≤ r.size) :
    Bnd { r with avail := n } := ⟨h.len, h.pos, h.wh, h.rh, hn, h.ok⟩

theorem bnd_push {r : Ring α} (h : Bnd r) (x : α) : Bnd (r.push x) := by
  have h1 := bnd_store h x
  refine bnd_setAvail h1 ?_
  have := h1.av
  split <;> omega

theorem bnd_pushLoop {r : Ring α} (h : Bnd r) (xs : List α) : Bnd (r.pushLoop xs) := by
  induction xs generalizing r with
  | nil => exact h
  | cons x xs ih => exact ih (bnd_store h x)

theorem bnd_pushN {r : Ring α} (h : Bnd r) (xs : List α) : Bnd (r.pushN xs).1 := by
  have h1 := bnd_pushLoop h (xs.take (if xs.length > r.spaceAvailable then r.spaceAvailable else xs.length))
  refine bnd_setAvail h1 ?_
  have := h.av
  have hs : r.spaceAvailable = r.size - r.avail := rfl
  simp only [avail_pushLoop, size_pushLoop]
  split <;> omega

theorem bnd_advance {r : Ring α} (h : Bnd r) : Bnd r.advance where
  len := h.len
  pos := h.pos
  wh := h.wh
  rh := by simp only [advance]; exact inc_lt h.pos _
  av := h.av
  ok := by
    have := h.len; have := h.rh
    simp only [advance, h.ok, Bool.false_or, decide_eq_false_iff_not]; omega

theorem bnd_pull [Inhabited α] {r : Ring α} (h : Bnd r) : Bnd r.pull.1 := by
  have h1 := bnd_advance h
  refine bnd_setAvail h1 ?_
  have := h1.av
  split <;> omega

theorem bnd_pullLoop [Inhabited α] {r : Ring α} (h : Bnd r) (n : Nat) : Bnd (r.pullLoop n).1 := by
  induction n generalizing r with
  | zero => exact h
  | succ n ih => exact ih (bnd_advance h)

theorem bnd_pullN [Inhabited α] {r : Ring α} (h : Bnd r) (n : Nat) : Bnd (r.pullN n).1 := by
  have h1 := bnd_pullLoop h (if n > r.bytesAvailable then r.bytesAvailable else n)
  refine bnd_setAvail h1 ?_
  have := h.av
  simp only [avail_pullLoop, size_pullLoop]
  omega

theorem bnd_peek [Inhabited α] {r : Ring α} (h : Bnd r) : Bnd r.peek.1 where
  len := h.len
  pos := h.pos
  wh := h.wh
  rh := h.rh
  av := h.av
  ok := by
    have := h.len; have := h.rh
    simp only [peek, h.ok, Bool.false_or, decide_eq_false_iff_not]; omega

theorem bnd_flush {r : Ring α} (h : Bnd r) : Bnd r.flush :=
  ⟨h.len, h.pos, h.pos, h.pos, Nat.zero_le _, h.ok⟩

theorem bnd_init {mem : List α} (h : mem ≠ []) : Bnd (init mem) where
  len := rfl
  pos := List.length_pos_iff.mpr h
  wh := List.length_pos_iff.mpr h
  rh := List.length_pos_iff.mpr h
  av := Nat.zero_le _
  ok := rfl

/-! ### Raw reads -/

/-- A bulk read delivers the cells following the read head, whatever the state. -/
theorem pullLoop_eq_map [Inhabited α] (r : Ring α) (n : Nat) (h : r.readHead < r.size) :
    (r.pullLoop n).2 =
      (List.range n).map fun i => r.cells.getD ((r.readHead + i) % r.size) default := by
  induction n generalizing r with
  | zero => rfl
  | succ n ih =>
    have hp : 0 < r.size := by omega
    simp only [pullLoop]
    rw [ih r.advance (inc_lt hp _), List.range_succ_eq_map, List.map_cons, List.map_map]
    congr 1
    · simp [load, Nat.mod_eq_of_lt h]
    · apply List.map_congr_left
      intro i _
      simp only [advance, Function.comp]
      rw [inc_eq_mod r _ h, Nat.mod_add_mod]
      congr 2; omega

theorem pushLoop_setReadHead (r : Ring α) (xs : List α) (n : Nat) :
    ({ r with readHead := n } : Ring α).pushLoop xs = { r.pushLoop xs with readHead := n } := by
  induction xs generalizing r with
  | nil => rfl
  | cons x xs ih =>
    simp only [pushLoop]
    rw [← ih (r.store x)]; rfl

@[simp] theorem readHead_pushLoop (r : Ring α) (xs : List α) :
    (r.pushLoop xs).readHead = r.readHead := by
  induction xs generalizing r with
  | nil => rfl
  | cons x xs ih => simp [pushLoop, ih, store]

end Verif.Ring
