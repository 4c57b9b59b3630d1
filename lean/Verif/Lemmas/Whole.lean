import Verif.Spec.Whole
import Verif.Lemmas.EffSim
import Verif.Lemmas.EffWifi
import Verif.Lemmas.MacQuery

/-! Commands are accepted whole when they fit into the transmit buffer. -/

namespace Verif

open Spec

namespace Spec

theorem outLen_append (a b : List Ev) : outLen (a ++ b) = outLen a + outLen b := by
  induction a with
  | nil => simp [outLen]
  | cons e a ih => cases e <;> simp [outLen, ih, Nat.add_assoc]

theorem whole_append {a b : List Ev} : Whole (a ++ b) ↔ Whole a ∧ Whole b := by
  simp only [Whole, List.mem_append]
  exact ⟨fun h => ⟨fun w g x => h w g (x.elim (fun y => .inl (.inl y)) fun y => .inr (.inl y)),
    fun w g x => h w g (x.elim (fun y => .inl (.inr y)) fun y => .inr (.inr y))⟩,
    fun h w g x => by
      rcases x with (x | x) | (x | x)
      · exact h.1 w g (.inl x)
      · exact h.2 w g (.inl x)
      · exact h.1 w g (.inr x)
      · exact h.2 w g (.inr x)⟩

theorem strings_append {a b : List Ev} : Strings (a ++ b) ↔ Strings a ∧ Strings b := by
  simp only [Strings, List.mem_append]
  exact ⟨fun h => ⟨fun w g x => h w g (x.elim (fun y => .inl (.inl y)) fun y => .inr (.inl y)),
    fun w g x => h w g (x.elim (fun y => .inl (.inr y)) fun y => .inr (.inr y))⟩,
    fun h w g x => by
      rcases x with (x | x) | (x | x)
      · exact h.1 w g (.inl x)
      · exact h.2 w g (.inl x)
      · exact h.1 w g (.inr x)
      · exact h.2 w g (.inr x)⟩

end Spec

namespace Dev

variable {S R X : Type}

/-- Everything said from `d` to `e` was accepted if it was not longer than `n` bytes. -/
def Short (n : Nat) (d e : Dev S R X) : Prop :=
  ∃ new, e.trace = d.trace ++ new ∧ (Strings new → outLen new ≤ n → Whole new)

/-- The same with the free space in the transmit buffer. -/
def Room (d e : Dev S R X) : Prop :=
  ∃ new, e.trace = d.trace ++ new ∧
    (Strings new → outLen new ≤ d.ser.txFree → Whole new ∧ d.ser.txFree ≤ e.ser.txFree + outLen new)

theorem Room.short {d e : Dev S R X} (h : Room d e) {n : Nat} (hn : n ≤ d.ser.txFree) : Short n d e := by
  obtain ⟨new, h1, h2⟩ := h
  exact ⟨new, h1, fun hs hl => (h2 hs (Nat.le_trans hl hn)).1⟩

theorem whole_none {l : List Ev} (h : ∀ e ∈ l, ∀ w g, e ≠ .cmd w g ∧ e ≠ .arg w g) : Whole l :=
  fun w g x => x.elim (fun y => absurd rfl (h _ y w g).1) fun y => absurd rfl (h _ y w g).2

theorem Room.silent {d e : Dev S R X} (new : List Ev) (ht : e.trace = d.trace ++ new)
    (hn : ∀ e ∈ new, ∀ w g, e ≠ .cmd w g ∧ e ≠ .arg w g) (hf : d.ser.txFree ≤ e.ser.txFree + outLen new) :
    Room d e :=
  ⟨new, ht, fun _ _ => ⟨whole_none hn, hf⟩⟩

theorem Room.trans {a b c : Dev S R X} (h : Room a b) (k : Room b c) : Room a c := by
  obtain ⟨n1, t1, h1⟩ := h
  obtain ⟨n2, t2, h2⟩ := k
  refine ⟨n1 ++ n2, by rw [t2, t1, List.append_assoc], fun hs hl => ?_⟩
  rw [outLen_append] at hl ⊢
  obtain ⟨s1, s2⟩ := strings_append.mp hs
  have g1 := h1 s1 (by omega)
  have g2 := h2 s2 (by omega)
  exact ⟨whole_append.mpr ⟨g1.1, g2.1⟩, by omega⟩

theorem Short.trans {n : Nat} {a b c : Dev S R X} (h : Short n a b) (k : Short n b c) : Short n a c := by
  obtain ⟨n1, t1, h1⟩ := h
  obtain ⟨n2, t2, h2⟩ := k
  refine ⟨n1 ++ n2, by rw [t2, t1, List.append_assoc], fun hs hl => ?_⟩
  rw [outLen_append] at hl
  obtain ⟨s1, s2⟩ := strings_append.mp hs
  exact whole_append.mpr ⟨h1 s1 (by omega), h2 s2 (by omega)⟩

theorem Short.silent {n : Nat} {d e : Dev S R X} (new : List Ev) (ht : e.trace = d.trace ++ new)
    (hn : ∀ e ∈ new, ∀ w g, e ≠ .cmd w g ∧ e ≠ .arg w g) : Short n d e :=
  ⟨new, ht, fun _ _ => whole_none hn⟩

theorem Short.same {n : Nat} {d e : Dev S R X} (ht : e.trace = d.trace) : Short n d e :=
  .silent [] (by rw [ht, List.append_nil]) (by simp)

theorem flushLoop_txFree (s : Ser) (n : Nat) : s.txFree ≤ (flushLoop s n).1.txFree := by
  induction n generalizing s with
  | zero => exact Nat.le_refl _
  | succ n ih =>
    have h1 := Ser.txFree_bytesAvailable s
    unfold flushLoop
    dsimp only
    split
    · exact h1
    · have h2 : s.bytesAvailable.1.txFree ≤ s.bytesAvailable.1.read1.1.txFree := Nat.le_trans (Ser.txFree_sync _) (Nat.le_refl _)
      exact Nat.le_trans (Nat.le_trans h1 h2) (ih _)

theorem readLoop_txFree (s : Ser) (n : Nat) : s.txFree ≤ (s.readLoop n).1.txFree := by
  induction n generalizing s with
  | zero => exact Nat.le_refl _
  | succ n ih =>
    have h2 : s.txFree ≤ s.read1.1.txFree := Nat.le_trans (Ser.txFree_sync _) (Nat.le_refl _)
    exact Nat.le_trans h2 (ih _)

/-- Sequences of primitive operations send commands whole. -/
theorem Eff.room {x : List Byte → Byte → Prop} {st : Bool} {d d' : Dev S R X} (h : Eff x st d d') : Room d d' := by
  induction h with
  | ctl h => exact .silent [] (by simp [h.trace]) (by simp) (by rw [h.ser]; simp [outLen])
  | cmd d s =>
    refine ⟨[.cmd s (s.take (d.ser.writeStr s).2)], rfl, fun hs hl => ?_⟩
    have h1 := Ser.writeStr_all d.ser s (hs _ _ (.inl (List.mem_singleton.mpr rfl))) hl
    refine ⟨?_, h1.2⟩
    rw [h1.1, List.take_length]
    intro w g x; simp at x; simp [x]
  | arg d s =>
    refine ⟨[.arg s (s.take (d.ser.writeStr s).2)], rfl, fun hs hl => ?_⟩
    have h1 := Ser.writeStr_all d.ser s (hs _ _ (.inr (List.mem_singleton.mpr rfl))) hl
    refine ⟨?_, h1.2⟩
    rw [h1.1, List.take_length]
    intro w g x; simp at x; simp [x]
  | cmdN d s =>
    refine ⟨[.cmd s (s.take (d.ser.write s).2)], rfl, fun hs hl => ?_⟩
    have h1 := Ser.write_all d.ser s hl
    refine ⟨?_, h1.2⟩
    rw [h1.1, List.take_length]
    intro w g x; simp at x; simp [x]
  | argN d s =>
    refine ⟨[.arg s (s.take (d.ser.write s).2)], rfl, fun hs hl => ?_⟩
    have h1 := Ser.write_all d.ser s hl
    refine ⟨?_, h1.2⟩
    rw [h1.1, List.take_length]
    intro w g x; simp at x; simp [x]
  | askSpace d => exact .silent [] (by simp [Dev.askSpace]) (by simp) (Ser.txFree_sync _)
  | askAvail d => exact .silent [] (by simp [Dev.askAvail]) (by simp) (Ser.txFree_sync _)
  | flushSer d => exact .silent [.flush] rfl (by simp) (Ser.txFree_sync d.ser)
  | flushReadBuffer d _ => exact .silent [.drop _] rfl (by simp) (flushLoop_txFree _ _)
  | sendData d => exact .silent [.pay _] rfl (by simp) (Ser.txFree_writeLoop _ _)
  | receive d _ =>
    unfold Dev.receive
    split
    · exact .silent [.data _] rfl (by simp) (Nat.le_trans (Ser.txFree_sync _) (readLoop_txFree d.ser.bytesAvailable.1 _))
    · exact .silent [] (by simp [Dev.askAvail]) (by simp) (Ser.txFree_sync _)
  | fillLine d stop hs =>
    have hf := fillLine_txFree d stop
    revert hf
    unfold Dev.fillLine
    dsimp only
    split
    · split
      · exact fun hf => .silent [] (by simp) (by simp) hf
      · exact fun hf => .silent [.line _] rfl (by simp) hf
    · exact fun hf => .silent [] (by simp) (by simp) hf
  | trans _ _ ih1 ih2 => exact ih1.trans ih2

theorem short_fillLine (n : Nat) (d : Dev S R X) (stop : Mem → Nat → Byte → Option R) :
    Short n d (d.fillLine stop).1 := by
  unfold Dev.fillLine
  dsimp only
  split
  · split
    · exact .same rfl
    · exact .silent [.line _] rfl (by simp)
  · exact .same rfl

end Dev

open Dev

namespace Sim7x00

theorem eff_sendNext (d : D) : Eff NoHeader false d (sendNext d) := by
  unfold sendNext
  split
  · eff
  · have h1 := SimDev.eff_sendIDRequest (Eff.refl (x := NoHeader) (st := false) d) iccidCommand
    dsimp only
    split
    · eff
    · exact h1.trans (eff_act _ (by intro h; cases h))

theorem short_proceed (d : D) : Short 20 d (proceed d) := by
  unfold proceed
  split
  · exact .same rfl
  · split
    · exact .same rfl
    · rename_i hsp
      have h := (eff_sendNext d.askSpace).room
      exact (Short.same (n := 20) (d := d) (e := d.askSpace) rfl).trans (h.short (by rw [Dev.txFree_askSpace]; omega))

theorem short_work (p : Platform) (d : D) : Short 20 d (work p d) := by
  have h1 : Short 20 d (SimDev.fillLineBuffer d).1 := short_fillLine 20 d _
  unfold work
  dsimp only
  split
  · have h2 := h1.trans (.same (e := (parseLine p (SimDev.fillLineBuffer d).1).1) (parseLine_trace p _))
    split
    · exact h2
    · exact h2.trans (short_proceed _)
  · refine h1.trans (Short.trans ?_ (short_proceed _))
    unfold flushIfDisconnecting
    split
    · exact .silent [.drop _] rfl (by simp)
    · exact .same rfl

end Sim7x00

namespace Sim800

theorem eff_sendNext (d : D) : Eff NoHeader false d (sendNext d) := by
  unfold sendNext
  split
  · eff
  · have h1 := SimDev.eff_sendIDRequest (Eff.refl (x := NoHeader) (st := false) d) iccidCommand
    dsimp only
    split
    · eff
    · exact h1.trans (eff_act _ (by intro h; cases h))

theorem short_proceed (d : D) : Short 20 d (proceed d) := by
  unfold proceed
  split
  · exact .same rfl
  · split
    · exact .same rfl
    · rename_i hsp
      have h := (eff_sendNext d.askSpace).room
      exact (Short.same (n := 20) (d := d) (e := d.askSpace) rfl).trans (h.short (by rw [Dev.txFree_askSpace]; omega))

theorem short_work (p : Platform) (d : D) : Short 20 d (work p d) := by
  have h1 : Short 20 d (SimDev.fillLineBuffer d).1 := short_fillLine 20 d _
  unfold work
  dsimp only
  split
  · have h2 := h1.trans (.same (e := (parseLine p (SimDev.fillLineBuffer d).1).1) (parseLine_trace p _))
    split
    · exact h2
    · exact h2.trans (short_proceed _)
  · refine h1.trans (Short.trans ?_ (short_proceed _))
    unfold flushIfDisconnecting
    split
    · exact .silent [.drop _] rfl (by simp)
    · exact .same rfl

end Sim800

namespace Espressif

theorem eff_sendNext (p : Platform) (d : D) : Eff HeaderEnd false d (sendNext p d) := by
  have := eff_act (st := false) d (by intro h; cases h)
  unfold sendNext
  split
  · eff
  · split
    · eff
    · assumption

theorem short_proceed (p : Platform) (d : D) : Short 20 d (proceed p d) := by
  unfold proceed
  split
  · exact .same rfl
  · split
    · exact .same rfl
    · rename_i hsp
      have h := (eff_sendNext p d.askSpace).room
      exact (Short.same (n := 20) (d := d) (e := d.askSpace) rfl).trans (h.short (by rw [Dev.txFree_askSpace]; omega))

theorem short_work (p : Platform) (d : D) : Short 20 d (work p d) := by
  have h1 : Short 20 d (fillLineBuffer d).1 := short_fillLine 20 d _
  unfold work
  dsimp only
  split
  · have h2 := h1.trans (.same (e := (parseLine p (fillLineBuffer d).1).1) (parseLine_trace p _))
    split
    · exact h2
    · exact h2.trans (short_proceed p _)
  · refine h1.trans (Short.trans ?_ (short_proceed p _))
    unfold flushIfDisconnecting
    split
    · exact .silent [.drop _] rfl (by simp)
    · exact .same rfl

end Espressif

namespace CC1352P7

theorem eff_sendNext (p : Platform) (d : D) : Eff NoHeader false d (sendNext p d) := by
  have := eff_act (x := NoHeader) (st := false) d (by intro h; cases h)
  unfold sendNext
  split
  · eff
  · split
    · eff
    · assumption

theorem short_proceed (p : Platform) (d : D) : Short 20 d (proceed p d) := by
  unfold proceed
  split
  · exact .same rfl
  · split
    · exact .same rfl
    · rename_i hsp
      have h := (eff_sendNext p d.askSpace).room
      exact (Short.same (n := 20) (d := d) (e := d.askSpace) rfl).trans (h.short (by rw [Dev.txFree_askSpace]; omega))

theorem short_work (p : Platform) (d : D) : Short 20 d (work p d) := by
  have h1 : Short 20 d (fillLineBuffer d).1 := short_fillLine 20 d _
  unfold work
  dsimp only
  split
  · have h2 := h1.trans (.same (e := (parseLine p (fillLineBuffer d).1).1) (parseLine_trace p _))
    split
    · exact h2
    · exact h2.trans (short_proceed p _)
  · refine h1.trans (Short.trans ?_ (short_proceed p _))
    unfold flushIfDisconnecting
    split
    · exact .silent [.drop _] rfl (by simp)
    · exact .same rfl

end CC1352P7

end Verif
