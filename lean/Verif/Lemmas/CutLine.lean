import Verif.Lemmas.Payload

/-! `parseDnsReply` changes the line buffer: some quotes become zeros. A test for a literal that succeeds
afterwards would have succeeded before. -/

namespace Verif.SimDev

open Dev

theorem cutQuotes_cons (c : Byte) (cs : List Byte) :
    cutQuotes (c :: cs) = if c = 0 then c :: cs else (if c = 34 then 0 else c) :: cutQuotes cs := by
  by_cases h : c = 0
  · subst h
    simp [cutQuotes]
  · simp only [cutQuotes, if_neg h]
    rw [List.takeWhile_cons_of_pos (by simpa using h), List.dropWhile_cons_of_pos (by simpa using h)]
    rfl

theorem prefix_cutQuotes {lit : List Byte} (l : List Byte) (h0 : (0 : Byte) ∉ lit)
    (h : lit <+: cutQuotes l) : lit <+: l := by
  induction l generalizing lit with
  | nil => exact h
  | cons c cs ih =>
    rw [cutQuotes_cons] at h
    by_cases hc : c = 0
    · rw [if_pos hc] at h; exact h
    · rw [if_neg hc] at h
      cases lit with
      | nil => exact List.nil_prefix
      | cons a as =>
        rw [List.cons_prefix_cons] at h ⊢
        simp only [List.mem_cons, not_or] at h0
        by_cases h34 : c = 34
        · rw [if_pos h34] at h; exact absurd h.1.symm h0.1
        · rw [if_neg h34] at h; exact ⟨h.1, ih h0.2 h.2⟩

theorem afterQuotes_suffix (n : Nat) (l : List Byte) : afterQuotes n l <:+ l := by
  induction l generalizing n with
  | nil => cases n <;> simp [afterQuotes]
  | cons c cs ih =>
    cases n with
    | zero => simp [afterQuotes]
    | succ n =>
      unfold afterQuotes
      split
      · exact (ih _).trans (List.suffix_cons _ _)
      · exact (ih _).trans (List.suffix_cons _ _)

theorem prefix_append_cut {lit a b b' : List Byte} (hb : ∀ t, (0 : Byte) ∉ t → t <+: b' → t <+: b)
    (h0 : (0 : Byte) ∉ lit) (h : lit <+: a ++ b') : lit <+: a ++ b := by
  induction a generalizing lit with
  | nil => exact hb _ h0 h
  | cons c a ih =>
    cases lit with
    | nil => exact List.nil_prefix
    | cons x lit =>
      rw [List.cons_append, List.cons_prefix_cons] at h ⊢
      simp only [List.mem_cons, not_or] at h0
      exact ⟨h.1, ih h0.2 h.2⟩

variable {S R : Type}

theorem parseDnsReply_has (d : SimDev S R) {lit : List Byte} (h0 : (0 : Byte) ∉ lit)
    (h : d.parseDnsReply.1.has lit = true) : d.has lit = true := by
  revert h
  unfold parseDnsReply
  split
  · dsimp only
    split
    · exact id
    · intro h
      unfold Dev.has at h ⊢
      rw [hasPrefix_iff _ _ h0] at h ⊢
      have hs := afterQuotes_suffix 3 d.line.cells
      have e : d.line.cells = d.line.cells.take
          (d.line.cells.length - (afterQuotes 3 d.line.cells).length) ++ afterQuotes 3 d.line.cells := by
        obtain ⟨t, ht⟩ := hs
        have : t.length = d.line.cells.length - (afterQuotes 3 d.line.cells).length := by
          have := congrArg List.length ht
          simp only [List.length_append] at this
          omega
        rw [← this]
        conv => lhs; rw [← ht]
        congr 1
        conv => rhs; rw [← ht]
        simp
      rw [e]
      exact prefix_append_cut (fun t ht hp => prefix_cutQuotes _ ht hp) h0 h
  · split <;> exact id

end Verif.SimDev

namespace Verif

theorem cstr_take {l cells : List Byte} (h : cells.take l.length = l) (hz : cells[l.length]? = some 0) :
    cstr cells = cstr l := by
  have hlt : l.length < cells.length := by
    have := List.getElem?_eq_some_iff.mp hz
    exact this.1
  have e : cells = l ++ 0 :: cells.drop (l.length + 1) := by
    conv => lhs; rw [← List.take_append_drop l.length cells]
    rw [h, List.drop_eq_getElem_cons hlt]
    congr 2
    have := List.getElem?_eq_getElem hlt
    rw [this] at hz
    exact Option.some.inj hz
  rw [e]
  unfold cstr
  clear e h hz hlt
  generalize cells.drop (l.length + 1) = t
  induction l with
  | nil => simp
  | cons c l ih =>
    by_cases hc : c = 0
    · subst hc; simp
    · rw [List.cons_append, List.takeWhile_cons_of_pos (by simpa using hc),
        List.takeWhile_cons_of_pos (by simpa using hc)]
      simpa using ih

theorem Dev.LineDone.cstr {S R X : Type} {d : Dev S R X} {l : List Byte} (h : Dev.LineDone d l) :
    Verif.cstr d.line.cells = Verif.cstr l := cstr_take h.text h.zero

end Verif
