import Verif.Model.CString

/-! Lemmas about the C string functions. -/

namespace Verif

theorem strncmpEq_iff (lit : List Byte) (a : List Byte) (h : (0 : Byte) ∉ lit) :
    strncmpEq a lit lit.length = true ↔ lit <+: a := by
  induction lit generalizing a with
  | nil => simp [strncmpEq]
  | cons c cs ih =>
    simp only [List.mem_cons, not_or] at h
    have hc : c ≠ 0 := fun e => h.1 e.symm
    cases a with
    | nil =>
      simp only [List.length_cons, strncmpEq, List.headD_nil, List.headD_cons, Bool.and_eq_true,
        beq_iff_eq, List.prefix_nil, reduceCtorEq, iff_false, not_and]
      intro e; exact absurd e.symm hc
    | cons x xs =>
      simp only [List.length_cons, strncmpEq, List.headD_cons, List.tail_cons, Bool.and_eq_true,
        beq_iff_eq, Bool.or_eq_true, ih xs h.2, List.cons_prefix_cons]
      constructor
      · rintro ⟨e, h1 | h1⟩
        · exact absurd (e ▸ h1) hc
        · exact ⟨e.symm, h1⟩
      · rintro ⟨e, h1⟩; exact ⟨e.symm, Or.inr h1⟩

theorem hasPrefix_iff (m : Mem) (lit : List Byte) (h : (0 : Byte) ∉ lit) :
    hasPrefix m lit = true ↔ lit <+: m.cells := strncmpEq_iff lit m.cells h

/-- A match of a zero-free literal lies before the first zero cell. -/
theorem prefix_take_of_zero {lit l : List Byte} {n : Nat} (h0 : (0 : Byte) ∉ lit) (h : lit <+: l)
    (hz : l[n]? = some 0) : lit <+: l.take n := by
  have hle : lit.length ≤ n := by
    by_cases hlt : lit.length ≤ n
    · exact hlt
    · exfalso
      obtain ⟨t, rfl⟩ := h
      rw [List.getElem?_append_left (by omega)] at hz
      exact h0 (List.mem_of_getElem? hz)
  obtain ⟨t, rfl⟩ := h
  rw [List.take_append_of_le_length' hle]
  exact List.prefix_append _ _
where
  List.take_append_of_le_length' {a b : List Byte} {n : Nat} (h : a.length ≤ n) :
      (a ++ b).take n = a ++ b.take (n - a.length) := by
    rw [List.take_append, List.take_of_length_le h]

theorem cstr_append_zero {l t : List Byte} (h : (0 : Byte) ∉ l) : cstr (l ++ 0 :: t) = l := by
  induction l with
  | nil => simp [cstr]
  | cons c cs ih =>
    simp only [List.mem_cons, not_or] at h
    have hc : c ≠ 0 := fun e => h.1 e.symm
    have := ih h.2
    simp only [cstr, List.cons_append] at this ⊢
    rw [List.takeWhile_cons, if_pos (by simpa using hc), this]

/-! ### Numbers -/

/-- Value of a list of decimal digits, most significant first. -/
def decVal (l : List Byte) : Nat := l.foldl (fun a c => a * 10 + (c.toNat - 48)) 0

theorem digitsVal_append (ds rest : List Byte) (acc : Nat) (hd : ∀ c ∈ ds, isDigit c = true)
    (hr : isDigit (rest.headD 0) = false) :
    digitsVal acc (ds ++ rest) = ds.foldl (fun a c => a * 10 + (c.toNat - 48)) acc := by
  induction ds generalizing acc with
  | nil =>
    cases rest with
    | nil => rfl
    | cons c cs => simp only [List.headD_cons] at hr; simp [digitsVal, hr]
  | cons c cs ih =>
    have hc := hd c (by simp)
    simp only [List.cons_append, digitsVal, hc, if_true, List.foldl_cons]
    exact ih _ (fun x hx => hd x (by simp [hx]))

theorem isDigit_range {c : Byte} (h : isDigit c = true) : 48 ≤ c.toNat ∧ c.toNat ≤ 57 := by
  simp only [isDigit, Bool.and_eq_true, decide_eq_true_eq] at h
  exact ⟨UInt8.le_iff_toNat_le.mp h.1, UInt8.le_iff_toNat_le.mp h.2⟩

theorem not_space_of_digit {c : Byte} (h : isDigit c = true) : isSpace c = false := by
  have := isDigit_range h
  simp only [isSpace, Bool.or_eq_false_iff, beq_eq_false_iff_ne, ne_eq, Bool.and_eq_false_iff,
    decide_eq_false_iff_not]
  constructor
  · intro e; subst e; simp at this
  · right
    intro hle
    have := UInt8.le_iff_toNat_le.mp hle
    have : (13 : UInt8).toNat = 13 := rfl
    omega

/-- `strtol` of digits followed by a non-digit. -/
theorem strtol_digits (b : Bool) (ds rest : List Byte) (hne : ds ≠ [])
    (hd : ∀ c ∈ ds, isDigit c = true) (hr : isDigit (rest.headD 0) = false) :
    strtol b (ds ++ rest) = satLong b (decVal ds) := by
  obtain ⟨c, cs, rfl⟩ := List.exists_cons_of_ne_nil hne
  have hc := hd c (by simp)
  have hrange := isDigit_range hc
  have hdrop : ((c :: cs) ++ rest).dropWhile isSpace = c :: (cs ++ rest) := by
    simp [not_space_of_digit hc]
  simp only [strtol, hdrop]
  have hv := digitsVal_append (c :: cs) rest 0 hd hr
  simp only [List.cons_append] at hv
  congr 1
  split
  · rename_i r heq
    simp only [List.cons.injEq] at heq
    rw [heq.1] at hrange
    have : (45 : UInt8).toNat = 45 := rfl
    omega
  · rename_i r heq
    simp only [List.cons.injEq] at heq
    rw [heq.1] at hrange
    have : (43 : UInt8).toNat = 43 := rfl
    omega
  · rw [hv]; rfl

theorem satLong_small (b : Bool) (n : Nat) (h : n < 2147483648) : satLong b n = n := by
  unfold satLong longMax
  cases b <;> simp only [Bool.false_eq_true, if_false, if_true] <;>
    (rw [if_neg (by omega), if_neg (by omega)])

theorem satLong_range (b : Bool) (v : Int) :
    -longMax b - 1 ≤ satLong b v ∧ satLong b v ≤ longMax b := by
  have : 0 < longMax b := by unfold longMax; split <;> omega
  unfold satLong
  split
  · omega
  · split <;> omega

theorem wrapS_small (m v : Int) (h0 : 0 ≤ v) (h1 : v < m / 2) : wrapS m v = v := by
  unfold wrapS
  have : v % m = v := Int.emod_eq_of_lt h0 (by omega)
  rw [this]
  simp only
  rw [if_neg (by omega)]

theorem toU64_nat (n : Nat) (h : n < 18446744073709551616) : toU64 (n : Int) = n := by
  unfold toU64; omega

theorem toU64_lt (v : Int) : toU64 v < 18446744073709551616 := by
  unfold toU64; omega

end Verif
