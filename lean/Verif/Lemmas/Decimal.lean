import Verif.Lemmas.CString

/-! Decimal output: `%u` writes the digits of the number. -/

namespace Verif

theorem decVal_append_one (l : List Byte) (c : Byte) : decVal (l ++ [c]) = decVal l * 10 + (c.toNat - 48) := by
  simp [decVal]

theorem foldl_dec (l : List Byte) (a : Nat) :
    l.foldl (fun a c => a * 10 + (c.toNat - 48)) a = a * 10 ^ l.length + decVal l := by
  unfold decVal
  induction l generalizing a with
  | nil => simp
  | cons c l ih =>
    rw [List.foldl_cons, List.foldl_cons, ih, ih (0 * 10 + _), List.length_cons, Nat.pow_succ]
    simp only [Nat.zero_mul, Nat.zero_add, Nat.add_mul, Nat.mul_assoc]
    rw [Nat.mul_comm 10]
    omega

theorem decVal_cons (c : Byte) (l : List Byte) :
    decVal (c :: l) = (c.toNat - 48) * 10 ^ l.length + decVal l := by
  rw [decVal, List.foldl_cons, foldl_dec]
  simp

/-- A decimal digit. -/
def IsDigit (c : Byte) : Prop := 48 ≤ c.toNat ∧ c.toNat ≤ 57

theorem digit_ofNat (n : Nat) : IsDigit (UInt8.ofNat (48 + n % 10)) ∧
    (UInt8.ofNat (48 + n % 10)).toNat - 48 = n % 10 := by
  unfold IsDigit
  rw [UInt8.toNat_ofNat']
  omega

theorem decAux_val (fuel n : Nat) (acc : List Byte) (h : n < 10 ^ fuel) :
    decVal (decAux fuel n acc) = n * 10 ^ acc.length + decVal acc := by
  induction fuel generalizing n acc with
  | zero =>
    have : n = 0 := by simpa using h
    subst this; simp [decAux]
  | succ fuel ih =>
    unfold decAux
    dsimp only
    have hd := (digit_ofNat n).2
    have hm : n = 10 * (n / 10) + n % 10 := (Nat.div_add_mod n 10).symm
    split
    · rename_i h0
      rw [decVal_cons, hd]
      rw [h0] at hm
      have : n % 10 = n := by omega
      rw [this]
    · rw [ih]
      · rw [decVal_cons, hd, List.length_cons, Nat.pow_succ, Nat.mul_comm (10 ^ acc.length) 10,
          ← Nat.mul_assoc, ← Nat.add_assoc, ← Nat.add_mul, Nat.mul_comm (n / 10) 10, ← hm]
      · rw [Nat.pow_succ] at h
        exact Nat.div_lt_of_lt_mul (by rw [Nat.mul_comm]; exact h)

theorem decAux_digits (fuel n : Nat) (acc : List Byte) (h : ∀ c ∈ acc, IsDigit c) :
    ∀ c ∈ decAux fuel n acc, IsDigit c := by
  induction fuel generalizing n acc with
  | zero => exact h
  | succ fuel ih =>
    unfold decAux
    dsimp only
    have h' : ∀ c ∈ UInt8.ofNat (48 + n % 10) :: acc, IsDigit c := by
      intro c hc
      rcases List.mem_cons.mp hc with rfl | hc
      · exact (digit_ofNat n).1
      · exact h c hc
    split
    · exact h'
    · exact ih _ _ h'

theorem decAux_short (fuel k n : Nat) (acc : List Byte) (h : n < 10 ^ (k + 1)) :
    (decAux fuel n acc).length ≤ acc.length + (k + 1) := by
  induction fuel generalizing n k acc with
  | zero => simp [decAux]
  | succ fuel ih =>
    unfold decAux
    dsimp only
    split
    · simp
    · rename_i h0
      cases k with
      | zero => exact absurd (Nat.div_eq_of_lt (by simpa using h)) h0
      | succ k =>
        have := ih k (n / 10) (UInt8.ofNat (48 + n % 10) :: acc) (by
          rw [Nat.pow_succ] at h
          exact Nat.div_lt_of_lt_mul (by rw [Nat.mul_comm]; exact h))
        rw [List.length_cons] at this
        omega

theorem decVal_lt (l : List Byte) (h : ∀ c ∈ l, IsDigit c) : decVal l < 10 ^ l.length := by
  induction l with
  | nil => simp [decVal]
  | cons c l ih =>
    have h1 := ih fun c hc => h c (by simp [hc])
    have h2 := h c (by simp)
    rw [decVal_cons, List.length_cons, Nat.pow_succ]
    have h3 : c.toNat - 48 ≤ 9 := by have := h2.2; omega
    have h4 : (c.toNat - 48) * 10 ^ l.length ≤ 9 * 10 ^ l.length := Nat.mul_le_mul_right _ h3
    omega

theorem dec_digits (n : Nat) : ∀ c ∈ dec n, IsDigit c := decAux_digits _ _ _ (by simp)

theorem dec5_digits (n : Nat) : ∀ c ∈ dec5 n, IsDigit c := fun c hc => dec_digits n c (List.mem_of_mem_take hc)

/-- `%u` writes the number. -/
theorem dec_val {n : Nat} (h : n < 4294967296) : decVal (dec n) = n := by
  unfold dec
  rw [Nat.mod_eq_of_lt h, decAux_val _ _ _ (by omega)]
  simp [decVal]

/-- Five digits are enough for numbers below 100000. -/
theorem dec5_eq {n : Nat} (h : n < 100000) : dec5 n = dec n := by
  unfold dec5
  refine List.take_of_length_le ?_
  unfold dec
  have := decAux_short 10 4 (n % 4294967296) [] (by omega)
  simpa using this

theorem dec5_val {n : Nat} (h : n < 100000) : decVal (dec5 n) = n := by
  rw [dec5_eq h]; exact dec_val (by omega)

theorem dec5_val_lt (n : Nat) : decVal (dec5 n) < 100000 := by
  have h := decVal_lt (dec5 n) (dec5_digits n)
  have h1 : (dec5 n).length ≤ 5 := by unfold dec5; rw [List.length_take]; omega
  have h2 : 10 ^ (dec5 n).length ≤ 10 ^ 5 := Nat.pow_le_pow_right (by omega) h1
  omega

end Verif
