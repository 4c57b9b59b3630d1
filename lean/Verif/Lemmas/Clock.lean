import Verif.Spec.Clock

/-! How far the tick function is from the time. -/

namespace Verif

open Spec

variable {rnd : Rat → Rat}

theorem cast_floor_nat (n : Nat) : ((n : Rat)).floor = (n : Int) := by exact_mod_cast Rat.floor_intCast _

/-- The milliseconds lie between two natural numbers if the fraction does. -/
theorem tickMs_between (h : Rounding rnd) {c : Clock} (hc : Reads c) {a b : Nat} (hb : b ≤ 1000)
    (ha : a * 1000000 ≤ c.nsec) (hn : c.nsec ≤ b * 1000000) :
    c.sec * 1000 + a ≤ tickMs rnd c ∧ tickMs rnd c ≤ c.sec * 1000 + b := by
  have hab : a ≤ b := by omega
  have hs : c.sec * 1000 + 1000 ≤ 9007199254740992 := hc.2
  have hs0 : c.sec * 1000 ≤ 9007199254740992 := Nat.le_trans (Nat.le_add_right _ _) hs
  have hsa : c.sec * 1000 + a ≤ 9007199254740992 := Nat.le_trans (Nat.add_le_add_left (Nat.le_trans hab hb) _) hs
  have hsb : c.sec * 1000 + b ≤ 9007199254740992 := Nat.le_trans (Nat.add_le_add_left hb _) hs
  have h0 : rnd ((c.sec * 1000 : Nat) : Rat) = ((c.sec * 1000 : Nat) : Rat) := h.whole (c.sec * 1000) hs0
  have e1 : ((a * 1000000 : Nat) : Rat) ≤ (c.nsec : Rat) := by exact_mod_cast ha
  have e2 : (c.nsec : Rat) ≤ ((b * 1000000 : Nat) : Rat) := by exact_mod_cast hn
  have f1 : (a : Rat) ≤ (c.nsec : Rat) / 1000000 := by push_cast at e1; grind
  have f2 : (c.nsec : Rat) / 1000000 ≤ (b : Rat) := by push_cast at e2; grind
  have g1 := h.mono _ _ f1
  have g2 := h.mono _ _ f2
  rw [h.whole a (by omega)] at g1
  rw [h.whole b (by omega)] at g2
  unfold tickMs
  rw [h0]
  have k1 : ((c.sec * 1000 + a : Nat) : Rat) ≤
      ((c.sec * 1000 : Nat) : Rat) + rnd ((c.nsec : Rat) / 1000000) := by push_cast at *; grind
  have k2 : ((c.sec * 1000 : Nat) : Rat) + rnd ((c.nsec : Rat) / 1000000) ≤
      ((c.sec * 1000 + b : Nat) : Rat) := by push_cast at *; grind
  have m1 := h.mono _ _ k1
  have m2 := h.mono _ _ k2
  rw [h.whole (c.sec * 1000 + a) hsa] at m1
  rw [h.whole (c.sec * 1000 + b) hsb] at m2
  have n1 := Rat.floor_monotone m1
  have n2 := Rat.floor_monotone m2
  rw [cast_floor_nat] at n1 n2
  omega

/-- The tick is the time in milliseconds, or one more. -/
theorem tickMs_near (h : Rounding rnd) {c : Clock} (hc : Reads c) :
    nanos c / 1000000 ≤ tickMs rnd c ∧ tickMs rnd c ≤ nanos c / 1000000 + 1 := by
  have hn := hc.1
  have := tickMs_between h hc (a := c.nsec / 1000000) (b := c.nsec / 1000000 + 1) (by omega) (by omega) (by omega)
  have e : nanos c / 1000000 = c.sec * 1000 + c.nsec / 1000000 := by unfold nanos; omega
  omega

theorem tickMs_mono (h : Rounding rnd) {a b : Clock} (ha : Reads a) (hb : Reads b) (hab : nanos a ≤ nanos b) :
    tickMs rnd a ≤ tickMs rnd b := by
  have h1 := ha.1
  have h2 := hb.1
  by_cases hs : a.sec = b.sec
  · have hn : a.nsec ≤ b.nsec := by unfold nanos at hab; omega
    have e : (a.nsec : Rat) ≤ (b.nsec : Rat) := by exact_mod_cast hn
    have e2 : (a.nsec : Rat) / 1000000 ≤ (b.nsec : Rat) / 1000000 := by grind
    have e3 := h.mono _ _ e2
    unfold tickMs
    rw [hs]
    have e4 : rnd ((b.sec * 1000 : Nat) : Rat) + rnd ((a.nsec : Rat) / 1000000) ≤
        rnd ((b.sec * 1000 : Nat) : Rat) + rnd ((b.nsec : Rat) / 1000000) := by grind
    have e5 := Rat.floor_monotone (h.mono _ _ e4)
    omega
  · have hlt : a.sec + 1 ≤ b.sec := by unfold nanos at hab; omega
    have q2 := tickMs_between h hb (a := b.nsec / 1000000) (b := b.nsec / 1000000 + 1) (by omega) (by omega) (by omega)
    have q3 := tickMs_between h ha (a := a.nsec / 1000000) (b := a.nsec / 1000000 + 1) (by omega) (by omega) (by omega)
    omega

end Verif
