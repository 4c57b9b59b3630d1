import Verif.Model.Tick

/-!
# Time and rounding

What is used of the arithmetic of `double`: rounding keeps the order, and natural numbers up to 2^53 are exact.
-/

namespace Verif.Spec

structure Rounding (rnd : Rat → Rat) : Prop where
  mono : ∀ a b, a ≤ b → rnd a ≤ rnd b
  whole : ∀ n : Nat, n ≤ 9007199254740992 → rnd n = n

/-- Time in nanoseconds. -/
def nanos (c : Clock) : Nat := c.sec * 1000000000 + c.nsec

/-- A reading of the clock: less than a second of nanoseconds, and milliseconds that a `double` represents exactly. -/
def Reads (c : Clock) : Prop := c.nsec < 1000000000 ∧ c.sec * 1000 + 1000 ≤ 9007199254740992

/-- Exact arithmetic is a rounding. -/
theorem rounds_id : Rounding id := ⟨fun _ _ h => h, fun _ _ => rfl⟩

/-- So is cutting off after 12 binary digits. -/
theorem rounds_cut : Rounding (fun x => ((x * 4096).floor : Rat) / 4096) := by
  constructor
  · intro a b h
    have h1 : a * 4096 ≤ b * 4096 := by grind
    have h2 : (a * 4096).floor ≤ (b * 4096).floor := Rat.floor_monotone h1
    have h3 : ((a * 4096).floor : Rat) ≤ ((b * 4096).floor : Rat) := by exact_mod_cast h2
    grind
  · intro n _
    have this' : ((n : Rat) * 4096) = ((n * 4096 : Nat) : Rat) := by simp
    rw [this']
    have : (((n * 4096 : Nat) : Rat)).floor = ((n * 4096 : Nat) : Int) := by
      exact_mod_cast Rat.floor_intCast _
    rw [this]
    have e : (((n * 4096 : Nat) : Int) : Rat) = ((n * 4096 : Nat) : Rat) := rfl
    rw [e, ← this']
    grind

end Verif.Spec
