import Verif.Model.Reenter

/-!
# Specification of reentrant tasks

No labels, no entry points: statement `p` is complete in the first call of `run()`, starting with the
call that completed statement `p - 1`, in which it may be passed.
-/

namespace Verif.Spec

open Verif

/-- The history of calls: tick and condition valuation of each call of `run()`. -/
abbrev Runs := List (Nat × (Nat → Bool))

/-- Tick of call `r`. -/
def tickAt (runs : Runs) (r : Nat) : Nat := (runs[r]?.map (·.1)).getD 0

/-- Value of the condition of statement `p` in call `r`. -/
def condAt (runs : Runs) (r p : Nat) : Bool := (runs[r]?.map (·.2 p)).getD false

/-- May statement `st` at position `p`, first reached in call `start`, be passed in call `r`? -/
def passable (runs : Runs) (st : Stmt) (p start r : Nat) : Prop :=
  match st with
  | .act _ => True
  | .setDelay _ => True
  | .yield => start < r
  | .delay _ => start < r
  | .cond => condAt runs r p = true
  | .condDelay _ => condAt runs r p = true
  | .condTimeout T =>
    condAt runs r p = true ∨
      T % 4294967296 < (tickAt runs r + 4294967296 - tickAt runs start) % 4294967296
  | .condTimeoutDelay T _ =>
    condAt runs r p = true ∨
      T % 4294967296 < (tickAt runs r + 4294967296 - tickAt runs start) % 4294967296

/-- Call in which statement `p` is reached: that in which statement `p - 1` was completed. -/
def startOf (log : List (Nat × Nat)) (p : Nat) : Nat :=
  match p with
  | 0 => 0
  | p + 1 => (log[p]?.map (·.2)).getD 0

/-- The completed statements are `0, 1, 2, ...`, each once, in order, and each was completed in the
first call in which it could be passed. -/
def Legal (body : List Stmt) (runs : Runs) (log : List (Nat × Nat)) : Prop :=
  ∀ p x, log[p]? = some x → x.1 = p ∧ x.2 < runs.length ∧
    ∃ st, body[p]? = some st ∧ startOf log p ≤ x.2 ∧ passable runs st p (startOf log p) x.2 ∧
      ∀ r, startOf log p ≤ r → r < x.2 → ¬ passable runs st p (startOf log p) r

/-- No call ended although the next statement could be passed. -/
def Prompt (body : List Stmt) (runs : Runs) (log : List (Nat × Nat)) : Prop :=
  ∀ st, body[log.length]? = some st → ∀ r, startOf log log.length ≤ r → r < runs.length →
    ¬ passable runs st log.length (startOf log log.length) r

/-- The user actions among a list of statements. -/
def acts : List Stmt → List Nat
  | [] => []
  | .act a :: r => a :: acts r
  | _ :: r => acts r

/-- Delay requested by a statement. -/
def delayOf : Stmt → Option Nat
  | .act _ => none
  | .setDelay d => some d
  | .yield => none
  | .delay d => some d
  | .cond => some 0
  | .condDelay d => some d
  | .condTimeout _ => some 0
  | .condTimeoutDelay _ d => some d

/-- The delay requested last (`d0` if none). -/
def lastDelay (d0 : Nat) : List Stmt → Nat
  | [] => d0
  | st :: r => lastDelay ((delayOf st).getD d0) r

end Verif.Spec
