import Verif.Lemmas.Wedge

/-! What one turn of the state machine of a driver says, word by word. -/

namespace Verif

open Dev Spec

/-- Kinds of a turn. -/
inductive Kind
  | quiet
  /-- A command: its first string and its complete text. -/
  | cmd (w text : List Byte)
  | pay
  | data
deriving DecidableEq

/-- The texts of the arguments. -/
def args : List Ev → List Byte
  | [] => []
  | .arg w _ :: l => w ++ args l
  | _ :: l => args l

theorem args_append (a b : List Ev) : args (a ++ b) = args a ++ args b := by
  induction a with
  | nil => rfl
  | cons e l ih => cases e <;> simp [args, ih]

/-- What the driver did between two states. -/
def Says (k : Kind) (d e : Dev S R X) : Prop :=
  match k with
  | .quiet => e.trace = d.trace
  | .cmd w text => ∃ g rest, e.trace = d.trace ++ .cmd w g :: rest ∧ rest.all isArg = true ∧ text = w ++ args rest
  | .pay => ∃ bs, e.trace = d.trace ++ [.pay bs]
  | .data => ∃ bs, e.trace = d.trace ++ [.data bs]

section
variable {d e e' d0 : Dev S R X} {k : Kind} {w t : List Byte}

theorem says_quiet (h : e.trace = d.trace) : Says .quiet d e := h

theorem says_cmd (d : Dev S R X) (w : List Byte) : Says (.cmd w w) d (d.cmd w) :=
  ⟨_, [], Dev.cmd_trace d w, rfl, by simp [args]⟩

theorem says_cmdN (d : Dev S R X) (w : List Byte) : Says (.cmd w w) d (d.cmdN w) :=
  ⟨_, [], Dev.cmdN_trace d w, rfl, by simp [args]⟩

theorem Says.set (h : Says k d e) (ht : e'.trace = e.trace) : Says k d e' := by
  unfold Says at *
  split <;> simp only at h <;> rw [ht] <;> exact h

theorem Says.pre (h : Says k d e) (ht : d.trace = d0.trace) : Says k d0 e := by
  unfold Says at *
  split <;> simp only at h <;> rw [← ht] <;> exact h

theorem Says.arg (h : Says (.cmd w t) d e) (s : List Byte) : Says (.cmd w (t ++ s)) d (e.arg s) := by
  obtain ⟨g, rest, ht, ha, hx⟩ := h
  refine ⟨g, rest ++ [.arg s (s.take (e.ser.writeStr s).2)], ?_, ?_, ?_⟩
  · rw [Dev.arg_trace, ht]; simp
  · simp [ha, isArg]
  · rw [hx, args_append]; simp [args]

theorem Says.argN (h : Says (.cmd w t) d e) (s : List Byte) : Says (.cmd w (t ++ s)) d (e.argN s) := by
  obtain ⟨g, rest, ht, ha, hx⟩ := h
  refine ⟨g, rest ++ [.arg s (s.take (e.ser.write s).2)], ?_, ?_, ?_⟩
  · rw [Dev.argN_trace, ht]; simp
  · simp [ha, isArg]
  · rw [hx, args_append]; simp [args]

theorem says_sendCommand (d : Dev S R X) (w : List Byte) : Says (.cmd w (w ++ lineEnd)) d (d.sendCommand w) :=
  (says_cmd d w).arg _

/-- The turn is one of the table. -/
def Moves (l : List (Kind × S × R)) (d e : Dev S R X) : Prop :=
  ∃ k, (k, e.snd, e.rep) ∈ l ∧ Says k d e

theorem says_prepare {c : Bool} (h : (d.prepareSending c).2 = true) :
    Says (.cmd b!"AT+CIPSEND=" (b!"AT+CIPSEND=" ++ (if c then b!"0," else []) ++ dec5 d.sendAmount)) d
      (d.prepareSending c).1 := by
  obtain ⟨_, _, g1, g2, g3, ht⟩ := prepareSending_true h
  cases c
  · exact ⟨g1, [.arg (dec5 d.sendAmount) g3], by rw [ht]; simp, rfl, by simp [args]⟩
  · exact ⟨g1, [.arg b!"0," g2, .arg (dec5 d.sendAmount) g3], by rw [ht]; simp, rfl, by simp [args]⟩

end

theorem says_sendDnsQuery {d : SimDev S R} (h : d.sendDnsQuery.2 = true) :
    Says (.cmd b!"AT+CDNSGIP=\"" (b!"AT+CDNSGIP=\"" ++ d.host.getD [] ++ quoteEnd)) d d.sendDnsQuery.1 := by
  obtain ⟨g1, g2, g3, ht⟩ := SimDev.sendDnsQuery_true h
  exact ⟨g1, [.arg (d.host.getD []) g2, .arg quoteEnd g3], by rw [ht]; simp, rfl, by simp [args]⟩

theorem says_sendCiprxget2 {d : SimDev S R} (h : d.sendCiprxget2.2 = true) :
    Says (.cmd b!"AT+CIPRXGET=2,0," (b!"AT+CIPRXGET=2,0," ++ dec d.askAmount ++ lineEnd)) d d.sendCiprxget2.1 := by
  obtain ⟨g1, g2, g3, ht⟩ := SimDev.sendCiprxget2_true h
  exact ⟨g1, [.arg (dec d.askAmount) g2, .arg lineEnd g3], by rw [ht]; simp, rfl, by simp [args]⟩

end Verif
