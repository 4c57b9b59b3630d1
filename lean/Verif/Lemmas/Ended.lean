import Verif.Lemmas.Budget
import Verif.Spec.Ended

/-!
# Ends of connections
-/

namespace Verif

open Dev Spec

variable {S R X : Type}

section
variable (s : Signs) (q : LinkPhase)
@[simp] theorem phase_init : s.phase.init = .shut := rfl
theorem phase_cmd (w g : List Byte) : s.phase.step q (.cmd w g) =
    if w = s.opens then .opened else if q = .shut then .shut else if w ∈ s.close then .closing
      else if w ∈ s.restart then .restart else q := rfl
@[simp] theorem phase_arg (w g : List Byte) : s.phase.step q (.arg w g) = q := rfl
@[simp] theorem phase_pay (b : List Byte) : s.phase.step q (.pay b) = q := rfl
@[simp] theorem phase_line (l : List Byte) : s.phase.step q (.line l) = if s.ends q l then .shut else q := rfl
@[simp] theorem phase_data (b : List Byte) : s.phase.step q (.data b) = q := rfl
@[simp] theorem phase_drop (b : List Byte) : s.phase.step q (.drop b) = q := rfl
@[simp] theorem phase_flush : s.phase.step q .flush = q := rfl
@[simp] theorem phase_conn : s.phase.step q .apiConnect = q := rfl
@[simp] theorem phase_disc : s.phase.step q .apiDisconnect = q := rfl
@[simp] theorem phase_write (b : List Byte) : s.phase.step q (.apiWrite b) = q := rfl
@[simp] theorem phase_read (b : List Byte) : s.phase.step q (.apiRead b) = q := rfl
@[simp] theorem phase_reset : s.phase.step q .apiReset = .shut := rfl
@[simp] theorem phase_utx (b : List Byte) : s.phase.step q (.userTx b) = q := rfl
@[simp] theorem phase_urx (b : List Byte) : s.phase.step q (.userRx b) = q := rfl
end

/-- A command that has nothing to do with ends of connections. -/
theorem phase_other {s : Signs} {w : List Byte} (h1 : w ≠ s.opens) (h2 : w ∉ s.close) (h3 : w ∉ s.restart)
    (q : LinkPhase) (g : List Byte) : s.phase.step q (.cmd w g) = q := by
  rw [phase_cmd, if_neg h1, if_neg h2, if_neg h3]
  split
  · rename_i h; exact h.symm
  · rfl

section
variable {s : Signs}

theorem phase_sendCommand (d : Dev S R X) (w : List Byte) (h1 : w ≠ s.opens) (h2 : w ∉ s.close) (h3 : w ∉ s.restart) :
    s.phase.after (d.sendCommand w).trace = s.phase.after d.trace := by
  simp [phase_other h1 h2 h3]

theorem phase_prepareSending (d : Dev S R X) (b : Bool) (h1 : b!"AT+CIPSEND=" ≠ s.opens)
    (h2 : b!"AT+CIPSEND=" ∉ s.close) (h3 : b!"AT+CIPSEND=" ∉ s.restart) :
    s.phase.after (d.prepareSending b).1.trace = s.phase.after d.trace := by
  cases hq : (d.prepareSending b).2 with
  | false => rw [(prepareSending_trace_false hq).1]
  | true =>
    obtain ⟨_, _, g1, g2, g3, e⟩ := prepareSending_true hq
    rw [e]
    cases b <;> simp [phase_other h1 h2 h3]

theorem phase_receive (d : Dev S R X) : s.phase.after d.receive.1.trace = s.phase.after d.trace := by
  cases hq : d.receive.2 with
  | false => rw [(receive_trace_false hq).1]
  | true => rw [(receive_true hq).1]; simp

theorem phase_sendCiprxget2 (d : SimDev S R) (h1 : b!"AT+CIPRXGET=2,0," ≠ s.opens)
    (h2 : b!"AT+CIPRXGET=2,0," ∉ s.close) (h3 : b!"AT+CIPRXGET=2,0," ∉ s.restart) :
    s.phase.after d.sendCiprxget2.1.trace = s.phase.after d.trace := by
  cases hq : d.sendCiprxget2.2 with
  | false => rw [SimDev.sendCiprxget2_false hq]; try rfl
  | true =>
    obtain ⟨g1, g2, g3, e⟩ := SimDev.sendCiprxget2_true hq
    rw [e]
    simp [phase_other h1 h2 h3]

theorem phase_sendDnsQuery (d : SimDev S R) (h1 : b!"AT+CDNSGIP=\"" ≠ s.opens)
    (h2 : b!"AT+CDNSGIP=\"" ∉ s.close) (h3 : b!"AT+CDNSGIP=\"" ∉ s.restart) :
    s.phase.after d.sendDnsQuery.1.trace = s.phase.after d.trace := by
  cases hq : d.sendDnsQuery.2 with
  | false => rw [SimDev.sendDnsQuery_false hq]
  | true =>
    obtain ⟨g1, g2, g3, e⟩ := SimDev.sendDnsQuery_true hq
    rw [e]
    simp [phase_other h1 h2 h3]

theorem phase_sendIDRequest (d : SimDev S R) (i : List Byte)
    (h : ∀ w ∈ SimDev.idCommands i, w ≠ s.opens ∧ w ∉ s.close ∧ w ∉ s.restart) :
    s.phase.after (d.sendIDRequest i).1.trace = s.phase.after d.trace := by
  cases hq : (d.sendIDRequest i).2 with
  | false => rw [(SimDev.sendIDRequest_false hq).1]
  | true =>
    obtain ⟨w, hm, g1, g2, e⟩ := SimDev.sendIDRequest_true hq
    obtain ⟨h1, h2, h3⟩ := h w hm
    rw [e]
    simp [phase_other h1 h2 h3]

theorem has_of_begins {d : Dev S R X} {l lit : List Byte} (h : LineDone d l) (h0 : (0 : Byte) ∉ lit)
    (hp : begins lit l = false) : d.has lit = false := by
  cases e : d.has lit with
  | false => rfl
  | true => rw [begins_of_has h h0 e] at hp; simp at hp

theorem waits_of_begins {d : Dev S R X} {l lit : List Byte} (h : LineDone d l) (h0 : (0 : Byte) ∉ lit)
    (hw : d.wait = some lit) (hp : begins lit l = false) : d.waitMatches = false := by
  cases e : d.waitMatches with
  | false => rfl
  | true =>
    have := (h.waitMatches_iff h0 hw).mp e
    rw [begins, List.isPrefixOf_iff_prefix.mpr this] at hp
    simp at hp

end

end Verif
