import Verif.Lemmas.Chat
import Verif.Lemmas.Events
import Verif.Spec.Budget

/-!
# Balance of requests and connections
-/

namespace Verif

open Dev Spec

variable {S R X : Type}

/-- Requests and refusals minus commands to open a connection. -/
def tally (c : List Byte) (bad : List Byte → Bool) : Observer Int where
  init := 0
  step n e := match e with
    | .cmd w _ => if w = c then n - 1 else n
    | .apiConnect => n + 1
    | .line l => if bad l then n + 1 else n
    | _ => n

section
variable (c : List Byte) (bad : List Byte → Bool) (n : Int)
@[simp] theorem tally_init : (tally c bad).init = 0 := rfl
@[simp] theorem tally_cmd (w g : List Byte) : (tally c bad).step n (.cmd w g) = if w = c then n - 1 else n := rfl
@[simp] theorem tally_arg (w g : List Byte) : (tally c bad).step n (.arg w g) = n := rfl
@[simp] theorem tally_pay (b : List Byte) : (tally c bad).step n (.pay b) = n := rfl
@[simp] theorem tally_line (l : List Byte) : (tally c bad).step n (.line l) = if bad l then n + 1 else n := rfl
@[simp] theorem tally_data (b : List Byte) : (tally c bad).step n (.data b) = n := rfl
@[simp] theorem tally_drop (b : List Byte) : (tally c bad).step n (.drop b) = n := rfl
@[simp] theorem tally_flush : (tally c bad).step n .flush = n := rfl
@[simp] theorem tally_conn : (tally c bad).step n .apiConnect = n + 1 := rfl
@[simp] theorem tally_disc : (tally c bad).step n .apiDisconnect = n := rfl
@[simp] theorem tally_write (b : List Byte) : (tally c bad).step n (.apiWrite b) = n := rfl
@[simp] theorem tally_read (b : List Byte) : (tally c bad).step n (.apiRead b) = n := rfl
@[simp] theorem tally_reset : (tally c bad).step n .apiReset = n := rfl
@[simp] theorem tally_utx (b : List Byte) : (tally c bad).step n (.userTx b) = n := rfl
@[simp] theorem tally_urx (b : List Byte) : (tally c bad).step n (.userRx b) = n := rfl
end

theorem tally_eq (c : List Byte) (bad : List Byte → Bool) (t : List Ev) :
    (tally c bad).after t = (requests t : Int) + refusals bad t - openings c t := by
  induction t using snocInd with
  | nil => rfl
  | snoc t e ih =>
    rw [Observer.after_snoc, ih]
    simp only [requests, refusals, openings, List.countP_append]
    cases e <;> simp [List.countP_cons] <;> (try split) <;> omega

/-- 1 or 0. -/
def u (b : Bool) : Int := if b then 1 else 0

@[simp] theorem u_true : u true = 1 := rfl
@[simp] theorem u_false : u false = 0 := rfl
theorem u_nonneg (b : Bool) : 0 ≤ u b := by cases b <;> decide
theorem u_le_one (b : Bool) : u b ≤ 1 := by cases b <;> decide
theorem u_mono {a b : Bool} (h : a = true → b = true) : u a ≤ u b := by
  cases a <;> cases b <;> simp_all

theorem begins_of_has {d : Dev S R X} {l lit : List Byte} (h : LineDone d l) (h0 : (0 : Byte) ∉ lit)
    (hp : d.has lit = true) : begins lit l = true := by
  rw [h.has_iff h0] at hp; exact hp

/-! ## Functions that do not open connections -/

section
variable {c : List Byte} {bad : List Byte → Bool}

theorem tally_prepareSending (d : Dev S R X) (b : Bool) (h : b!"AT+CIPSEND=" ≠ c) :
    (tally c bad).after (d.prepareSending b).1.trace = (tally c bad).after d.trace := by
  cases hq : (d.prepareSending b).2 with
  | false => rw [(prepareSending_trace_false hq).1]
  | true =>
    obtain ⟨_, _, g1, g2, g3, e⟩ := prepareSending_true hq
    rw [e]
    cases b <;> simp [h]

theorem tally_receive (d : Dev S R X) :
    (tally c bad).after d.receive.1.trace = (tally c bad).after d.trace := by
  cases hq : d.receive.2 with
  | false => rw [(receive_trace_false hq).1]
  | true => rw [(receive_true hq).1]; simp

theorem tally_sendDnsQuery (d : SimDev S R) (h : b!"AT+CDNSGIP=\"" ≠ c) :
    (tally c bad).after d.sendDnsQuery.1.trace = (tally c bad).after d.trace := by
  cases hq : d.sendDnsQuery.2 with
  | false => rw [SimDev.sendDnsQuery_false hq]
  | true =>
    obtain ⟨g1, g2, g3, e⟩ := SimDev.sendDnsQuery_true hq
    rw [e]
    simp [h]

theorem tally_sendCiprxget2 (d : SimDev S R) (h : b!"AT+CIPRXGET=2,0," ≠ c) :
    (tally c bad).after d.sendCiprxget2.1.trace = (tally c bad).after d.trace := by
  cases hq : d.sendCiprxget2.2 with
  | false => rw [SimDev.sendCiprxget2_false hq]; rfl
  | true =>
    obtain ⟨g1, g2, g3, e⟩ := SimDev.sendCiprxget2_true hq
    rw [e]
    simp [h]

theorem tally_sendIDRequest (d : SimDev S R) (i : List Byte) (h : c ∉ SimDev.idCommands i) :
    (tally c bad).after (d.sendIDRequest i).1.trace = (tally c bad).after d.trace := by
  cases hq : (d.sendIDRequest i).2 with
  | false => rw [(SimDev.sendIDRequest_false hq).1]
  | true =>
    obtain ⟨w, hm, g1, g2, e⟩ := SimDev.sendIDRequest_true hq
    rw [e]
    have : w ≠ c := fun hx => h (hx ▸ hm)
    simp [this]

end

end Verif
