import Verif.Spec.Asking
import Verif.Lemmas.Net
import Verif.Lemmas.Trips
import Verif.Lemmas.Iccid

/-! Questions to the modem, for all drivers. -/

namespace Verif

open Spec

theorem Spec.Ends.noDigit {rest : List Byte} (h : Ends rest) : isDigit (rest.headD 0) = false := by
  cases rest with
  | nil => rfl
  | cons c r =>
    rcases h with h | h
    · obtain rfl : c = 44 := by simpa using h
      rfl
    · obtain rfl : c = 13 := by simpa using h
      rfl

theorem digitsVal_decimals (n : Nat) (rest : List Byte) (hr : isDigit (rest.headD 0) = false) :
    digitsVal 0 (decimals n ++ rest) = n := by
  rw [digitsVal_append _ _ _ (decimals_digits n) hr]
  exact decVal_decimals n

theorem strtol_signed (b : Bool) {v : Int} (h1 : -2147483648 < v) (h2 : v < 2147483648) (rest : List Byte)
    (hr : isDigit (rest.headD 0) = false) : strtol b (signed v ++ rest) = v := by
  unfold signed
  split
  · rename_i hv
    have e : strtol b (45 :: (decimals v.natAbs ++ rest)) = satLong b (-(digitsVal 0 (decimals v.natAbs ++ rest) : Int)) := rfl
    rw [List.cons_append, e, digitsVal_decimals _ _ hr]
    unfold satLong longMax
    cases b <;> simp <;> (repeat' split) <;> omega
  · rename_i hv
    rw [strtol_decimals b (by omega) _ hr]
    omega

theorem toInt16_id {v : Int} (h1 : -32768 ≤ v) (h2 : v < 32768) : toInt16 v = v := by
  unfold toInt16 wrapS
  dsimp only
  split <;> omega

theorem Spec.ends_zero {rest m : List Byte} (h : Ends rest) : Ends (rest ++ m) := by
  cases rest with
  | nil => simp [Ends] at h
  | cons c r => exact h

/-- The text copied by the drivers: everything before the stop byte, at most `max - 1` bytes. -/
theorem copyUntil_text {stop : Byte} {max : Nat} {s tail : List Byte} {m : Mem} (hm : m.cells.length = max) (hmax : 0 < max)
    (hlen : max - 1 ≤ (s ++ stop :: tail).length) (hs : stop ∉ s) (h0 : (0 : Byte) ∉ s) (hne : s ≠ []) (hx : 1 < max) :
    (SimDev.copyUntil stop max max (s ++ stop :: tail) 0 m).cells.length = max ∧
    cstr (SimDev.copyUntil stop max max (s ++ stop :: tail) 0 m).cells = s.take (max - 1) ∧
    (SimDev.copyUntil stop max max (s ++ stop :: tail) 0 m).get 0 ≠ 0 := by
  obtain ⟨t, ht, e⟩ := Props.Parse.copyUntil_spec stop max max (s ++ stop :: tail) 0 m hm hmax (by omega) (by simpa using hlen)
  have ht2 : t = s.take (max - 1) := by
    rw [ht, Nat.sub_zero]
    by_cases hl : max - 1 ≤ s.length
    · rw [List.take_append_of_le_length hl]
      refine Eq.trans (Eq.symm ?_) (List.append_nil _)
      refine Eq.trans ?_ (congrArg (List.takeWhile _) (List.append_nil _))
      rw [List.takeWhile_append_of_pos, List.takeWhile_nil]
      intro x hx
      simp only [decide_not, Bool.not_eq_eq_eq_not, Bool.not_true, decide_eq_false_iff_not]
      rintro rfl
      exact hs (List.mem_of_mem_take hx)
    · have e1 : (s ++ stop :: tail).take (max - 1) = s ++ stop :: tail.take (max - 1 - s.length - 1) := by
        rw [List.take_append, List.take_of_length_le (by omega)]
        rw [show max - 1 - s.length = (max - 1 - s.length - 1) + 1 by omega, List.take_succ_cons]
        rfl
      rw [e1, List.takeWhile_append_of_pos, List.takeWhile_cons, if_neg (by simp), List.append_nil, List.take_of_length_le (by omega)]
      intro x hx
      simp only [decide_not, Bool.not_eq_eq_eq_not, Bool.not_true, decide_eq_false_iff_not]
      rintro rfl
      exact hs hx
  rw [e]
  rw [List.take_zero, List.nil_append]
  have htl : t.length ≤ max - 1 := by rw [ht2]; simp; omega
  refine ⟨?_, ?_, ?_⟩
  · simp; omega
  · show cstr (t ++ 0 :: _) = _
    rw [ht2, cstr_append_zero fun x => h0 (List.mem_of_mem_take x)]
  · obtain ⟨a, s, rfl⟩ := List.exists_cons_of_ne_nil hne
    rw [ht2, show max - 1 = (max - 2) + 1 by omega, List.take_succ_cons]
    show a ≠ 0
    rintro rfl
    simp at h0

namespace Dev

variable {S R X : Type} {c : Conf} {E : X → Prop} {t0 : List Ev} {T : List (List Byte)} {q : St S R} {d g : Dev S R X}

/-- A dialogue with a condition on the connection, the signal strength and the further members. -/
def Holds (c : Conf) (t0 : List Ev) (T : List (List Byte)) (q : St S R) (I : Bool → Int → X → Prop) (d : Dev S R X) : Prop :=
  Talk c (fun _ => True) t0 T q d ∧ I d.ipConnected d.rssi d.ext

theorem Talk.with {E E' : X → Prop} (h : Talk c E t0 T q d) (e : E' d.ext) : Talk c E' t0 T q d :=
  ⟨h.calm, h.told, h.st, h.host, h.port, h.typ, h.data, h.wbuf, h.wcap, h.rbuf, h.rcap, h.rcv, h.rd, h.bw, e⟩

/-- Assignment to the signal strength and the further members. -/
theorem Talk.value {E' : X → Prop} (h : Talk c E t0 T q d) (v : Int) (x : X) (r : R) (e : E' x) {q' : St S R}
    (hq : q' = { q with rep := r, ask := decide (v = int16Max) }) :
    Talk c E' t0 T q' { d with rssi := v, ext := x, rep := r } := by
  subst hq
  refine ⟨⟨h.calm.isOpen, h.calm.lock, h.calm.reset, h.calm.lineRead, ⟨h.calm.line.len, h.calm.line.fill, h.calm.line.oob⟩, h.calm.fill,
    h.calm.ser⟩, h.told, ?_, h.host, h.port, h.typ, h.data, h.wbuf, h.wcap, h.rbuf, h.rcap, h.rcv, h.rd, h.bw, e⟩
  simp [Dev.st, h.snd, h.wait, h.cs, h.disc, h.conn]

/-- What is not changed by reading a line. -/
theorem fillLine_same {d g : Dev S R X} {n : Nat} {v : List Byte} {stop : Mem → Nat → Byte → Option R} {b : Bool}
    (h : (hearing d n v).fillLine stop = (g, b)) : g.ipConnected = d.ipConnected ∧ g.rssi = d.rssi ∧ g.ext = d.ext := by
  have e : g = ((hearing d n v).fillLine stop).1 := by rw [h]
  subst e
  simp

theorem LineDone.drop {l : List Byte} (h : LineDone d l) (pre s : List Byte) (hl : l = pre ++ s) :
    ∃ m, d.line.drop pre.length = s ++ 0 :: m := by
  obtain ⟨m, hm⟩ := h.cells
  refine ⟨m, ?_⟩
  show d.line.cells.drop pre.length = _
  rw [hm, hl, List.append_assoc, List.drop_left]

/-- A question is answered: first the line with the value, then OK. -/
theorem exec_answer {step : Dev S R X → Op → Dev S R X} {n : Nat} {value ok : Await} {P1 P2 P3 : Dev S R X → Prop} {bs : List Beat}
    (hb : Dialogue (answer value ok) bs) (h1 : ∀ d b, P1 d → Answers value b → P2 (exec step d (b.ops n)))
    (h2 : ∀ d b, P2 d → Answers ok b → P3 (exec step d (b.ops n))) {d : Dev S R X} (hd : P1 d) : P3 (exec step d (Spec.ops n bs)) := by
  cases hb with
  | cons a1 hb =>
    cases hb with
    | cons a2 hb =>
      cases hb
      rename_i b1 b2
      show P3 (exec step d (b1.ops n ++ (b2.ops n ++ [])))
      rw [List.append_nil, exec_append]
      exact h2 _ _ (h1 _ _ hd a1) a2

end Dev

end Verif
