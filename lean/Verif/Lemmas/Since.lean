import Verif.Lemmas.Events

/-! Statements about what happened since a point of a history. -/

namespace Verif

/-- Since the trace was `base`: as long as no event satisfies `bad`, the state satisfies `P` and all
events satisfy `Q`. -/
def Since {S R X : Type} (base : List Ev) (bad Q : Ev → Bool) (P : Dev S R X → Prop)
    (d : Dev S R X) : Prop :=
  ∃ new, d.trace = base ++ new ∧ (new.any bad = false → P d ∧ new.all Q = true)

namespace Since

open Dev

variable {S R X : Type} {base : List Ev} {bad Q : Ev → Bool} {P : Dev S R X → Prop}
  {d e : Dev S R X}

theorem start (h : P d) : Since d.trace bad Q P d := ⟨[], by simp, fun _ => ⟨h, rfl⟩⟩

/-- Some more events. -/
theorem more (h : Since base bad Q P d) (ev : List Ev) (ht : e.trace = d.trace ++ ev)
    (hp : ev.any bad = false → P d → P e ∧ ev.all Q = true) : Since base bad Q P e := by
  obtain ⟨new, h1, h2⟩ := h
  refine ⟨new ++ ev, by rw [ht, h1]; simp, ?_⟩
  intro hb
  rw [List.any_append, Bool.or_eq_false_iff] at hb
  obtain ⟨h3, h4⟩ := h2 hb.1
  obtain ⟨h5, h6⟩ := hp hb.2 h3
  exact ⟨h5, by rw [List.all_append, h4, h6]; rfl⟩

/-- No event. -/
theorem silent (h : Since base bad Q P d) (ht : e.trace = d.trace) (hp : P d → P e) :
    Since base bad Q P e :=
  h.more [] (by simp [ht]) fun _ x => ⟨hp x, rfl⟩

/-- A bad event. -/
theorem spoil (h : Since base bad Q P d) (x : Ev) (ht : e.trace = d.trace ++ [x])
    (hb : bad x = true) : Since base bad Q P e :=
  h.more [x] ht fun hx => by simp [hb] at hx

/-- Events are only appended. -/
theorem grows {x : List Byte → Byte → Prop} {d e : Dev S R X} (h : Eff x false d e) :
    ∃ ev, e.trace = d.trace ++ ev := by
  induction h with
  | ctl h => exact ⟨[], by simp [h.trace]⟩
  | cmd d s => exact ⟨_, rfl⟩
  | arg d s => exact ⟨_, rfl⟩
  | cmdN d s => exact ⟨_, rfl⟩
  | argN d s => exact ⟨_, rfl⟩
  | askSpace d => exact ⟨[], by simp⟩
  | askAvail d => exact ⟨[], by simp⟩
  | flushSer d => exact ⟨_, rfl⟩
  | flushReadBuffer d h => exact ⟨_, rfl⟩
  | sendData d => exact ⟨_, rfl⟩
  | receive d h =>
    cases hq : d.receive.2 with
    | true => exact ⟨_, (Dev.receive_true hq).1⟩
    | false => exact ⟨[], by simp [(Dev.receive_trace_false hq).1]⟩
  | fillLine d stop h =>
    unfold Dev.fillLine
    split
    · dsimp only
      split
      · exact ⟨[], by simp⟩
      · exact ⟨_, rfl⟩
    · exact ⟨[], by simp⟩
  | trans h k ih1 ih2 =>
    obtain ⟨u, h1⟩ := ih1
    obtain ⟨v, h2⟩ := ih2
    exact ⟨u ++ v, by rw [h2, h1]; simp⟩

/-- The events matter only in good states. -/
theorem grow {x : List Byte → Byte → Prop} (h : Since base bad Q P d) (he : Eff x false d e)
    (hp : P d → P e ∧ ∃ ev, e.trace = d.trace ++ ev ∧ ev.all Q = true) : Since base bad Q P e := by
  obtain ⟨ev, hev⟩ := grows he
  refine h.more ev hev fun _ hd => ?_
  obtain ⟨h1, ev', h2, h3⟩ := hp hd
  rw [hev] at h2
  rw [List.append_cancel_left h2]
  exact ⟨h1, h3⟩

end Since
end Verif

/-! ## Traces only grow -/

namespace Verif

open Dev

variable {S R X : Type}

theorem Api.grows {d e : Dev S R X} (h : Api d e) : ∃ new, e.trace = d.trace ++ new := by
  cases h with
  | quiet _ _ _ _ h5 =>
    rcases h5 with h5 | ⟨x, _, h5⟩
    · exact ⟨[], by simp [h5]⟩
    · exact ⟨[x], h5⟩
  | userRx bs _ _ _ h5 => exact ⟨_, h5⟩
  | reset _ _ _ h5 => exact ⟨_, h5⟩

theorem exec_grows_of {step : Dev S R X → Op → Dev S R X}
    (h : ∀ d op, ∃ new, (step d op).trace = d.trace ++ new) (d : Dev S R X) (ops : List Op) :
    ∃ new, (exec step d ops).trace = d.trace ++ new := by
  induction ops generalizing d with
  | nil => exact ⟨[], by simp [exec]⟩
  | cons op ops ih =>
    obtain ⟨n1, h1⟩ := h d op
    obtain ⟨n2, h2⟩ := ih (step d op)
    exact ⟨n1 ++ n2, by rw [show exec step d (op :: ops) = exec step (step d op) ops from rfl, h2, h1]; simp⟩

theorem exec_append {D : Type} (step : D → Op → D) (d : D) (a b : List Op) :
    exec step d (a ++ b) = exec step (exec step d a) b := by
  simp [exec]

theorem Sim7x00.inv_exec (p : Platform) {d : Sim7x00.D} (h : Sim7x00.Inv d) (ops : List Op) :
    Sim7x00.Inv (exec (Sim7x00.step p) d ops) :=
  Verif.exec_inv (ok := fun _ => True) (fun _ op _ h => Sim7x00.step_inv p op h) h ops fun _ _ => trivial

theorem Sim7x00.exec_grows (p : Platform) (d : Sim7x00.D) (ops : List Op) :
    ∃ new, (exec (Sim7x00.step p) d ops).trace = d.trace ++ new := by
  refine exec_grows_of (fun d op => ?_) d ops
  by_cases hr : ∃ ok, op = .run ok
  · obtain ⟨ok, rfl⟩ := hr
    exact Since.grows (Sim7x00.eff_run (x := NoHeader) (st := false) p d ok (by simp))
  · exact (Sim7x00.step_api p d op fun ok e => hr ⟨ok, e⟩).grows

theorem Sim800.inv_exec (p : Platform) {d : Sim800.D} (h : Sim800.Inv d) (ops : List Op) :
    Sim800.Inv (exec (Sim800.step p) d ops) :=
  Verif.exec_inv (ok := fun _ => True) (fun _ op _ h => Sim800.step_inv p op h) h ops fun _ _ => trivial

theorem Sim800.exec_grows (p : Platform) (d : Sim800.D) (ops : List Op) :
    ∃ new, (exec (Sim800.step p) d ops).trace = d.trace ++ new := by
  refine exec_grows_of (fun d op => ?_) d ops
  by_cases hr : ∃ ok, op = .run ok
  · obtain ⟨ok, rfl⟩ := hr
    exact Since.grows (Sim800.eff_run (x := NoHeader) (st := false) p d ok (by simp))
  · exact (Sim800.step_api p d op fun ok e => hr ⟨ok, e⟩).grows

theorem Espressif.inv_exec (p : Platform) {d : Espressif.D} (h : Espressif.Inv d) (ops : List Op) :
    Espressif.Inv (exec (Espressif.step p) d ops) :=
  Verif.exec_inv (ok := fun _ => True) (fun _ op _ h => Espressif.step_inv p op h) h ops fun _ _ => trivial

theorem Espressif.exec_grows (p : Platform) (d : Espressif.D) (ops : List Op) :
    ∃ new, (exec (Espressif.step p) d ops).trace = d.trace ++ new := by
  refine exec_grows_of (fun d op => ?_) d ops
  by_cases hr : ∃ ok, op = .run ok
  · obtain ⟨ok, rfl⟩ := hr
    exact Since.grows (Espressif.eff_run (st := false) p d ok (by simp))
  · exact (Espressif.step_api p d op fun ok e => hr ⟨ok, e⟩).grows

theorem CC1352P7.inv_exec (p : Platform) {d : CC1352P7.D} (h : CC1352P7.Inv d) (ops : List Op) :
    CC1352P7.Inv (exec (CC1352P7.step p) d ops) :=
  Verif.exec_inv (ok := fun _ => True) (fun _ op _ h => CC1352P7.step_inv p op h) h ops fun _ _ => trivial

theorem CC1352P7.exec_grows (p : Platform) (d : CC1352P7.D) (ops : List Op) :
    ∃ new, (exec (CC1352P7.step p) d ops).trace = d.trace ++ new := by
  refine exec_grows_of (fun d op => ?_) d ops
  by_cases hr : ∃ ok, op = .run ok
  · obtain ⟨ok, rfl⟩ := hr
    exact Since.grows (CC1352P7.eff_run (x := NoHeader) (st := false) p d ok (by simp))
  · exact (CC1352P7.step_api p d op fun ok e => hr ⟨ok, e⟩).grows

end Verif
