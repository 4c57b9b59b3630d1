import Verif.Lemmas.Ended

/-! A connection that was opened has not ended before the modem says so. -/

namespace Verif

open Spec

theorem phase_run_ne {s : Signs} (q : LinkPhase) (hq : q ≠ .shut) (t : List Ev) (hr : Ev.apiReset ∉ t)
    (hn : ∀ l, Ev.line l ∈ t → beginsAny (s.always ++ s.closed ++ s.restarted) l = false) :
    t.foldl s.phase.step q ≠ .shut := by
  induction t generalizing q with
  | nil => exact hq
  | cons e t ih =>
    refine ih (s.phase.step q e) ?_ (fun h => hr (List.mem_cons_of_mem _ h))
      (fun l h => hn l (List.mem_cons_of_mem _ h))
    cases e with
    | cmd w g =>
      rw [phase_cmd]
      (repeat' split) <;> simp_all
    | line l =>
      have := hn l (List.mem_cons_self ..)
      simp [beginsAny] at this
      simp [Signs.ends, beginsAny]
      simp_all
    | apiReset => exact absurd (List.mem_cons_self ..) hr
    | _ => exact hq

theorem phase_since {s : Signs} {t before after : List Ev} {g : List Byte}
    (ht : t = before ++ .cmd s.opens g :: after) (hr : Ev.apiReset ∉ after)
    (hn : ∀ l, Ev.line l ∈ after → beginsAny (s.always ++ s.closed ++ s.restarted) l = false) :
    s.phase.after t ≠ .shut := by
  rw [ht]
  simp only [Observer.after, List.foldl_append, List.foldl_cons]
  exact phase_run_ne _ (by rw [phase_cmd, if_pos rfl]; simp) after hr hn

end Verif
