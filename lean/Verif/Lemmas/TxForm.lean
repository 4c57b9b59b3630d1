import Verif.Spec.Payload

/-! What the states of the observer `Spec.tx` say about the trace. -/

namespace Verif.Spec

/-- The strings in the events, as far as the serial device accepted them. -/
def argsOf (t : List Ev) : List (List Byte) :=
  t.filterMap fun e => match e with | .arg _ g => some g | _ => none

/-- The trace `t` ends with a transmission that waits for its payload: the send command, accepted
completely by the serial device, followed by the strings `args`; then a line that starts with one of
`prompts`; no other command, no payload and no `resetStates()` in between; afterwards only commands from
the list `status`. -/
def Prompted (prompts status : List (List Byte)) (args : List (List Byte)) (t : List Ev) : Prop :=
  ∃ pre mid l post, t = pre ++ .cmd sendCmd sendCmd :: mid ++ .line l :: post ∧
    (∃ q ∈ prompts, q <+: l) ∧ args = argsOf mid ∧
    (∀ e ∈ mid, e ≠ .apiReset ∧ (∀ w g, e ≠ .cmd w g) ∧ ∀ bs, e ≠ .pay bs) ∧
    (∀ e ∈ post, e ≠ .apiReset ∧ (∀ w g, e = .cmd w g → w ∈ status) ∧ ∀ bs, e ≠ .pay bs)

/-- As `Prompted`, before the prompt. -/
def Announced (args : List (List Byte)) (t : List Ev) : Prop :=
  ∃ pre mid, t = pre ++ .cmd sendCmd sendCmd :: mid ∧ args = argsOf mid ∧
    (∀ e ∈ mid, e ≠ .apiReset ∧ (∀ w g, e ≠ .cmd w g) ∧ ∀ bs, e ≠ .pay bs)

variable {prompts status : List (List Byte)}

theorem Announced.snoc {args : List (List Byte)} {t : List Ev} {e : Ev} (h : Announced args t)
    (h1 : e ≠ .apiReset) (h2 : ∀ w g, e ≠ .cmd w g) (h3 : ∀ bs, e ≠ .pay bs) :
    Announced (args ++ argsOf [e]) (t ++ [e]) := by
  obtain ⟨pre, mid, rfl, rfl, h⟩ := h
  refine ⟨pre, mid ++ [e], by simp, by simp [argsOf, List.filterMap_append], fun x hx => ?_⟩
  rcases List.mem_append.mp hx with hx | hx
  · exact h x hx
  · simp only [List.mem_singleton] at hx; subst hx; exact ⟨h1, h2, h3⟩

theorem Announced.snoc0 {args : List (List Byte)} {t : List Ev} {e : Ev} (h : Announced args t)
    (h0 : argsOf [e] = []) (h1 : e ≠ .apiReset) (h2 : ∀ w g, e ≠ .cmd w g) (h3 : ∀ bs, e ≠ .pay bs) :
    Announced args (t ++ [e]) := by
  simpa [h0] using h.snoc h1 h2 h3

theorem Prompted.snoc {args : List (List Byte)} {t : List Ev} {e : Ev}
    (h : Prompted prompts status args t)
    (h1 : e ≠ .apiReset) (h2 : ∀ w g, e = .cmd w g → w ∈ status) (h3 : ∀ bs, e ≠ .pay bs) :
    Prompted prompts status args (t ++ [e]) := by
  obtain ⟨pre, mid, l, post, rfl, hp, ha, hm, h⟩ := h
  refine ⟨pre, mid, l, post ++ [e], by simp, hp, ha, hm, fun x hx => ?_⟩
  rcases List.mem_append.mp hx with hx | hx
  · exact h x hx
  · simp only [List.mem_singleton] at hx; subst hx; exact ⟨h1, h2, h3⟩

theorem tx_form (t : List Ev) :
    (∀ args, (tx prompts status).after t = .asked args → Announced args t) ∧
    (∀ args, (tx prompts status).after t = .ready args → Prompted prompts status args t) := by
  induction t using snocInd with
  | nil => constructor <;> intro args h <;> simp [tx] at h
  | snoc t e ih =>
    obtain ⟨i1, i2⟩ := ih
    rw [Observer.after_snoc]
    generalize (tx prompts status).after t = s at *
    constructor
    · intro args h
      cases e
      case cmd w g =>
        simp only [tx] at h
        split at h
        · rename_i hw
          split at h
          · rename_i hg
            simp only [Tx.asked.injEq] at h
            subst hw hg h
            exact ⟨t, [], by simp, rfl, by simp⟩
          · simp at h
        · split at h
          · split at h <;> simp at h
          · simp at h
      case arg w g =>
        cases s with
        | asked a =>
          simp only [tx, Tx.asked.injEq] at h
          subst h
          exact (i1 a rfl).snoc (by simp) (by simp) (by simp)
        | idle => simp [tx] at h
        | ready a => simp [tx] at h
      case line l =>
        cases s with
        | asked a =>
          simp only [tx] at h
          split at h
          · simp at h
          · simp only [Tx.asked.injEq] at h
            subst h
            simpa [argsOf] using (i1 a rfl).snoc (e := .line l) (by simp) (by simp) (by simp)
        | idle => simp [tx] at h
        | ready a => simp [tx] at h
      case pay => simp [tx] at h
      case apiReset => simp [tx] at h
      all_goals
        simp only [tx] at h
        exact (i1 args h).snoc0 rfl (by simp) (by simp) (by simp)
    · intro args h
      cases e
      case cmd w g =>
        simp only [tx] at h
        split at h
        · split at h <;> simp at h
        · cases s with
          | ready a =>
            simp only at h
            split at h
            · rename_i hw
              simp only [Tx.ready.injEq] at h
              subst h
              exact (i2 a rfl).snoc (by simp) (by simpa using hw) (by simp)
            · simp at h
          | idle => simp at h
          | asked a => simp at h
      case arg w g =>
        cases s with
        | ready a =>
          simp only [tx, Tx.ready.injEq] at h
          subst h
          exact (i2 a rfl).snoc (by simp) (by simp) (by simp)
        | idle => simp [tx] at h
        | asked a => simp [tx] at h
      case line l =>
        cases s with
        | asked a =>
          simp only [tx] at h
          split at h
          · rename_i hp
            simp only [Tx.ready.injEq] at h
            subst h
            obtain ⟨pre, mid, rfl, rfl, hm⟩ := i1 a rfl
            obtain ⟨q, hq, hql⟩ := List.any_eq_true.mp hp
            exact ⟨pre, mid, l, [], by simp, ⟨q, hq, List.isPrefixOf_iff_prefix.mp hql⟩, rfl, hm, by simp⟩
          · simp at h
        | ready a =>
          simp only [tx, Tx.ready.injEq] at h
          subst h
          exact (i2 a rfl).snoc (by simp) (by simp) (by simp)
        | idle => simp [tx] at h
      case pay => simp [tx] at h
      case apiReset => simp [tx] at h
      all_goals
        simp only [tx] at h
        exact (i2 args h).snoc (by simp) (by simp) (by simp)

end Verif.Spec
