import Verif.Lemmas.Waiting
import Verif.Lemmas.WaitSim7x00
import Verif.Lemmas.WaitSim800
import Verif.Lemmas.WaitEspressif
import Verif.Lemmas.WaitCC1352P7
import Verif.Lemmas.Chat
import Verif.Lemmas.Iccid
import Verif.Spec.Answer

/-! Invariant: while a question has no answer the driver is in the reply state for it. -/

namespace Verif

open Dev Spec

variable {S R X : Type}

/-- Nothing is transmitted while a question has no answer. -/
def QuestOk (q : Questions) (t : List Ev) : Prop :=
  Always (fun pre e => sent e ≠ none → (asked q).after pre = none) t

/-- Since the trace was `base`. `rp`: the reply states for the questions. -/
def QuestInv (q : Questions) (rp : List Byte → Option R) (base : List Ev) (d : Dev S R X) : Prop :=
  ∃ new, d.trace = base ++ new ∧ QuestOk q new ∧ ∀ w, (asked q).after new = some w → rp w = some d.rep

variable {q : Questions} {rp : List Byte → Option R} {base : List Ev}

theorem questOk_append {t new : List Ev} (h : QuestOk q t) (hn : ∀ e ∈ new, sent e = none) :
    QuestOk q (t ++ new) := by
  induction new generalizing t with
  | nil => simpa using h
  | cons e es ih =>
    rw [show t ++ e :: es = (t ++ [e]) ++ es by simp]
    exact ih (always_snoc.mpr ⟨h, fun hb => absurd (hn e (by simp)) hb⟩) fun x hx => hn x (by simp [hx])

theorem asked_still {e : Ev} (h : still e = true) (s) : (asked q).step s e = s := by
  cases e <;> first | rfl | simp [still] at h

namespace QuestInv

variable {d e : Dev S R X}

theorem more (h : QuestInv q rp base d) (new : List Ev) (ht : e.trace = d.trace ++ new)
    (hn : ∀ x ∈ new, still x = true) (hr : e.rep = d.rep) : QuestInv q rp base e := by
  obtain ⟨t, h1, h2, h3⟩ := h
  refine ⟨t ++ new, by rw [ht, h1, List.append_assoc], questOk_append h2 fun x hx => sent_still (hn x hx), ?_⟩
  rw [Observer.after_neutral _ _ _ fun x hx s => asked_still (hn x hx) s, hr]
  exact h3

theorem same (h : QuestInv q rp base d) (ht : e.trace = d.trace) (hr : e.rep = d.rep) : QuestInv q rp base e :=
  h.more [] (by simp [ht]) (by simp) hr

theorem note (h : QuestInv q rp base d) (x : Ev) (ht : e.trace = d.trace ++ [x]) (hx : still x = true)
    (hr : e.rep = d.rep) : QuestInv q rp base e :=
  h.more [x] ht (by simpa using hx) hr

theorem calls : Calls (QuestInv (S := S) (R := R) (X := X) q rp base) where
  io _ _ _ _ _ h := h.same rfl rfl
  isOpen _ _ h := h.same rfl rfl
  host _ _ _ _ h := h.same rfl rfl
  conn _ h _ _ := h.note _ rfl rfl rfl
  disc0 _ h _ := h.note _ rfl rfl rfl
  disc _ h _ := h.note _ rfl rfl rfl
  write0 _ h _ := h.note _ rfl rfl rfl
  write _ _ h _ := h.note _ rfl rfl rfl
  read _ _ h := h.note _ rfl rfl rfl
  rssi _ h := h.same rfl rfl
  userTx _ _ _ _ h := h.note _ rfl rfl rfl
  userRx _ _ _ _ h := h.note _ rfl rfl rfl

theorem calls' : Calls (fun d => True ∧ QuestInv (S := S) (R := R) (X := X) q rp base d) where
  io _ _ _ _ _ h := ⟨trivial, h.2.same rfl rfl⟩
  isOpen _ _ h := ⟨trivial, h.2.same rfl rfl⟩
  host _ _ _ _ h := ⟨trivial, h.2.same rfl rfl⟩
  conn _ h _ _ := ⟨trivial, h.2.note _ rfl rfl rfl⟩
  disc0 _ h _ := ⟨trivial, h.2.note _ rfl rfl rfl⟩
  disc _ h _ := ⟨trivial, h.2.note _ rfl rfl rfl⟩
  write0 _ h _ := ⟨trivial, h.2.note _ rfl rfl rfl⟩
  write _ _ h _ := ⟨trivial, h.2.note _ rfl rfl rfl⟩
  read _ _ h := ⟨trivial, h.2.note _ rfl rfl rfl⟩
  rssi _ h := ⟨trivial, h.2.same rfl rfl⟩
  userTx _ _ _ _ h := ⟨trivial, h.2.note _ rfl rfl rfl⟩
  userRx _ _ _ _ h := ⟨trivial, h.2.note _ rfl rfl rfl⟩

/-- The receive buffers were flushed or `resetStates()` was called. -/
theorem clear (h : QuestInv q rp base d) (x : Ev) (hx : x = .flush ∨ x = .apiReset)
    (ht : e.trace = d.trace ++ [x]) : QuestInv q rp base e := by
  obtain ⟨t, h1, h2, _⟩ := h
  refine ⟨t ++ [x], by rw [ht, h1, List.append_assoc], questOk_append h2 (by rcases hx with rfl | rfl <;> simp [sent]), ?_⟩
  intro w hw
  rw [Observer.after_snoc] at hw
  rcases hx with rfl | rfl <;> simp [asked] at hw

theorem asked_args (rest : List Ev) (ha : rest.all isArg = true) (s) : rest.foldl (asked q).step s = s := by
  induction rest generalizing s with
  | nil => rfl
  | cons e es ih =>
    simp only [List.all_cons, Bool.and_eq_true] at ha
    cases e <;> first | (simp [isArg] at ha; done) | skip
    rw [List.foldl_cons, ih ha.2]
    rfl

/-- A command, when no question is open. -/
theorem cmd (h : QuestInv q rp base d) (h0 : ∀ w, rp w ≠ some d.rep) {w g : List Byte} {rest : List Ev}
    (ht : e.trace = d.trace ++ .cmd w g :: rest) (ha : rest.all isArg = true)
    (hw : (q.lookup w).isSome = true → rp w = some e.rep) : QuestInv q rp base e := by
  obtain ⟨t, h1, h2, h3⟩ := h
  have h4 : (asked q).after t = none := by
    cases hh : (asked q).after t with
    | none => rfl
    | some w => exact absurd (h3 w hh) (h0 w)
  refine ⟨t ++ .cmd w g :: rest, by rw [ht, h1, List.append_assoc], ?_, ?_⟩
  · rw [show t ++ .cmd w g :: rest = (t ++ [.cmd w g]) ++ rest by simp]
    exact questOk_append (always_snoc.mpr ⟨h2, fun _ => h4⟩) fun x hx => isArg_sent ha hx
  · intro v hv
    rw [Observer.after_append, List.foldl_cons, asked_args _ ha] at hv
    simp only [asked] at hv
    split at hv
    · rename_i hs
      injection hv with hv
      rw [← hv]; exact hw hs
    · cases hv

theorem said (h : QuestInv q rp base d) (h0 : ∀ w, rp w ≠ some d.rep) {w : List Byte} (hs : Said d w e)
    (hw : (q.lookup w).isSome = true → rp w = some e.rep) : QuestInv q rp base e := by
  obtain ⟨⟨g, rest, ht, ha⟩, _⟩ := hs
  exact h.cmd h0 ht ha hw

/-- A command after the receive buffers were flushed. -/
theorem flushed (h : QuestInv q rp base d) {f : Dev S R X} (hf : f.trace = d.trace ++ [.flush]) {w : List Byte}
    (hs : Said f w e) (hw : q.lookup w = none) : QuestInv q rp base e := by
  obtain ⟨⟨g, rest, ht, ha⟩, _⟩ := hs
  obtain ⟨t, h1, h2, _⟩ := h
  refine ⟨t ++ [.flush] ++ .cmd w g :: rest, by rw [ht, hf, h1]; simp, ?_, ?_⟩
  · rw [show t ++ [.flush] ++ .cmd w g :: rest = (t ++ [.flush] ++ [.cmd w g]) ++ rest by simp]
    refine questOk_append (always_snoc.mpr ⟨always_snoc.mpr ⟨h2, by simp [sent]⟩, fun _ => ?_⟩) fun x hx => isArg_sent ha hx
    rw [Observer.after_snoc]; rfl
  · intro v hv
    rw [Observer.after_append, List.foldl_cons, asked_args _ ha] at hv
    simp [asked, hw] at hv

theorem turn {sd rc : S} {shape : Nat → List (List Byte) → Prop} {Q : Option (List Byte) → Dev S R X → Prop}
    (h : QuestInv q rp base d) (h0 : ∀ w, rp w ≠ some d.rep) (ht : Turn sd rc shape Q d e)
    (hs : q.lookup sendCmd = none)
    (hw : ∀ w g rest, e.trace = d.trace ++ .cmd w g :: rest → (q.lookup w).isSome = true → rp w = some e.rep) :
    QuestInv q rp base e := by
  have key : ∀ new, e.trace = d.trace ++ new → (∀ x ∈ new, still x = true) → QuestInv q rp base e := by
    intro new ht hn
    obtain ⟨t, h1, h2, h3⟩ := h
    refine ⟨t ++ new, by rw [ht, h1, List.append_assoc], questOk_append h2 fun x hx => sent_still (hn x hx), ?_⟩
    rw [Observer.after_neutral _ _ _ fun x hx s => asked_still (hn x hx) s]
    intro w hh
    exact absurd (h3 w hh) (h0 w)
  cases ht with
  | quiet ht _ _ => exact key [] (by simp [ht]) (by simp)
  | cmd w g rest ht _ ha _ _ _ => exact h.cmd h0 ht ha (hw w g rest ht)
  | send rest ht ha _ _ _ _ _ _ => exact h.cmd h0 ht ha fun x => by rw [hs] at x; cases x
  | pay _ ht _ _ _ _ =>
    obtain ⟨t, h1, h2, h3⟩ := h
    refine ⟨t ++ [.pay _], by rw [ht, h1, List.append_assoc], always_snoc.mpr ⟨h2, fun _ => ?_⟩, ?_⟩
    · cases hh : (asked q).after t with
      | none => rfl
      | some w => exact absurd (h3 w hh) (h0 w)
    · intro w hw
      rw [Observer.after_snoc] at hw
      simp [asked] at hw
  | data _ hq _ ht _ _ _ _ _ => exact key _ (ht.trans (receive_true hq).1) (by simp [still])

/-- A line was received. -/
theorem line {l : List Byte} (h : QuestInv q rp base d) (ht : e.trace = d.trace ++ [.line l])
    (hr : ∀ w v, q.lookup w = some v → rp w = some d.rep → v l = false → e.rep = d.rep) : QuestInv q rp base e := by
  obtain ⟨t, h1, h2, h3⟩ := h
  refine ⟨t ++ [.line l], by rw [ht, h1, List.append_assoc], questOk_append h2 (by simp [sent]), ?_⟩
  intro w hw
  rw [Observer.after_snoc] at hw
  cases e1 : (asked q).after t with
  | none => rw [e1] at hw; simp [asked] at hw
  | some w' =>
    rw [e1] at hw
    simp only [asked] at hw
    cases e2 : q.lookup w' with
    | none => rw [e2] at hw; simp at hw
    | some v =>
      rw [e2] at hw
      cases e3 : v l with
      | true => simp [e3] at hw
      | false =>
        simp only [Option.getD_some, e3, Bool.false_eq_true, if_false, Option.some.injEq] at hw
        subst hw
        rw [hr w' v e2 (h3 w' e1) e3]
        exact h3 w' e1

theorem start (d : Dev S R X) : QuestInv q rp d.trace d :=
  ⟨[], by simp, always_nil _, fun w hw => by simp [asked] at hw⟩

theorem first (ht : d.trace = [.apiReset]) : QuestInv q rp [] d :=
  ⟨[.apiReset], by simp [ht], questOk_append (always_nil _) (new := [.apiReset]) (by simp [sent]), fun w hw => by
    simp [asked, Observer.after] at hw⟩

end QuestInv

/-! ### In terms of the trace -/

theorem questOk_form {t : List Ev} (h : QuestOk q t) : Awaited q t := by
  intro pre w g mid post v ht hv hl hf hr
  have key : ∀ a, (∃ b, mid = a ++ b) →
      (asked q).after (pre ++ .cmd w g :: a) = some w ∧ ∀ x ∈ a, sent x = none := by
    refine snocInd (P := fun a => (∃ b, mid = a ++ b) →
      (asked q).after (pre ++ .cmd w g :: a) = some w ∧ ∀ x ∈ a, sent x = none) ?_ ?_
    · intro _
      exact ⟨by rw [Observer.after_snoc]; simp [asked, hv], by simp⟩
    · rintro a x ih ⟨b, hb⟩
      obtain ⟨h1, h2⟩ := ih ⟨x :: b, by rw [hb]; simp⟩
      have h3 := h (pre ++ .cmd w g :: a) x (b ++ post) (by rw [ht, hb]; simp)
      have h4 : sent x = none := by
        cases hs : sent x with
        | none => rfl
        | some k => rw [h3 (by rw [hs]; simp)] at h1; cases h1
      have hx : x ∈ mid := by rw [hb]; simp
      refine ⟨?_, fun y hy => ?_⟩
      · rw [show pre ++ .cmd w g :: (a ++ [x]) = (pre ++ .cmd w g :: a) ++ [x] by simp, Observer.after_snoc, h1]
        cases x with
        | cmd w g => simp [sent] at h4
        | pay bs => simp [sent] at h4
        | flush => exact absurd hx hf
        | apiReset => exact absurd hx hr
        | line l => simp [asked, hv, hl l hx]
        | _ => rfl
      · rcases List.mem_append.mp hy with hy | hy
        · exact h2 y hy
        · rw [List.mem_singleton.mp hy]; exact h4
  exact (key mid ⟨[], by simp⟩).2

end Verif
