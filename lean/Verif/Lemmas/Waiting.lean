import Verif.Lemmas.Payload

/-! Invariant: after a command or a block of payload the driver waits for the answer before it transmits
again. -/

namespace Verif

open Dev Spec

variable {S R X : Type}

/-- Nothing is transmitted while a command is pending. -/
def SentOk (r : Replies) (t : List Ev) : Prop :=
  Always (fun pre e => sent e ≠ none → (pend r).after pre = none) t

structure WaitInv (r : Replies) (special : Option (List Byte) → R → Prop) (d : Dev S R X) : Prop where
  ok : SentOk r d.trace
  st : d.resetPending = false → ∀ k, (pend r).after d.trace = some k → Waits r special k d

variable {r : Replies} {special : Option (List Byte) → R → Prop}

theorem sentOk_append {t new : List Ev} (h : SentOk r t) (hn : ∀ e ∈ new, sent e = none) :
    SentOk r (t ++ new) := by
  induction new generalizing t with
  | nil => simpa using h
  | cons e es ih =>
    rw [show t ++ e :: es = (t ++ [e]) ++ es by simp]
    refine ih (always_snoc.mpr ⟨h, fun hb => absurd (hn e (by simp)) hb⟩) fun x hx => hn x (by simp [hx])

/-- Events that concern neither commands nor answers. -/
def still : Ev → Bool
  | .cmd _ _ | .pay _ | .line _ | .apiReset | .flush => false
  | _ => true

theorem pend_still {e : Ev} (h : still e = true) (s) : (pend r).step s e = s := by
  cases e <;> first | rfl | simp [still] at h

theorem sent_still {e : Ev} (h : still e = true) : sent e = none := by
  cases e <;> first | rfl | simp [still] at h

theorem WaitInv.more {d e : Dev S R X} (h : WaitInv r special d) (new : List Ev)
    (ht : e.trace = d.trace ++ new) (hn : ∀ x ∈ new, still x = true)
    (hs : e.resetPending = false → d.resetPending = false ∧
      ∀ k, Waits r special k d → Waits r special k e) :
    WaitInv r special e := by
  have hk : (pend r).after e.trace = (pend r).after d.trace := by
    rw [ht]; exact Observer.after_neutral _ _ _ fun x hx s => pend_still (hn x hx) s
  refine ⟨by rw [ht]; exact sentOk_append h.ok fun x hx => sent_still (hn x hx), fun h1 k hkk => ?_⟩
  rw [hk] at hkk
  exact (hs h1).2 k (h.st (hs h1).1 k hkk)

theorem WaitInv.same {d e : Dev S R X} (h : WaitInv r special d) (ht : e.trace = d.trace)
    (hs : e.resetPending = d.resetPending) (hw : e.wait = d.wait) (hr : e.rep = d.rep) :
    WaitInv r special e :=
  h.more [] (by simp [ht]) (by simp) fun x => ⟨by rw [← hs]; exact x, fun k y => by
    unfold Waits at y ⊢; rw [hw, hr]; exact y⟩

theorem WaitInv.note {d e : Dev S R X} (h : WaitInv r special d) (x : Ev)
    (ht : e.trace = d.trace ++ [x]) (hx : still x = true)
    (hs : e.resetPending = d.resetPending) (hw : e.wait = d.wait) (hr : e.rep = d.rep) :
    WaitInv r special e :=
  h.more [x] ht (by simpa using hx) fun x => ⟨by rw [← hs]; exact x, fun k y => by
    unfold Waits at y ⊢; rw [hw, hr]; exact y⟩

theorem waitInv_calls : Calls (WaitInv (S := S) (R := R) (X := X) r special) where
  io _ _ _ _ _ h := h.same rfl rfl rfl rfl
  isOpen _ _ h := h.same rfl rfl rfl rfl
  host _ _ _ _ h := h.same rfl rfl rfl rfl
  conn _ h _ _ := h.note _ rfl rfl rfl rfl rfl
  disc0 _ h _ := h.note _ rfl rfl rfl rfl rfl
  disc _ h _ := h.note _ rfl rfl rfl rfl rfl
  write0 _ h _ := h.note _ rfl rfl rfl rfl rfl
  write _ _ h _ := h.note _ rfl rfl rfl rfl rfl
  read _ _ h := h.note _ rfl rfl rfl rfl rfl
  rssi _ h := h.same rfl rfl rfl rfl
  userTx _ _ _ _ h := h.note _ rfl rfl rfl rfl rfl
  userRx _ _ _ _ h := h.note _ rfl rfl rfl rfl rfl

/-- The receive buffers were flushed or `resetStates()` was called. -/
theorem WaitInv.clear {d e : Dev S R X} (h : WaitInv r special d) (x : Ev)
    (hx : x = .flush ∨ x = .apiReset) (ht : e.trace = d.trace ++ [x]) : WaitInv r special e := by
  refine ⟨?_, fun _ k hk => ?_⟩
  · rw [ht]; exact sentOk_append h.ok (by rcases hx with rfl | rfl <;> simp [sent])
  · rw [ht, Observer.after_snoc] at hk
    rcases hx with rfl | rfl <;> simp [pend] at hk

theorem pend_args (rest : List Ev) (ha : rest.all isArg = true) (s) :
    rest.foldl (pend r).step s = s := by
  induction rest generalizing s with
  | nil => rfl
  | cons e es ih =>
    simp only [List.all_cons, Bool.and_eq_true] at ha
    cases e <;> first | (simp [isArg] at ha; done) | skip
    rw [List.foldl_cons, ih ha.2]
    rfl

theorem isArg_sent {rest : List Ev} (ha : rest.all isArg = true) {x : Ev} (hx : x ∈ rest) :
    sent x = none := by
  have := List.all_eq_true.mp ha x hx
  cases x <;> first | rfl | simp [isArg] at this

/-- Nothing is pending: a command is sent. -/
theorem sentOk_cmd {t : List Ev} (h : SentOk r t) (h0 : (pend r).after t = none) {w g : List Byte}
    {rest : List Ev} (ha : rest.all isArg = true) :
    SentOk r (t ++ .cmd w g :: rest) ∧ (pend r).after (t ++ .cmd w g :: rest) = some (some w) := by
  constructor
  · rw [show t ++ .cmd w g :: rest = (t ++ [.cmd w g]) ++ rest by simp]
    exact sentOk_append (always_snoc.mpr ⟨h, fun _ => h0⟩) fun x hx => isArg_sent ha hx
  · rw [Observer.after_append, List.foldl_cons, pend_args _ ha]
    rfl

theorem WaitInv.idle {d : Dev S R X} (h : WaitInv r special d) {rp : R} (hsp : ∀ k, ¬ special k rp)
    (hr : d.resetPending = false) (hw : d.wait = none) (hp : d.rep = rp) :
    (pend r).after d.trace = none := by
  cases e : (pend r).after d.trace with
  | none => rfl
  | some k =>
    rcases h.st hr k e with ⟨q, _, hq⟩ | hk
    · rw [hw] at hq; simp at hq
    · rw [hp] at hk; exact absurd hk (hsp k)

theorem waitInv_said {d e : Dev S R X} {w : List Byte} (h : WaitInv r special d)
    (h0 : (pend r).after d.trace = none) (hs : Said d w e) (hq : Waits r special (some w) e) :
    WaitInv r special e := by
  obtain ⟨⟨g, rest, ht, ha⟩, _⟩ := hs
  obtain ⟨k1, k2⟩ := sentOk_cmd h.ok h0 (w := w) (g := g) ha
  refine ⟨by rw [ht]; exact k1, fun _ k hk => ?_⟩
  rw [ht, k2] at hk
  injection hk with hk
  rw [← hk]; exact hq

theorem waitInv_turn {sd rc : S} {shape : Nat → List (List Byte) → Prop} {rp : R} {d e : Dev S R X}
    (h : WaitInv r special d) (hsp : ∀ k, ¬ special k rp)
    (hr : d.resetPending = false) (hw : d.wait = none) (hp : d.rep = rp)
    (hc : r.words (some sendCmd) = [b!">"])
    (ht : Turn sd rc shape (Waits r special) d e) : WaitInv r special e := by
  have h0 := h.idle hsp hr hw hp
  have key : ∀ new, e.trace = d.trace ++ new → (∀ x ∈ new, still x = true) → WaitInv r special e := by
    intro new ht hn
    have hk : (pend r).after e.trace = (pend r).after d.trace := by
      rw [ht]; exact Observer.after_neutral _ _ _ fun x hx s => pend_still (hn x hx) s
    refine ⟨by rw [ht]; exact sentOk_append h.ok fun x hx => sent_still (hn x hx), fun _ k hkk => ?_⟩
    rw [hk, h0] at hkk
    simp at hkk
  cases ht with
  | quiet ht hs hk => exact key [] (by simp [ht]) (by simp)
  | cmd w g rest ht hw ha hs hk hq => exact waitInv_said h h0 ⟨⟨g, rest, ht, ha⟩, hk⟩ hq
  | send rest ht ha hn hsh hwt hrp hs hk =>
    obtain ⟨k1, k2⟩ := sentOk_cmd h.ok h0 (w := sendCmd) (g := sendCmd) ha
    refine ⟨by rw [ht]; exact k1, fun _ k hk => ?_⟩
    rw [ht, k2] at hk
    injection hk with hk
    rw [← hk]
    exact Or.inl ⟨b!">", by rw [hc]; simp, hwt⟩
  | pay h1 ht hb hs hk hp =>
    refine ⟨by rw [ht]; exact always_snoc.mpr ⟨h.ok, fun _ => h0⟩, fun _ k hk => ?_⟩
    rw [ht, Observer.after_snoc] at hk
    simp only [pend] at hk
    injection hk with hk
    rw [← hk]; exact hp
  | data h1 hq h2 ht hb h3 hs hl hk => exact key _ (ht.trans (receive_true hq).1) (by simp [still])

/-- A line was received. -/
theorem waitInv_line {d e : Dev S R X} {l : List Byte} (h : WaitInv r special d)
    (ht : e.trace = d.trace ++ [.line l])
    (hs : e.resetPending = false → d.resetPending = false ∧
      ∀ k, r.ends k l = false → Waits r special k d → Waits r special k e) :
    WaitInv r special e := by
  refine ⟨by rw [ht]; exact sentOk_append h.ok (by simp [sent]), fun h1 k hk => ?_⟩
  rw [ht, Observer.after_snoc] at hk
  cases e1 : (pend r).after d.trace with
  | none => rw [e1] at hk; simp [pend] at hk
  | some k' =>
    rw [e1] at hk
    simp only [pend] at hk
    cases e2 : r.ends k' l with
    | true => rw [e2] at hk; simp at hk
    | false =>
      rw [e2] at hk
      simp only [Bool.false_eq_true, if_false, Option.some.injEq] at hk
      subst hk
      exact (hs h1).2 k' e2 (h.st (hs h1).1 k' e1)

/-- The line ends neither this nor any waiting. -/
theorem ends_false {k : Option (List Byte)} {l : List Byte} (h : r.ends k l = false) :
    (∀ q ∈ r.any, ¬ q <+: l) ∧ (∀ q ∈ r.words k, ¬ q <+: l) ∧ r.test k l = false := by
  unfold Replies.ends at h
  simp only [Bool.or_eq_false_iff, List.any_eq_false, List.isPrefixOf_iff_prefix] at h
  exact ⟨h.1.1, h.1.2, h.2⟩

theorem ends_of_word {k : Option (List Byte)} {q l : List Byte} (hq : q ∈ r.words k) (h : q <+: l) :
    r.ends k l = true := by
  unfold Replies.ends
  simp only [Bool.or_eq_true, List.any_eq_true, List.isPrefixOf_iff_prefix]
  exact Or.inl (Or.inr ⟨q, hq, h⟩)

theorem waits_match {d : Dev S R X} {q : List Byte} (h : d.wait = some q) (hm : d.waitMatches = true) :
    d.has q = true := by
  unfold waitMatches at hm
  rw [h] at hm
  exact hm

/-! ### In terms of the trace -/

theorem pend_keeps {k : Option (List Byte)} (mid : List Ev)
    (h : ∀ x ∈ mid, sent x = none ∧ x ≠ .flush ∧ x ≠ .apiReset ∧ ∀ l, x = .line l → r.ends k l = false) :
    mid.foldl (pend r).step (some k) = some k := by
  induction mid with
  | nil => rfl
  | cons x mid ih =>
    obtain ⟨h1, h2, h3, h4⟩ := h x (by simp)
    have e : (pend r).step (some k) x = some k := by
      cases x with
      | cmd w g => simp [sent] at h1
      | pay bs => simp [sent] at h1
      | flush => exact absurd rfl h2
      | apiReset => exact absurd rfl h3
      | line l => simp [pend, h4 l rfl]
      | _ => rfl
    rw [List.foldl_cons, e]
    exact ih fun y hy => h y (by simp [hy])

theorem pend_some {k : Option (List Byte)} (pre mid : List Ev) {e : Ev} (he : sent e = some k)
    (h : ∀ x ∈ mid, sent x = none ∧ x ≠ .flush ∧ x ≠ .apiReset ∧ ∀ l, x = .line l → r.ends k l = false) :
    (pend r).after (pre ++ e :: mid) = some k := by
  rw [Observer.after_append, List.foldl_cons]
  have e1 : (pend r).step ((pend r).after pre) e = some k := by
    cases e <;> simp [sent] at he <;> subst he <;> rfl
  rw [e1]
  exact pend_keeps mid h

/-- Between two transmissions lies an answer to the first one, a flush of the receive buffers or a
`resetStates()`. -/
theorem sentOk_form {t : List Ev} (h : SentOk r t) {pre mid post : List Ev} {e e' : Ev}
    {k : Option (List Byte)} (ht : t = pre ++ e :: mid ++ e' :: post) (he : sent e = some k)
    (he' : sent e' ≠ none) (hm : ∀ x ∈ mid, sent x = none) :
    (∃ l, .line l ∈ mid ∧ r.ends k l = true) ∨ .flush ∈ mid ∨ .apiReset ∈ mid := by
  have h0 := h (pre ++ e :: mid) e' post ht he'
  refine Classical.byContradiction fun hn => ?_
  simp only [not_or, not_exists, not_and] at hn
  have := pend_some (r := r) pre mid he fun x hx =>
    ⟨hm x hx, fun hf => hn.2.1 (hf ▸ hx), fun hf => hn.2.2 (hf ▸ hx), fun l hl => by
      cases e2 : r.ends k l with
      | false => rfl
      | true => exact absurd e2 (hn.1 l (hl ▸ hx))⟩
  rw [h0] at this
  simp at this

end Verif
