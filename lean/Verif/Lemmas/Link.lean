import Verif.Lemmas.Events

/-! Lemmas about the observer `Spec.link`. -/

namespace Verif

/-- Connected, transmitting or receiving. -/
def isConn (c : ConnState) : Bool := c == .connected || c == .transmitting || c == .receiving

namespace Spec

section

variable {o s : List Byte} {c : List (List Byte)}

/-- Events that mean nothing to `link`. -/
def linkMute : Ev → Bool
  | .cmd _ _ => false
  | .line _ => false
  | .apiReset => false
  | _ => true

theorem link_mute {e : Ev} (h : linkMute e = true) (k : Link) : (link o s c).step k e = k := by
  cases e <;> simp_all [link, linkMute]

@[simp] theorem link_arg (k : Link) (w g : List Byte) : (link o s c).step k (.arg w g) = k := rfl
@[simp] theorem link_pay (k : Link) (w : List Byte) : (link o s c).step k (.pay w) = k := rfl
@[simp] theorem link_data (k : Link) (w : List Byte) : (link o s c).step k (.data w) = k := rfl
@[simp] theorem link_drop (k : Link) (w : List Byte) : (link o s c).step k (.drop w) = k := rfl
@[simp] theorem link_flush (k : Link) : (link o s c).step k .flush = k := rfl
@[simp] theorem link_reset (k : Link) : (link o s c).step k .apiReset = .down := rfl
@[simp] theorem link_conn (k : Link) : (link o s c).step k .apiConnect = k := rfl
@[simp] theorem link_disc (k : Link) : (link o s c).step k .apiDisconnect = k := rfl
@[simp] theorem link_write (k : Link) (w : List Byte) : (link o s c).step k (.apiWrite w) = k := rfl
@[simp] theorem link_read (k : Link) (w : List Byte) : (link o s c).step k (.apiRead w) = k := rfl
@[simp] theorem link_utx (k : Link) (w : List Byte) : (link o s c).step k (.userTx w) = k := rfl
@[simp] theorem link_urx (k : Link) (w : List Byte) : (link o s c).step k (.userRx w) = k := rfl

@[simp] theorem link_cmd' (k : Link) (w g : List Byte) : (link o s c).step k (.cmd w g) =
    if w ∈ c then .down else if w = o ∧ g = o then .asked else k := rfl

theorem link_cmd {w : List Byte} (h : w ∉ c) (h2 : w ≠ o) (k : Link) (g : List Byte) :
    (link o s c).step k (.cmd w g) = k := by
  simp [link, h, h2]

theorem link_clear {w : List Byte} (h : w ∈ c) (k : Link) (g : List Byte) :
    (link o s c).step k (.cmd w g) = .down := by
  simp [link, h]

theorem link_open (h : o ∉ c) (k : Link) : (link o s c).step k (.cmd o o) = .asked := by
  simp [link, h]

theorem link_line_up (l : List Byte) : (link o s c).step .up (.line l) = .up := by
  simp [link]

theorem link_line_asked {l : List Byte} (h : s <+: l) : (link o s c).step .asked (.line l) = .up := by
  simp [link, h]

theorem link_line (l : List Byte) (k : Link) : (link o s c).step k (.line l) = k ∨
    (link o s c).step k (.line l) = .up := by
  simp only [link]
  split
  · exact Or.inr rfl
  · exact Or.inl rfl

theorem link_line_not_up {l : List Byte} {k : Link} (h : k ≠ .up) (hs : ¬ (k = .asked ∧ s <+: l)) :
    (link o s c).step k (.line l) = k := by
  simp only [link]
  rw [if_neg hs]

/-- Does the event end a connection attempt or connection: a command of the list or a reset? -/
def isClear (c : List (List Byte)) : Ev → Bool
  | .cmd w _ => c.contains w
  | .apiReset => true
  | _ => false

theorem link_asked_iff (t : List Ev) (h : (link o s c).after t = .asked) :
    ∃ pre mid, t = pre ++ .cmd o o :: mid ∧ ∀ e ∈ mid, isClear c e = false := by
  induction t using snocInd with
  | nil => simp [link] at h
  | snoc t e ih =>
    rw [Observer.after_snoc] at h
    have keep : (link o s c).after t = .asked → isClear c e = false →
        ∃ pre mid, t ++ [e] = pre ++ .cmd o o :: mid ∧ ∀ e ∈ mid, isClear c e = false := by
      intro h1 h2
      obtain ⟨pre, mid, h3, h4⟩ := ih h1
      refine ⟨pre, mid ++ [e], by simp [h3], ?_⟩
      intro x hx
      rcases List.mem_append.mp hx with hx | hx
      · exact h4 x hx
      · simp at hx; subst hx; exact h2
    cases e with
    | cmd w g =>
      rw [link_cmd'] at h
      split at h
      · simp at h
      · rename_i hw
        split at h
        · rename_i h2
          obtain ⟨rfl, rfl⟩ := h2
          exact ⟨t, [], rfl, by simp⟩
        · exact keep h (by simp [isClear, hw])
    | line l =>
      rcases link_line (o := o) (s := s) (c := c) l ((link o s c).after t) with h2 | h2
      · rw [h2] at h; exact keep h rfl
      · rw [h2] at h; simp at h
    | apiReset => simp [link_reset] at h
    | _ => exact keep (by simpa [link] using h) rfl

/-- The observer says "up" only after the open command and the success line, with nothing in between
and afterwards that ends the attempt or connection. -/
theorem link_up_iff (t : List Ev) (h : (link o s c).after t = .up) :
    ∃ pre mid l post, t = pre ++ .cmd o o :: mid ++ .line l :: post ∧ s <+: l ∧
      (∀ e ∈ mid, isClear c e = false) ∧ (∀ e ∈ post, isClear c e = false ∧ e ≠ .cmd o o) := by
  induction t using snocInd with
  | nil => simp [link] at h
  | snoc t e ih =>
    rw [Observer.after_snoc] at h
    have keep : (link o s c).after t = .up → isClear c e = false ∧ e ≠ .cmd o o →
        ∃ pre mid l post, t ++ [e] = pre ++ .cmd o o :: mid ++ .line l :: post ∧ s <+: l ∧
          (∀ e ∈ mid, isClear c e = false) ∧ (∀ e ∈ post, isClear c e = false ∧ e ≠ .cmd o o) := by
      intro h1 h2
      obtain ⟨pre, mid, l, post, h3, h4, h5, h6⟩ := ih h1
      refine ⟨pre, mid, l, post ++ [e], by simp [h3], h4, h5, ?_⟩
      intro x hx
      rcases List.mem_append.mp hx with hx | hx
      · exact h6 x hx
      · simp at hx; subst hx; exact h2
    cases e with
    | cmd w g =>
      rw [link_cmd'] at h
      split at h
      · simp at h
      · rename_i hw
        split at h
        · simp at h
        · rename_i h2
          exact keep h ⟨by simp [isClear, hw], by simpa using h2⟩
    | line l =>
      by_cases hk : (link o s c).after t = .up
      · exact keep hk (by simp [isClear])
      · by_cases ha : (link o s c).after t = .asked ∧ s <+: l
        · obtain ⟨pre, mid, h3, h4⟩ := link_asked_iff t ha.1
          exact ⟨pre, mid, l, [], by simp [h3], ha.2, h4, by simp⟩
        · rw [link_line_not_up hk ha] at h
          exact absurd h hk
    | apiReset => simp [link_reset] at h
    | _ => exact keep (by simpa [link] using h) ⟨rfl, by simp⟩

end

end Spec

end Verif
