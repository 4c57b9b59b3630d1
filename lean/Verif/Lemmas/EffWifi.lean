import Verif.Lemmas.EffSim

/-!
# `run()` of the WiFi and WiSUN drivers as a sequence of primitive operations
-/

namespace Verif

open Dev

variable {x : List Byte → Byte → Prop} {st : Bool}

namespace Espressif

/-- A line may also end at the separator of a data header. -/
def HeaderEnd (l : List Byte) (c : Byte) : Prop :=
  c = 58 ∨ (c = 44 ∧ b!"+CIPRECVDATA:" <+: l)

theorem stopOk (t : ConnType) (r : Rep) : StopOk HeaderEnd (lineStop t r) where
  full m c := by simp [lineStop]
  nl m k := by simp [lineStop]
  gt m k := by simp [lineStop]
  fin m k c r' h := by
    unfold lineStop at h
    split at h
    · rename_i hc
      rcases hc with hc | hc | hc | hc
      · exact Or.inl hc
      · exact Or.inr (Or.inl hc)
      · exact Or.inr (Or.inr (Or.inr (Or.inl hc.2.2.2.2)))
      · exact Or.inr (Or.inr (Or.inl hc))
    · split at h
      · rename_i hc
        obtain ⟨_, hk, ⟨h1, _⟩ | ⟨h1, h2⟩⟩ := hc
        · exact Or.inr (Or.inr (Or.inr (Or.inl h1)))
        · refine Or.inr (Or.inr (Or.inr (Or.inr ⟨h1, ?_⟩)))
          have h3 := (hasPrefix_iff m _ (by decide)).mp h2
          exact List.prefix_take_iff.mpr ⟨h3, by simp; omega⟩
      · simp at h

@[simp] theorem parseSendFail_lbFill (d : D) : (parseSendFail d).lbFill = d.lbFill := by
  unfold parseSendFail
  split <;> rfl

@[simp] theorem parseWait_lbFill (d : D) : (parseWait d).lbFill = d.lbFill := by
  unfold parseWait
  split <;> rfl

@[simp] theorem parseReply_lbFill (p : Platform) (d : D) : (parseReply p d).lbFill = d.lbFill := by
  unfold parseReply
  split <;> (try dsimp only) <;> (repeat' split) <;> simp

@[simp] theorem checkState_lbFill (p : Platform) (d : D) : (checkState p d).lbFill = d.lbFill := by
  unfold checkState
  (try dsimp only) <;> (repeat' split) <;> simp

@[simp] theorem parseLine_lbFill (p : Platform) (d : D) : (parseLine p d).1.lbFill = d.lbFill := by
  unfold parseLine
  split <;> simp

theorem eff_handleReset (d : D) : Eff HeaderEnd st d (handleReset d) := by
  unfold handleReset
  eff

theorem eff_parseSendFail (d : D) : Eff HeaderEnd st d (parseSendFail d) := by
  unfold parseSendFail
  eff

theorem eff_parseWait (d : D) : Eff HeaderEnd st d (parseWait d) := by
  unfold parseWait
  eff

theorem eff_parseReply (p : Platform) (d : D) : Eff HeaderEnd st d (parseReply p d) := by
  have h1 : Eff HeaderEnd st d (parseCiprecvdata p d).1 := by unfold parseCiprecvdata; eff
  unfold parseReply
  split <;> eff

theorem eff_checkState (p : Platform) (d : D) : Eff HeaderEnd st d (checkState p d) := by
  unfold checkState
  eff

theorem eff_parseLine (p : Platform) (d : D) : Eff HeaderEnd st d (parseLine p d).1 := by
  unfold parseLine
  eff
  exact (((eff_parseSendFail d).trans (eff_parseWait _)).trans (eff_parseReply p _)).trans
    (eff_checkState p _)

theorem eff_flushIfDisconnecting (d : D) (hz : Clear st d) : Eff HeaderEnd st d (flushIfDisconnecting d) := by
  unfold flushIfDisconnecting
  split
  · exact .flushReadBuffer _ hz
  · exact .refl _

theorem eff_act (d : D) (hz : Clear st d) : Eff HeaderEnd st d (act d) := by
  have h2 : Eff HeaderEnd st d (sendCiprcvdata d).1 := by unfold sendCiprcvdata; eff
  have h3 := Eff.receive (x := HeaderEnd) (strict := st) d hz
  unfold act
  split <;> (try unfold actCwjap) <;> (try unfold actCipstart) <;> (try unfold actConnected) <;>
    (try unfold actCiprecvdata) <;> (try unfold actReceiving) <;> eff

theorem eff_proceed (p : Platform) (d : D) (hz : Clear st d) : Eff HeaderEnd st d (proceed p d) := by
  unfold proceed
  split
  · exact .refl _
  · split
    · exact .askSpace _
    · refine (Eff.askSpace _).trans ?_
      have hz' : Clear st d.askSpace := hz
      generalize d.askSpace = d at hz'
      have := eff_act d hz'
      unfold sendNext
      split
      · eff
      · split
        · eff
        · assumption

theorem eff_work (p : Platform) (d : D) (h : st = true → Quiet d) : Eff HeaderEnd st d (work p d) := by
  unfold work
  have h1 : Eff HeaderEnd st d (fillLineBuffer d).1 := .fillLine _ _ (stopOk _ _)
  have h2 : Clear st (fillLineBuffer d).1 := fillLine_clear (lineStop d.typ d.rep) h
  dsimp only
  split
  · rename_i hf
    have h3 := fillLine_fill hf
    have h4 := h1.trans (eff_parseLine p _)
    split
    · exact h4
    · refine h4.trans (eff_proceed p _ ?_)
      intro _ _
      rw [parseLine_lbFill]
      exact h3
  · refine (h1.trans (eff_flushIfDisconnecting _ h2)).trans (eff_proceed p _ ?_)
    intro h3 h4
    have h5 := h2 h3
    unfold flushIfDisconnecting at h4 ⊢
    split
    · rename_i hc
      rw [if_pos hc] at h4
      refine h5 ?_
      intro h6
      apply h4
      show (flushLoop _ _).2.1 = 0
      have h7 : (fillLineBuffer d).1.bytesToRead = 0 := h6
      rw [h7]
      rfl
    · rename_i hc
      rw [if_neg hc] at h4
      exact h5 h4

theorem eff_run (p : Platform) (d : D) (ok : Bool) (h : st = true → Quiet d) :
    Eff HeaderEnd st d (run p d ok) := by
  unfold run
  split
  · unfold tryOpen; eff
  · split
    · exact eff_handleReset d
    · exact eff_work p d h

end Espressif

namespace CC1352P7

theorem stopOk (r : Rep) : StopOk x (lineStop r) where
  full m c := by simp [lineStop]
  nl m k := by simp [lineStop]
  gt m k := by simp [lineStop]
  fin m k c r h := by
    unfold lineStop at h
    split at h
    · rename_i hc
      rcases hc with hc | hc | hc
      · exact Or.inl hc
      · exact Or.inr (Or.inl hc)
      · exact Or.inr (Or.inr (Or.inl hc))
    · simp at h

@[simp] theorem parseWait_lbFill (d : D) : (parseWait d).lbFill = d.lbFill := by
  unfold parseWait
  split <;> rfl

@[simp] theorem parseReply_lbFill (p : Platform) (d : D) : (parseReply p d).lbFill = d.lbFill := by
  unfold parseReply
  split <;> (try dsimp only) <;> (repeat' split) <;> simp

@[simp] theorem checkState_lbFill (p : Platform) (d : D) : (checkState p d).lbFill = d.lbFill := by
  unfold checkState
  (try dsimp only) <;> (repeat' split) <;> simp

@[simp] theorem parseLine_lbFill (p : Platform) (d : D) : (parseLine p d).1.lbFill = d.lbFill := by
  unfold parseLine
  split <;> simp

theorem eff_handleReset (d : D) : Eff x st d (handleReset d) := by
  unfold handleReset
  eff

theorem eff_parseWait (d : D) : Eff x st d (parseWait d) := by
  unfold parseWait
  eff

theorem eff_parseReply (p : Platform) (d : D) : Eff x st d (parseReply p d) := by
  have h1 : Eff x st d (parseCiprecvdata p d).1 := by unfold parseCiprecvdata; eff
  have h2 : Eff x st d (parseCsq p d).1 := by unfold parseCsq; eff
  have h3 : ∀ y, Eff x st d y → Eff x st d (parseMac y) := by intro y hy; unfold parseMac; eff
  unfold parseReply
  split
  · eff
  · apply h3; eff
  · apply h3; eff
  · eff

theorem eff_checkState (p : Platform) (d : D) : Eff x st d (checkState p d) := by
  unfold checkState
  eff

theorem eff_parseLine (p : Platform) (d : D) : Eff x st d (parseLine p d).1 := by
  unfold parseLine
  eff
  exact ((eff_parseWait d).trans (eff_parseReply p _)).trans
    (eff_checkState p _)

theorem eff_flushIfDisconnecting (d : D) (hz : Clear st d) : Eff x st d (flushIfDisconnecting d) := by
  unfold flushIfDisconnecting
  split
  · exact .flushReadBuffer _ hz
  · exact .refl _

theorem eff_act (d : D) (hz : Clear st d) : Eff x st d (act d) := by
  have h2 : Eff x st d (sendCiprcvdata d).1 := by unfold sendCiprcvdata; eff
  have h3 := Eff.receive (x := x) (strict := st) d hz
  unfold act
  split <;> (try unfold actCipstart) <;> (try unfold actConnected) <;>
    (try unfold actCiprecvdata) <;> (try unfold actReceiving) <;> eff

theorem eff_proceed (p : Platform) (d : D) (hz : Clear st d) : Eff x st d (proceed p d) := by
  unfold proceed
  split
  · exact .refl _
  · split
    · exact .askSpace _
    · refine (Eff.askSpace _).trans ?_
      have hz' : Clear st d.askSpace := hz
      generalize d.askSpace = d at hz'
      have := eff_act (x := x) d hz'
      unfold sendNext
      split
      · eff
      · split
        · eff
        · assumption

theorem eff_work (p : Platform) (d : D) (h : st = true → Quiet d) : Eff x st d (work p d) := by
  unfold work
  have h1 : Eff x st d (fillLineBuffer d).1 := .fillLine _ _ (stopOk _)
  have h2 : Clear st (fillLineBuffer d).1 := fillLine_clear (lineStop d.rep) h
  dsimp only
  split
  · rename_i hf
    have h3 := fillLine_fill hf
    have h4 := h1.trans (eff_parseLine p _)
    split
    · exact h4
    · refine h4.trans (eff_proceed p _ ?_)
      intro _ _
      rw [parseLine_lbFill]
      exact h3
  · refine (h1.trans (eff_flushIfDisconnecting _ h2)).trans (eff_proceed p _ ?_)
    intro h3 h4
    have h5 := h2 h3
    unfold flushIfDisconnecting at h4 ⊢
    split
    · rename_i hc
      rw [if_pos hc] at h4
      refine h5 ?_
      intro h6
      apply h4
      show (flushLoop _ _).2.1 = 0
      have h7 : (fillLineBuffer d).1.bytesToRead = 0 := h6
      rw [h7]
      rfl
    · rename_i hc
      rw [if_neg hc] at h4
      exact h5 h4

theorem quiet_handleReset (d : D) : Quiet (handleReset d) := by
  intro h
  unfold handleReset at h
  dsimp only at h
  split at h <;> simp at h

theorem eff_run (p : Platform) (d : D) (ok : Bool) (h : st = true → Quiet d) :
    Eff x st d (run p d ok) := by
  unfold run
  split
  · unfold tryOpen; eff
  · split
    · exact (eff_handleReset d).trans (eff_work p _ fun _ => quiet_handleReset d)
    · exact eff_work p d h

end CC1352P7
end Verif
