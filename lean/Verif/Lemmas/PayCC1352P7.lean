import Verif.Lemmas.Payload
import Verif.Lemmas.TurnCC1352P7

/-! Payload of the CC1352P7 driver. -/

namespace Verif.CC1352P7

open Dev Spec

/-- Commands that may come between prompt and payload. -/
def statusCmds : List (List Byte) :=
  [b!"AT+CSQ", b!"AT+CIPSTAMAC"]

/-- The line after which the driver sends the payload. -/
def prompts : List (List Byte) := [b!">"]

abbrev TxI : D → Prop := TxInv prompts statusCmds sendArgs .sendDataState .okReply

abbrev OutI : D → Prop := OutInv (S := Snd) .sendDataState

theorem parseWait_tx (d : D) :
    (parseWait d).snd = d.snd ∧ (parseWait d).wbuf = d.wbuf ∧ (parseWait d).bytesToWrite = d.bytesToWrite ∧
    (parseWait d).resetPending = d.resetPending := by
  unfold parseWait
  split <;> simp

theorem parseReply_tx (p : Platform) (d : D) :
    ((parseReply p d).snd = .sendDataState → d.snd = .sendDataState) ∧
    (parseReply p d).wbuf = d.wbuf ∧ (parseReply p d).bytesToWrite = d.bytesToWrite ∧
    ((parseReply p d).resetPending = false → d.resetPending = false) := by

  unfold parseReply
  split <;> (try dsimp only) <;> (repeat' split) <;> simp_all

theorem checkState_tx (p : Platform) (d : D) :
    ((checkState p d).snd = .sendDataState → d.snd = .sendDataState) ∧ (checkState p d).wbuf = d.wbuf ∧
    (checkState p d).bytesToWrite = d.bytesToWrite ∧
    (checkState p d).resetPending = d.resetPending ∧ (checkState p d).rep = d.rep := by
  unfold checkState
  (try dsimp only)
  (repeat' split) <;> simp

theorem parseLine_wbuf (p : Platform) (d : D) : (parseLine p d).1.wbuf = d.wbuf := by
  unfold parseLine
  split
  · rfl
  · rw [(checkState_tx p _).2.1, (parseReply_tx p _).2.1, (parseWait_tx _).2.1]

theorem parseLine_tx (p : Platform) (d : D) (h1 : (parseLine p d).1.snd = .sendDataState)
    (h2 : (parseLine p d).1.resetPending = false) :
    d.snd = .sendDataState ∧ d.resetPending = false ∧ (parseLine p d).1.bytesToWrite = d.bytesToWrite := by
  unfold parseLine at h1 h2 ⊢
  split
  · rename_i q; rw [if_pos q] at h2; simp at h2
  · rename_i q
    rw [if_neg q] at h1 h2
    obtain ⟨c1, _, c2, c3, _⟩ := checkState_tx p (parseReply p (parseWait d))
    obtain ⟨b1, _, b2, b3⟩ := parseReply_tx p (parseWait d)
    rw [c3] at h2
    refine ⟨?_, ?_, ?_⟩
    · have x := b1 (c1 h1)
      rwa [(parseWait_tx _).1] at x
    · have x := b3 h2
      rwa [(parseWait_tx _).2.2.2] at x
    · rw [c2, b2, (parseWait_tx _).2.2.1]

/-- While the driver waits for the prompt, only the prompt ends the
waiting. -/
theorem parseLine_prompt (p : Platform) (d : D) (hw : d.wait = some b!">") (hr : d.rep = .okReply)
    (hs : (parseLine p d).1.snd = .sendDataState) (h2 : (parseLine p d).1.resetPending = false) :
    ((parseLine p d).1.wait = d.wait ∧ (parseLine p d).1.rep = d.rep) ∨ d.has b!">" = true := by
  cases h3 : d.has b!">" with
  | true => exact Or.inr rfl
  | false =>
    left
    have hsd := (parseLine_tx p d hs h2).1
    have hm : d.waitMatches = false := by simp only [waitMatches, hw]; exact h3
    have e0 : parseWait d = d := by unfold parseWait; rw [hm]; rfl
    have e : parseReply p d = d := by simp only [parseReply, hr]
    revert hs h2
    unfold parseLine
    split
    · simp
    · rw [e0, e]
      unfold checkState
      (try dsimp only)
      (repeat' split) <;> simp [hw]

theorem handleReset_facts (d : D) : (handleReset d).trace = d.trace ++ [.flush] ∧
    (handleReset d).snd ≠ .sendDataState ∧ (handleReset d).wbuf = d.wbuf := by
  unfold handleReset
  dsimp only
  refine ⟨?_, ?_, ?_⟩ <;> (repeat' split) <;> simp

theorem txI_sections (p : Platform) : Sections p TxI where
  fail d h _ := h.leave [] (by simp) (by simp) (by simp)
  reset d h hr := by
    refine h.leave [.flush] (handleReset_facts d).1 (by simp) (handleReset_facts d).2.1
  line d s m l _ h _ _ hl _ _ := by
    refine txInv_line h (by rw [parseLine_trace]) fun h1 h2 => ?_
    obtain ⟨a, b, c⟩ := parseLine_tx p _ h1 h2
    refine ⟨a, b, c, fun hw hr => ?_⟩
    rcases parseLine_prompt p (d.gotLine s m d.rep l) hw hr h1 h2 with x | x
    · exact Or.inl x
    · exact Or.inr ⟨_, by simp [prompts], hl.has (by decide) x⟩
  drop d h _ _ hs := h.leave [_] (by simp; rfl) (by simp) (by simp [hs])
  csq d h _ hw _ _ _ _ :=
    txInv_status h ((said_sendCommand d _).set rfl ⟨rfl, rfl, rfl, rfl, rfl, rfl⟩) (by decide) (by decide)
      hw (by simp)
  mac d h _ hw _ _ _ _ :=
    txInv_status h ((said_sendCommand d _).set rfl ⟨rfl, rfl, rfl, rfl, rfl, rfl⟩) (by decide) (by decide)
      hw (by simp)
  act d h hr hw hp _ := txInv_turn h hr hw hp (act_turn d)

theorem txI_own : Own TxI where
  reset d h := h.leave [.apiReset] rfl (by simp) (by simp [resetStates])
  ext _ _ h := h.same rfl fun a b => ⟨a, b, rfl, rfl, rfl⟩

theorem outI_sections (p : Platform) : Sections p OutI where
  fail d h _ := h.same rfl rfl (by simp) (.refl _)
  reset d h hr := by
    exact h.more [.flush] (handleReset_facts d).1 rfl (handleReset_facts d).2.2
      (fun x => absurd x (handleReset_facts d).2.1)
      (eff_handleReset (x := NoHeader) (st := false) d).later
  line d s m l hl' h _ _ hl _ _ := by
    have hb : OutI (d.gotLine s m d.rep l) := h.more [_] rfl rfl rfl (fun a b => ⟨a, b, rfl⟩) hl'
    exact hb.same (parseLine_trace p _) (parseLine_wbuf p _) (fun h1 h2 => parseLine_tx p _ h1 h2)
      (eff_parseLine (x := NoHeader) (st := false) p _).later
  drop d h _ _ hs := h.more [_] rfl rfl (by simp) (by simp [hs])
      (Eff.flushReadBuffer (x := NoHeader) (strict := false) d (by simp [Clear])).later
  csq d h _ _ _ _ _ _ :=
    outInv_said h ((said_sendCommand d b!"AT+CSQ").set rfl ⟨rfl, rfl, rfl, rfl, rfl, rfl⟩) (by simp)
      ((Ser.later_writeStr _ _).trans (Ser.later_writeStr _ _))
  mac d h _ _ _ _ _ _ :=
    outInv_said h ((said_sendCommand d b!"AT+CIPSTAMAC").set rfl ⟨rfl, rfl, rfl, rfl, rfl, rfl⟩) (by simp)
      ((Ser.later_writeStr _ _).trans (Ser.later_writeStr _ _))
  act d h hr _ _ _ := outInv_turn h hr (act_turn d)
    (eff_act (x := NoHeader) (st := false) d (by simp [Clear])).later

theorem outI_own : Own OutI where
  reset d h := outInv_reset h rfl rfl rfl (Ser.later_flush _)
  ext _ _ h := h.same rfl rfl (fun a b => ⟨a, b, rfl⟩) (.refl _)

end Verif.CC1352P7
