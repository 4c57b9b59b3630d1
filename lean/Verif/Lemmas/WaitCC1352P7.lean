import Verif.Lemmas.Waiting
import Verif.Lemmas.PayCC1352P7

/-! The CC1352P7 driver waits for answers. -/

namespace Verif.CC1352P7

open Dev Spec

abbrev WaitI : D → Prop := WaitInv repliesCC1352P7 special

theorem parseWait_hold (d : D) :
    ((parseWait d).wait = d.wait ∨ d.waitMatches = true) ∧
    (parseWait d).rep = d.rep ∧ (parseWait d).line = d.line := by
  unfold parseWait
  (repeat' split) <;> simp_all

theorem parseReply_hold (p : Platform) (d : D) :
    (parseReply p d).wait = d.wait ∧
    (d.rep = .parseStateCiprecvdata →
      (parseReply p d).rep = .parseStateCiprecvdata ∨ d.has b!"+CIPRECVDATA" = true) := by
  refine ⟨?_, ?_⟩
  · unfold parseReply parseMac parseCiprecvdata parseCsq
    split <;> (try dsimp only) <;> (repeat' split) <;> simp_all
  · intro hr
    simp only [parseReply, hr]
    unfold parseCiprecvdata
    cases hh : d.has b!"+CIPRECVDATA" <;> simp [hr]

theorem checkState_hold (p : Platform) (d : D) :
    (checkState p d).wait = d.wait ∧ (checkState p d).rep = d.rep := by
  unfold checkState
  (repeat' split) <;> simp_all

theorem parseLine_hold (p : Platform) (d : D) (h : (parseLine p d).1.resetPending = false) :
    d.resetPending = false ∧
    ((parseLine p d).1.wait = d.wait ∨ d.waitMatches = true) ∧
    (d.rep = .parseStateCiprecvdata →
      (parseLine p d).1.rep = .parseStateCiprecvdata ∨ d.has b!"+CIPRECVDATA" = true) := by
  obtain ⟨a1, a2, a3⟩ := parseWait_hold d
  obtain ⟨b1, b2⟩ := parseReply_hold p (parseWait d)
  obtain ⟨c1, c2⟩ := checkState_hold p (parseReply p (parseWait d))
  have eh : ∀ lit, (parseWait d).has lit = d.has lit := fun lit => by unfold Dev.has; rw [a3]
  unfold parseLine at h ⊢
  by_cases q1 : isError d = true
  · rw [if_pos q1] at h; simp at h
  · rw [if_neg q1] at h ⊢
    rw [eh] at b2
    refine ⟨?_, ?_, fun x => ?_⟩
    · rw [(checkState_tx p _).2.2.2.1] at h
      have := (parseReply_tx p _).2.2.2 h
      rwa [(parseWait_tx _).2.2.2] at this
    · rw [c1, b1]; exact a1
    · rw [c2]; exact b2 (a2.trans x)

theorem special_ok : ∀ k, ¬ special k .okReply := by
  intro k; simp [special]

/-- Words of the table contain no zero. -/
theorem words_zero {k : Option (List Byte)} {q : List Byte} (h : q ∈ repliesCC1352P7.words k) :
    (0 : Byte) ∉ q := by
  simp only [repliesCC1352P7, wordsOf] at h
  (repeat' split at h) <;> simp only [List.mem_singleton] at h <;> subst h <;> decide

theorem waitI_sections (p : Platform) : Sections p WaitI where
  fail d h _ := h.same rfl rfl rfl rfl
  reset d h hr := h.clear .flush (Or.inl rfl) (handleReset_facts d).1
  line d s m l _ h _ _ hl _ _ := by
    refine waitInv_line h (by rw [parseLine_trace]) fun h2 => ?_
    obtain ⟨a0, a1, a2⟩ := parseLine_hold p _ h2
    refine ⟨a0, fun k he hw => ?_⟩
    obtain ⟨e1, e2, e3⟩ := ends_false he
    rcases hw with ⟨q, hq, hw⟩ | ⟨rfl, hw⟩
    · left
      refine ⟨q, hq, ?_⟩
      rcases a1 with x | x
      · exact x.trans hw
      · exact absurd (hl.has (words_zero hq) (waits_match (d := d.gotLine s m d.rep l) hw x)) (e2 q hq)
    · right
      rcases a2 hw with x | x
      · exact ⟨rfl, x⟩
      · exact absurd (hl.has (by decide) x) (e2 _ (by decide))
  drop d h _ _ hs := h.note _ rfl rfl rfl rfl rfl
  csq d h hr hw hp _ _ _ :=
    waitInv_said h (h.idle special_ok hr hw hp)
      ((said_sendCommand d b!"AT+CSQ").set rfl ⟨rfl, rfl, rfl, rfl, rfl, rfl⟩)
      (.inl ⟨okStr, by decide, rfl⟩)
  mac d h hr hw hp _ _ _ :=
    waitInv_said h (h.idle special_ok hr hw hp)
      ((said_sendCommand d b!"AT+CIPSTAMAC").set rfl ⟨rfl, rfl, rfl, rfl, rfl, rfl⟩)
      (.inl ⟨okStr, by decide, rfl⟩)
  act d h hr hw hp _ := waitInv_turn h special_ok hr hw hp rfl (act_turn d)

theorem waitI_own : Own WaitI where
  reset d h := h.clear .apiReset (Or.inr rfl) rfl
  ext _ _ h := h.same rfl rfl rfl rfl

end Verif.CC1352P7
