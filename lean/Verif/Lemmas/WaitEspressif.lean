import Verif.Lemmas.Waiting
import Verif.Lemmas.PayEspressif

/-! The Espressif driver waits for answers. -/

namespace Verif.Espressif

open Dev Spec

abbrev WaitI : D → Prop := WaitInv repliesEspressif special

theorem parseWait_hold (d : D) :
    ((parseWait d).wait = d.wait ∨ d.waitMatches = true) ∧
    (parseWait d).rep = d.rep ∧ (parseWait d).line = d.line := by
  unfold parseWait
  (repeat' split) <;> simp_all

theorem parseSendFail_hold (d : D) :
    ((parseSendFail d).wait = d.wait ∨ d.has b!"SEND FAIL" = true) ∧
    (parseSendFail d).rep = d.rep ∧ (parseSendFail d).line = d.line := by
  unfold parseSendFail
  (repeat' split) <;> simp_all

theorem parseReply_hold (p : Platform) (d : D) :
    (parseReply p d).wait = d.wait ∧ (parseReply p d).line = d.line ∧
    ((d.rep = .waitCiprecvdata ∨ d.rep = .parseStateCiprecvdata) →
      ((parseReply p d).rep = .waitCiprecvdata ∨ (parseReply p d).rep = .parseStateCiprecvdata) ∨
        d.has b!"+CIPRECVDATA" = true) := by
  refine ⟨?_, ?_, ?_⟩
  · unfold parseReply parseCiprecvdata
    split <;> (try dsimp only) <;> (repeat' split) <;> simp_all
  · unfold parseReply parseCiprecvdata
    split <;> (try dsimp only) <;> (repeat' split) <;> simp_all
  · rintro (hr | hr)
    · simp only [parseReply, hr]; simp
    · simp only [parseReply, hr]
      unfold parseCiprecvdata
      cases hh : d.has b!"+CIPRECVDATA" <;> simp [hr]

theorem checkState_hold (p : Platform) (d : D) :
    ((checkState p d).wait = d.wait ∨ d.has b!"WIFI DISCONNECT" = true) ∧
    (checkState p d).rep = d.rep := by
  unfold checkState
  (try dsimp only)
  (repeat' split) <;> simp_all

theorem parseLine_hold (p : Platform) (d : D) (h : (parseLine p d).1.resetPending = false) :
    d.resetPending = false ∧
    ((parseLine p d).1.wait = d.wait ∨ d.waitMatches = true ∨ d.has b!"SEND FAIL" = true ∨
      d.has b!"WIFI DISCONNECT" = true) ∧
    ((d.rep = .waitCiprecvdata ∨ d.rep = .parseStateCiprecvdata) →
      ((parseLine p d).1.rep = .waitCiprecvdata ∨ (parseLine p d).1.rep = .parseStateCiprecvdata) ∨
        d.has b!"+CIPRECVDATA" = true) := by
  obtain ⟨z1, z2, z3⟩ := parseSendFail_hold d
  obtain ⟨a1, a2, a3⟩ := parseWait_hold (parseSendFail d)
  obtain ⟨b1, b3, b2⟩ := parseReply_hold p (parseWait (parseSendFail d))
  obtain ⟨c1, c2⟩ := checkState_hold p (parseReply p (parseWait (parseSendFail d)))
  have e1 : ∀ lit, (parseWait (parseSendFail d)).has lit = d.has lit := fun lit => by
    unfold Dev.has; rw [a3, z3]
  have e2 : ∀ lit, (parseReply p (parseWait (parseSendFail d))).has lit = d.has lit := fun lit => by
    unfold Dev.has; rw [b3, a3, z3]
  unfold parseLine at h ⊢
  by_cases q1 : isError d = true
  · rw [if_pos q1] at h; simp at h
  · rw [if_neg q1] at h ⊢
    rw [e1] at b2
    rw [e2] at c1
    refine ⟨?_, ?_, fun x => ?_⟩
    · rw [(checkState_tx p _).2.2.2.1] at h
      have := (parseReply_tx p _).2.2.2 h
      rwa [(parseWait_tx _).2.2.2, (parseSendFail_tx _).2.2.2] at this
    · rcases c1 with c | c
      · rw [c, b1]
        rcases z1 with z | z
        · rcases a1 with a | a
          · exact Or.inl (a.trans z)
          · refine Or.inr (Or.inl ?_)
            unfold waitMatches at a ⊢
            rw [z, z3] at a
            exact a
        · simp [z]
      · simp [c]
    · rw [c2]; exact b2 (by rw [a2, z2]; exact x)

theorem special_ok : ∀ k, ¬ special k .okReply := by
  intro k; simp [special]

/-- Words of the table contain no zero. -/
theorem words_zero {k : Option (List Byte)} {q : List Byte} (h : q ∈ repliesEspressif.words k) :
    (0 : Byte) ∉ q := by
  simp only [repliesEspressif, wordsOf] at h
  (repeat' split at h) <;> simp only [List.mem_singleton] at h <;> subst h <;> decide

theorem waitI_sections (p : Platform) : Sections p WaitI where
  fail d h _ := h.same rfl rfl rfl rfl
  reset d h hr := by
    unfold handleReset
    dsimp only
    refine waitInv_said (w := b!"AT+RST") (h.clear .flush (Or.inl rfl) rfl) ?_
      (((said_cmd _ _).arg lineEnd).set rfl ⟨rfl, rfl, rfl, rfl, rfl, rfl⟩) (.inl ⟨b!"ready", by decide, rfl⟩)
    show (pend repliesEspressif).after (d.trace ++ [.flush]) = none
    rw [Observer.after_snoc]; rfl
  line d s m l r _ h _ _ ha hl _ _ := by
    refine waitInv_line h (by rw [parseLine_trace]) fun h2 => ?_
    obtain ⟨a0, a1, a2⟩ := parseLine_hold p _ h2
    refine ⟨a0, fun k he hw => ?_⟩
    obtain ⟨e1, e2, e3⟩ := ends_false he
    rcases hw with ⟨q, hq, hw⟩ | ⟨rfl, hw⟩
    · left
      refine ⟨q, hq, ?_⟩
      rcases a1 with x | x | x | x
      · exact x.trans hw
      · exact absurd (hl.has (words_zero hq) (waits_match (d := d.gotLine s m r l) hw x)) (e2 q hq)
      · exact absurd (hl.has (by decide) x) (e1 _ (by decide))
      · exact absurd (hl.has (by decide) x) (e1 _ (by decide))
    · right
      have hr : r = .waitCiprecvdata ∨ r = .parseStateCiprecvdata := by
        rcases ha with rfl | ⟨_, x, _⟩
        · exact hw
        · exact Or.inr x
      rcases a2 hr with x | x
      · exact ⟨rfl, x⟩
      · exact absurd (hl.has (by decide) x) (e2 _ (by decide))
  drop d h _ _ hs := h.note _ rfl rfl rfl rfl rfl
  csq d h hr hw hp _ _ _ :=
    waitInv_said h (h.idle special_ok hr hw hp)
      ((said_sendCommand d b!"AT+CWJAP?").set rfl ⟨rfl, rfl, rfl, rfl, rfl, rfl⟩)
      (.inl ⟨okStr, by decide, rfl⟩)
  mac d h hr hw hp _ _ _ :=
    waitInv_said h (h.idle special_ok hr hw hp)
      ((said_sendCommand d b!"AT+CIPSTAMAC?").set rfl ⟨rfl, rfl, rfl, rfl, rfl, rfl⟩)
      (.inl ⟨okStr, by decide, rfl⟩)
  act d h hr hw hp _ := waitInv_turn h special_ok hr hw hp rfl (act_turn d)

theorem waitI_own : Own WaitI where
  reset d h := h.clear .apiReset (Or.inr rfl) rfl
  ext _ _ h := h.same rfl rfl rfl rfl
  ub _ h := h.same rfl rfl rfl rfl

end Verif.Espressif
