import Verif.Lemmas.Waiting
import Verif.Lemmas.PaySim800
import Verif.Lemmas.CutLine

/-! The SIM800 driver waits for answers. -/

namespace Verif.Sim800

open Dev Spec

abbrev WaitI : D → Prop := WaitInv repliesSim800 special

theorem parseWait_hold (d : D) :
    ((parseWait d).wait = d.wait ∨ d.waitMatches = true) ∧
    (parseWait d).rep = d.rep ∧ (parseWait d).line = d.line := by
  unfold parseWait
  (repeat' split) <;> simp_all

theorem parseReply_hold (p : Platform) (d : D) :
    (parseReply p d).wait = d.wait ∧
    (d.rep = .ciprxget2 → (parseReply p d).rep = .ciprxget2 ∨ d.has b!"+CIPRXGET: 2,0," = true) ∧
    (d.rep = .cifsr → (parseReply p d).rep = .cifsr ∨
      ((cstr d.line.cells).filter (· = 46)).length = 3) ∧
    (∀ lit, (0 : Byte) ∉ lit → (parseReply p d).has lit = true → d.has lit = true) := by
  have h1 := fun lit h0 => SimDev.parseDnsReply_has d (lit := lit) h0
  refine ⟨?_, ?_, ?_, ?_⟩
  · unfold parseReply
    split <;> (try dsimp only) <;> (repeat' split) <;> simp_all
  · intro hr
    simp only [parseReply, hr]
    unfold SimDev.parseCiprxget2
    cases hh : d.has b!"+CIPRXGET: 2,0," <;> simp [hr]
  · intro hr
    simp only [parseReply, hr]
    by_cases hh : ((cstr d.line.cells).filter (· = 46)).length = 3
    · exact Or.inr hh
    · rw [if_neg hh]; exact Or.inl hr
  · intro lit h0
    unfold parseReply
    split <;> (try dsimp only) <;> (repeat' split) <;>
      first
        | exact id
        | exact h1 lit h0
        | (simp [Dev.has]; done)

theorem checkState_hold (d : D) :
    ((checkState d).wait = d.wait ∨ d.has b!"0, CLOSED" = true) ∧ (checkState d).rep = d.rep := by
  unfold checkState SimDev.checkConnectionState
  (repeat' split) <;> simp_all

theorem parseLine_hold (p : Platform) (d : D) (h : (parseLine p d).1.resetPending = false) :
    d.resetPending = false ∧
    ((parseLine p d).1.wait = d.wait ∨ d.waitMatches = true ∨ d.has b!"0, CLOSED" = true) ∧
    (d.rep = .ciprxget2 → (parseLine p d).1.rep = .ciprxget2 ∨ d.has b!"+CIPRXGET: 2,0," = true) ∧
    (d.rep = .cifsr → (parseLine p d).1.rep = .cifsr ∨
      ((cstr d.line.cells).filter (· = 46)).length = 3) := by
  obtain ⟨a1, a2, a3⟩ := parseWait_hold d
  obtain ⟨b1, b2, b4, b3⟩ := parseReply_hold p (parseWait d)
  obtain ⟨c1, c2⟩ := checkState_hold (parseReply p (parseWait d))
  have eh : ∀ lit, (parseWait d).has lit = d.has lit := fun lit => by unfold Dev.has; rw [a3]
  unfold parseLine at h ⊢
  by_cases q1 : isError d = true
  · rw [if_pos q1] at h; simp at h
  · rw [if_neg q1] at h ⊢
    rw [eh] at b2
    rw [a3] at b4
    refine ⟨?_, ?_, fun x => ?_, fun x => ?_⟩
    · rw [(checkState_tx _).2.2.2.1] at h
      have := (parseReply_tx p _).2.2.2 h
      rwa [(parseWait_tx _).2.2.2] at this
    · rcases c1 with z | z
      · rw [z, b1]; rcases a1 with y | y <;> simp [y]
      · have := b3 _ (by decide) z
        rw [eh] at this
        simp [this]
    · rw [c2]; exact b2 (a2.trans x)
    · rw [c2]; exact b4 (a2.trans x)

theorem special_ok : ∀ k, ¬ special k .okReply := by
  intro k; simp [special]

/-- Words of the table contain no zero. -/
theorem words_zero {k : Option (List Byte)} {q : List Byte} (h : q ∈ repliesSim800.words k) :
    (0 : Byte) ∉ q := by
  simp only [repliesSim800, wordsOf] at h
  (repeat' split at h) <;> simp only [List.mem_singleton, List.not_mem_nil] at h <;> subst h <;> decide

theorem waitI_sections (p : Platform) : Sections p WaitI where
  fail d h _ := h.same rfl rfl rfl rfl
  reset d h hr _ := h.clear .flush (Or.inl rfl) (handleReset_facts d).1
  line d s m l _ h _ _ hl _ := by
    refine waitInv_line h (by rw [parseLine_trace]) fun h2 => ?_
    obtain ⟨a0, a1, a2, a3⟩ := parseLine_hold p _ h2
    refine ⟨a0, fun k he hw => ?_⟩
    obtain ⟨e1, e2, e3⟩ := ends_false he
    rcases hw with ⟨q, hq, hw⟩ | ⟨rfl, hw⟩ | ⟨rfl, hw⟩
    · left
      refine ⟨q, hq, ?_⟩
      rcases a1 with x | x | x
      · exact x.trans hw
      · exact absurd (hl.has (words_zero hq) (waits_match (d := d.gotLine s m d.rep l) hw x)) (e2 q hq)
      · exact absurd (hl.has (by decide) x) (e1 _ (by decide))
    · right
      rcases a2 hw with x | x
      · exact Or.inl ⟨rfl, x⟩
      · exact absurd (hl.has (by decide) x) (e2 _ (by decide))
    · right
      rcases a3 hw with x | x
      · exact Or.inr ⟨rfl, x⟩
      · exfalso
        rw [hl.cstr] at x
        simp [repliesSim800, x] at e3
  drop d h _ _ hs := h.note _ rfl rfl rfl rfl rfl
  csq d h hr hw hp _ _ _ :=
    waitInv_said h (h.idle special_ok hr hw hp)
      ((said_sendCommand d b!"AT+CSQ").set rfl ⟨rfl, rfl, rfl, rfl, rfl, rfl⟩)
      (.inl ⟨okStr, by decide, rfl⟩)
  ident d h hr hw hp _ hq := by
    obtain ⟨w, hm, g1, g2, ht⟩ := SimDev.sendIDRequest_true hq
    refine waitInv_said h (h.idle special_ok hr hw hp) (w := w)
      ⟨⟨g1, [.arg lineEnd g2], by simp [ht], rfl⟩, ?_⟩ (.inl ⟨okStr, ?_, rfl⟩)
    · constructor <;> simp
    · simp only [SimDev.idCommands, iccidCommand, List.mem_cons, List.not_mem_nil, or_false] at hm
      rcases hm with rfl | rfl | rfl | rfl | rfl <;> decide
  identNone d h hq := h.same (SimDev.sendIDRequest_false hq).1 (by simp) (by simp) (by simp)
  act d h hr hw hp _ := waitInv_turn h special_ok hr hw hp rfl (act_turn d)

theorem waitI_own : Own WaitI where
  reset d h := h.clear .apiReset (Or.inr rfl) rfl
  ext _ _ h := h.same rfl rfl rfl rfl
  lock _ h _ _ := h.same rfl rfl rfl rfl
  unlock _ h := h.same rfl rfl rfl rfl

end Verif.Sim800
