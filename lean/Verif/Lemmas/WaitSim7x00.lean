import Verif.Lemmas.Waiting
import Verif.Lemmas.PaySim7x00
import Verif.Lemmas.CutLine

/-! The SIM7x00 driver waits for answers. -/

namespace Verif.Sim7x00

open Dev Spec

abbrev WaitI : D → Prop := WaitInv repliesSim7x00 special

theorem parseWait_hold (d : D) :
    ((parseWait d).1.wait = d.wait ∨ d.waitMatches = true ∨ (parseWait d).1.resetPending = true) ∧
    (parseWait d).1.rep = d.rep ∧ (parseWait d).1.line = d.line := by
  unfold parseWait
  (repeat' split) <;> simp_all

theorem parseReply_hold (p : Platform) (d : D) :
    ((parseReply p d).1.wait = d.wait ∨ d.has b!"+NETOPEN: 1" = true) ∧
    (d.rep = .ciprxget2 → (parseReply p d).1.rep = .ciprxget2 ∨ d.has b!"+CIPRXGET: 2,0," = true) ∧
    (∀ lit, (0 : Byte) ∉ lit → (parseReply p d).1.has lit = true → d.has lit = true) := by
  have h1 := fun lit h0 => SimDev.parseDnsReply_has d (lit := lit) h0
  refine ⟨?_, ?_, ?_⟩
  · unfold parseReply
    split <;> (try dsimp only) <;> (repeat' split) <;> simp_all
  · intro hr
    simp only [parseReply, hr]
    unfold SimDev.parseCiprxget2
    cases hh : d.has b!"+CIPRXGET: 2,0," <;> simp [hr]
  · intro lit h0
    unfold parseReply
    split <;> (try dsimp only) <;> (repeat' split) <;>
      first
        | exact id
        | exact h1 lit h0
        | (simp [Dev.has]; done)

theorem checkState_hold (d : D) :
    ((checkState d).wait = d.wait ∨ d.has b!"+IPCLOSE: 0," = true) ∧ (checkState d).rep = d.rep := by
  unfold checkState SimDev.checkConnectionState
  (repeat' split) <;> simp_all

theorem parseLine_hold (p : Platform) (d : D) (h : (parseLine p d).1.resetPending = false) :
    ((parseLine p d).1.wait = d.wait ∨ d.waitMatches = true ∨ d.has b!"+NETOPEN: 1" = true ∨
      d.has b!"+IPCLOSE: 0," = true) ∧
    (d.rep = .ciprxget2 → (parseLine p d).1.rep = .ciprxget2 ∨ d.has b!"+CIPRXGET: 2,0," = true) := by
  obtain ⟨a1, a2, a3⟩ := parseWait_hold d
  obtain ⟨b1, b2, b3⟩ := parseReply_hold p (parseWait d).1
  obtain ⟨c1, c2⟩ := checkState_hold (parseReply p (parseWait d).1).1
  have eh : ∀ lit, (parseWait d).1.has lit = d.has lit := fun lit => by unfold Dev.has; rw [a3]
  have rp : (parseWait d).1.resetPending = true → (parseLine p d).1.resetPending = true := by
    intro x
    by_cases hh : (parseLine p d).1.resetPending = true
    · exact hh
    · exfalso
      have x1 := (parseReply_tx p (parseWait d).1).2.2.2
      have x2 := (checkState_tx (parseReply p (parseWait d).1).1).2.2.2.1
      revert hh
      unfold parseLine
      dsimp only
      (repeat' split) <;> simp_all
  have a1' : (parseWait d).1.wait = d.wait ∨ d.waitMatches = true := by
    rcases a1 with x | x | x
    · exact Or.inl x
    · exact Or.inr x
    · rw [rp x] at h; simp at h
  rw [eh] at b1 b2
  unfold parseLine at h ⊢
  dsimp only at h ⊢
  by_cases q1 : (parseWait d).2 = true
  · rw [if_pos q1] at h ⊢
    exact ⟨by rcases a1' with x | x <;> simp [x], fun x => Or.inl (a2.trans x)⟩
  · rw [if_neg q1] at h ⊢
    have bb : d.rep = .ciprxget2 → (parseReply p (parseWait d).1).1.rep = .ciprxget2 ∨
        d.has b!"+CIPRXGET: 2,0," = true := fun x => b2 (a2.trans x)
    by_cases q2 : (parseReply p (parseWait d).1).2 = true
    · rw [if_pos q2] at h ⊢
      refine ⟨?_, bb⟩
      rcases b1 with x | x
      · rw [x]; rcases a1' with y | y <;> simp [y]
      · simp [x]
    · rw [if_neg q2] at h ⊢
      refine ⟨?_, by rw [c2]; exact bb⟩
      rcases c1 with z | z
      · rw [z]
        rcases b1 with x | x
        · rw [x]; rcases a1' with y | y <;> simp [y]
        · simp [x]
      · have := b3 _ (by decide) z
        rw [eh] at this
        simp [this]

theorem special_ok : ∀ k, ¬ special k .okReply := by
  intro k; simp [special]

/-- Words of the table contain no zero. -/
theorem words_zero {k : Option (List Byte)} {q : List Byte} (h : q ∈ repliesSim7x00.words k) :
    (0 : Byte) ∉ q := by
  simp only [repliesSim7x00, wordsOf] at h
  (repeat' split at h) <;> simp only [List.mem_singleton] at h <;> subst h <;> decide

theorem waitI_sections (p : Platform) : Sections p WaitI where
  fail d h _ := h.same rfl rfl rfl rfl
  reset d h hr _ := by
    unfold handleReset
    dsimp only
    refine waitInv_said (w := b!"AT+CRESET") (h.clear .flush (Or.inl rfl) rfl) ?_
      (((said_cmdN _ _).arg lineEnd).set rfl ⟨rfl, rfl, rfl, rfl, rfl, rfl⟩) (.inl ⟨b!"RDY", by decide, rfl⟩)
    show (pend repliesSim7x00).after (d.trace ++ [.flush]) = none
    rw [Observer.after_snoc]; rfl
  line d s m l _ h _ _ hl _ := by
    refine waitInv_line h (by rw [parseLine_trace]) fun h2 => ?_
    obtain ⟨a1, a2⟩ := parseLine_hold p _ h2
    refine ⟨?_, fun k he hw => ?_⟩
    · have x1 := (parseWait_tx (d.gotLine s m d.rep l)).2.2.2
      have x2 := (parseReply_tx p (parseWait (d.gotLine s m d.rep l)).1).2.2.2
      have x3 := (checkState_tx (parseReply p (parseWait (d.gotLine s m d.rep l)).1).1).2.2.2.1
      unfold parseLine at h2
      dsimp only at h2
      by_cases q1 : (parseWait (d.gotLine s m d.rep l)).2 = true
      · rw [if_pos q1] at h2; exact x1 h2
      · rw [if_neg q1] at h2
        by_cases q2 : (parseReply p (parseWait (d.gotLine s m d.rep l)).1).2 = true
        · rw [if_pos q2] at h2; exact x1 (x2 h2)
        · rw [if_neg q2] at h2; exact x1 (x2 (x3 ▸ h2))
    · obtain ⟨e1, e2, e3⟩ := ends_false he
      rcases hw with ⟨q, hq, hw⟩ | ⟨rfl, hw⟩
      · left
        refine ⟨q, hq, ?_⟩
        rcases a1 with x | x | x | x
        · exact x.trans hw
        · exfalso
          exact e2 q hq (hl.has (words_zero hq) (waits_match (d := d.gotLine s m d.rep l) hw x))
        · exact absurd (hl.has (by decide) x) (e1 _ (by decide))
        · exact absurd (hl.has (by decide) x) (e1 _ (by decide))
      · right
        rcases a2 hw with x | x
        · exact ⟨rfl, x⟩
        · exact absurd (hl.has (by decide) x) (e2 _ (by decide))
  drop d h _ _ hs := h.note _ rfl rfl rfl rfl rfl
  csq d h hr hw hp _ _ _ :=
    waitInv_said h (h.idle special_ok hr hw hp)
      ((said_sendCommand d b!"AT+CSQ").set rfl ⟨rfl, rfl, rfl, rfl, rfl, rfl⟩)
      (.inl ⟨okStr, by decide, rfl⟩)
  ident d h hr hw hp _ hq := by
    obtain ⟨w, hm, g1, g2, ht⟩ := SimDev.sendIDRequest_true hq
    refine waitInv_said h (h.idle special_ok hr hw hp) (w := w)
      ⟨⟨g1, [.arg lineEnd g2], by simp [ht], rfl⟩, ?_⟩ (.inl ⟨okStr, ?_, rfl⟩)
    · constructor <;> simp
    · simp only [SimDev.idCommands, iccidCommand, List.mem_cons, List.not_mem_nil, or_false] at hm
      rcases hm with rfl | rfl | rfl | rfl | rfl <;> decide
  identNone d h hq := h.same (SimDev.sendIDRequest_false hq).1 (by simp) (by simp) (by simp)
  act d h hr hw hp _ := waitInv_turn h special_ok hr hw hp rfl (act_turn d)

theorem waitI_own : Own WaitI where
  reset d h := h.clear .apiReset (Or.inr rfl) rfl
  ext _ _ h := h.same rfl rfl rfl rfl
  lock _ h _ _ := h.same rfl rfl rfl rfl
  unlock _ h := h.same rfl rfl rfl rfl

end Verif.Sim7x00
