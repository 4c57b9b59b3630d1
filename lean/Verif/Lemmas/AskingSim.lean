import Verif.Lemmas.Asking

/-! Questions to a cellular modem: what the parsers do with the lines. -/

namespace Verif

open Dev Spec

namespace SimDev

variable {S R : Type} {d : SimDev S R} {l : List Byte}

/-- The members of the cellular drivers besides the identification. -/
structure AskExt (apn addr : Option (List Byte)) (x : SimExt) : Prop where
  apn : x.apn = apn
  ip : x.ip.cells.length = 16
  max : 0 < x.maxRx
  addr : ∀ a, addr = some a → cstr x.ip.cells = a
  size : x.id.cells.length = idMax

theorem ChatExt.ask {apn addr : Option (List Byte)} {x : SimExt} (h : ChatExt apn addr x) (hs : x.id.cells.length = idMax) :
    AskExt apn addr x := ⟨h.apn, h.ip, h.max, h.addr, hs⟩

theorem AskExt.chat {apn addr : Option (List Byte)} {x : SimExt} (h : AskExt apn addr x) (hi : x.id.get 1 = 0 ∨ x.id.get 0 ≠ 0) :
    ChatExt apn addr x := ⟨h.apn, h.ip, hi, h.max, h.addr⟩

/-- Meanwhile. -/
abbrev kept (apn addr : Option (List Byte)) : SimQ → SimExt → Prop
  | .signal _, x => ChatExt apn addr x
  | .ident t _, x => x.id.get 2 = t.code

/-- What the application gets. -/
def got : SimQ → Int → SimExt → Prop
  | .signal m, r, _ => r = rssiSpec m
  | .ident _ s, _, x => cstr x.id.cells = s.take 23 ∧ x.id.get 0 ≠ 0

theorem first_byte (hl : LineDone d l) : (d.line.get 0 == cr) = true ↔ b!"\r" <+: l := by
  obtain ⟨m, hm⟩ := hl.cells
  have e : d.line.get 0 = (l ++ 0 :: m).headD 0 := by
    unfold Mem.get
    rw [hm]
    cases l <;> rfl
  rw [e, beq_iff_eq]
  cases l with
  | nil => simp [cr]
  | cons a l => simp [cr, eq_comm]

theorem parseId_no (hl : LineDone d l) (h : noId l) : parseIDReply d = (d, false) := by
  unfold parseIDReply
  by_cases h1 : (d.has b!"AT" || d.line.get 0 == cr) = true
  · rw [if_pos h1]
  · rw [if_neg h1]
    rw [Bool.or_eq_true, not_or] at h1
    rcases h with h | h | ⟨h, h2⟩
    · exact absurd (hl.has_true (by decide) h) h1.1
    · exact absurd ((first_byte hl).mpr h) h1.2
    · rw [hl.has_false (by decide) h2, hl.has_true (by decide) h]
      simp

theorem valid_more {s m : List Byte} (h : ValidIccid s) : ValidIccid (s ++ 13 :: m) := by
  obtain ⟨ds, rest, rfl, h1, h2, h3, h4, h5, h6⟩ := h
  refine ⟨ds, rest ++ 13 :: m, by simp, h1, ?_, h3, h4, h5, h6⟩
  cases rest with
  | nil => rfl
  | cons a r => exact h2

theorem parseId_go {t : IdType} {s m : List Byte} (hf : (SimQ.ident t s).Fine) (h0 : (0 : Byte) ∉ s) (ht : d.ext.id.get 2 = t.code)
    (hs : d.ext.id.cells.length = idMax) (hlen : 23 ≤ (s ++ 13 :: m).length) :
    ∃ i, parseIDReply.go d (s ++ 13 :: m) = ({ d with ext := { d.ext with id := i } }, true) ∧ i.cells.length = idMax ∧
      cstr i.cells = s.take 23 ∧ i.get 0 ≠ 0 := by
  obtain ⟨f1, f2, f3, f4⟩ := hf
  refine ⟨_, ?_, copyUntil_text (max := idMax) (stop := cr) (tail := m) hs (by decide) hlen f3 h0 f2 (by decide)⟩
  unfold parseIDReply.go
  dsimp only
  refine (if_pos ?_).trans rfl
  · split
    · rename_i e
      rw [Props.Parse.C41_check]
      refine valid_more (f4 ?_)
      rw [ht] at e
      cases t <;> first | rfl | exact absurd e (by decide)
    · rfl

theorem parseId_yes {t : IdType} {s : List Byte} (hl : LineDone d l) (hi : IsLine l) (hv : (SimQ.ident t s).value l)
    (hf : (SimQ.ident t s).Fine) (ht : d.ext.id.get 2 = t.code)
    (hs : d.ext.id.cells.length = idMax) (hlen : d.line.cells.length = lineMax + 1) :
    ∃ i, parseIDReply d = ({ d with ext := { d.ext with id := i } }, true) ∧ i.cells.length = idMax ∧
      cstr i.cells = s.take 23 ∧ i.get 0 ≠ 0 := by
  have h0 : ∀ x ∈ l, x ≠ 0 := by
    obtain ⟨t, rfl, _, _, h3⟩ := hi.text
    intro x hx
    simp only [List.mem_append, List.mem_singleton] at hx
    rcases hx with hx | rfl
    · rintro rfl; exact h3 hx
    · decide
  have hdl : ∀ k, (d.line.drop k).length = 61 - k := fun k => by
    show (d.line.cells.drop k).length = _
    rw [List.length_drop, hlen]; rfl
  have hsub : ∀ {pre : List Byte}, l = pre ++ (s ++ b!"\r\n") → (0 : Byte) ∉ s := fun e x => h0 0 (by rw [e]; simp [x]) rfl
  unfold parseIDReply
  rcases hv with ⟨e, h1, h2⟩ | e
  · obtain ⟨m, hm⟩ := hl.drop [] (s ++ b!"\r\n") e
    have hm : d.line.drop 0 = s ++ 13 :: (10 :: 0 :: m) := by rw [List.append_assoc] at hm; exact hm
    have := parseId_go (d := d) (m := 10 :: 0 :: m) hf (hsub (pre := []) e) ht hs (by rw [← hm, hdl]; simp)
    rw [if_neg, if_neg, if_neg, hm]
    · exact this
    · rw [hl.has_false (by decide) h2]; simp
    · rw [hl.has_false (by decide) fun x => h2 (List.IsPrefix.trans (show b!"+" <+: b!"+ICCID: " by decide) x)]; simp
    · rw [hl.has_false (by decide) h1, Bool.false_or, first_byte hl, e]
      rintro ⟨r, hr⟩
      obtain ⟨a, s', rfl⟩ := List.exists_cons_of_ne_nil hf.2.1
      have h3 : (13 : Byte) = a := by simpa using (List.cons.inj hr).1
      exact hf.2.2.1 (by rw [h3]; simp)
  · rw [List.append_assoc] at e
    have hp : b!"+ICCID: " <+: l := ⟨_, e.symm⟩
    obtain ⟨m, hm⟩ := hl.drop b!"+ICCID: " _ e
    have hm : d.line.drop 8 = s ++ 13 :: (10 :: 0 :: m) := by rw [List.append_assoc] at hm; exact hm
    have := parseId_go (d := d) (m := 10 :: 0 :: m) hf (hsub e) ht hs (by rw [← hm, hdl]; simp)
    rw [if_neg, if_pos (hl.has_true (by decide) hp), hm]
    · exact this
    · rw [hl.has_false (by decide) (not_prefix_of hp (by decide) (by decide)), Bool.false_or, first_byte hl]
      exact not_prefix_of hp (by decide) (by decide)

theorem parseCsq_no (p : Platform) (hl : LineDone d l) (h : ¬ b!"+CSQ: " <+: l) : parseCsq p d = (d, false) := by
  unfold parseCsq
  rw [hl.has_false (by decide) h]; simp

theorem parseCsq_yes (p : Platform) {k : Nat} (hl : LineDone d l) (hv : (SimQ.signal k).value l) (hf : (SimQ.signal k).Fine) :
    parseCsq p d = ({ d with rssi := rssiSpec k }, true) := by
  obtain ⟨rest, e, hr⟩ := hv
  obtain ⟨m, hm⟩ := hl.cells
  have := Props.Parse.C40_value p d (decimals k) (rest ++ 0 :: m) (by rw [hm, e]; simp) (decimals_ne_nil k) (decimals_digits k)
    (ends_zero hr).noDigit (.inl (by rw [decVal_decimals]; have : k < 2147483648 := hf; omega))
  rw [this, decVal_decimals]

theorem rssi_ne (k : Nat) : decide (rssiSpec k = int16Max) = false := by
  have := Props.Parse.rssiSpec_range k
  rw [decide_eq_false_iff_not]
  unfold int16Max
  omega

theorem three_cells {m : Mem} (h : m.cells.length = idMax) : ∃ a b c r, m.cells = a :: b :: c :: r := by
  match e : m.cells with
  | [] => rw [e] at h; simp [idMax] at h
  | [_] => rw [e] at h; simp [idMax] at h
  | [_, _] => rw [e] at h; simp [idMax] at h
  | a :: b :: c :: r => exact ⟨a, b, c, r, rfl⟩

/-- A question for the identification is pending. -/
theorem requested {m : Mem} (h : m.cells.length = idMax) (c : Byte) :
    let i := ((m.store 0 0).store 1 c).store 2 c
    i.cells.length = idMax ∧ i.get 0 = 0 ∧ i.get 1 = c ∧ i.get 2 = c := by
  obtain ⟨x, y, z, r, e⟩ := three_cells h
  refine ⟨by simp [Mem.store, h], ?_, ?_, ?_⟩ <;> simp [Mem.store, Mem.get, e]

theorem taken {m : Mem} (h : m.cells.length = idMax) : (m.store 1 0).cells.length = idMax ∧ (m.store 1 0).get 2 = m.get 2 := by
  obtain ⟨x, y, z, r, e⟩ := three_cells h
  refine ⟨by simp [Mem.store, h], ?_⟩
  simp [Mem.store, Mem.get, e]

/-- The question is passed on. -/
theorem idRequest {t : IdType} (iccid s : List Byte) (ht : t ≠ .noRequest) (h0 : d.ext.id.get 0 = 0) (h1 : d.ext.id.get 1 = t.code)
    (hl : d.lineRead = true) : ∃ c, (SimQ.ident t s).say iccid = c ++ b!"\r\n" ∧
      (c = iccid ∨ c.length = 7 ∧ (0 : Byte) ∉ c) ∧
      d.sendIDRequest iccid = (({ d with ext := { d.ext with id := d.ext.id.store 1 0 } } : SimDev S R).sendCommand c, true) := by
  have hi : ∃ c, idCommand iccid t.code = some c ∧ (SimQ.ident t s).say iccid = c ++ b!"\r\n" ∧
      (c = iccid ∨ c.length = 7 ∧ (0 : Byte) ∉ c) := by
    clear h1
    cases t
    · exact absurd rfl ht
    · exact ⟨b!"AT+CGMI", rfl, rfl, .inr ⟨rfl, by decide⟩⟩
    · exact ⟨b!"AT+CGMM", rfl, rfl, .inr ⟨rfl, by decide⟩⟩
    · exact ⟨b!"AT+CGSN", rfl, rfl, .inr ⟨rfl, by decide⟩⟩
    · exact ⟨b!"AT+CIMI", rfl, rfl, .inr ⟨rfl, by decide⟩⟩
    · exact ⟨iccid, rfl, rfl, .inl rfl⟩
  obtain ⟨c, c1, c2, c3⟩ := hi
  refine ⟨c, c2, c3, ?_⟩
  unfold sendIDRequest
  rw [if_pos ⟨by rw [h1]; revert ht; cases t <;> simp [IdType.code], h0, hl⟩, h1, c1]

end SimDev
end Verif
