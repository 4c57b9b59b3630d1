import Verif.Lemmas.Answer

/-! The drivers wait for answers to questions. -/

namespace Verif

open Dev Spec

variable {S R : Type}

/-- A line that is accepted as an identification. -/
theorem parseId_line {d : SimDev S R} {l : List Byte} (h : LineDone d l) (hl : identLine l = false) :
    d.parseIDReply = (d, false) := by
  have h0 : (d.line.get 0 == cr) = begins b!"\r" l := by
    obtain ⟨j, hj⟩ := h.cells
    show (d.line.cells.getD 0 0 == cr) = _
    rw [hj]
    cases l with
    | nil => rfl
    | cons c cs => 
      show (c == 13) = ((13 : Byte) == c && true)
      rw [Bool.and_true]; exact BEq.comm
  unfold SimDev.parseIDReply
  rw [h.has_iff (by decide), h.has_iff (by decide), h.has_iff (by decide), h0]
  unfold identLine begins at hl
  unfold begins
  cases h1 : b!"AT".isPrefixOf l <;> cases h2 : b!"\r".isPrefixOf l <;> cases h3 : b!"+ICCID: ".isPrefixOf l <;>
    cases h4 : b!"+".isPrefixOf l <;> simp_all

theorem parseDns_line {d : SimDev S R} {l : List Byte} (h : LineDone d l) (hl : addressLine l = false) :
    d.parseDnsReply.2 = false := by
  unfold SimDev.parseDnsReply
  rw [h.has_iff (by decide), h.has_iff (by decide)]
  unfold addressLine begins at hl
  dsimp only [SimDev.quotes]
  rw [h.cstr]
  cases h1 : b!"+CDNSGIP: 1".isPrefixOf l
  · rw [if_neg (by simp)]; split <;> rfl
  · rw [if_pos rfl]
    rw [h1] at hl
    simp only [Bool.true_and, Bool.and_eq_false_iff, decide_eq_false_iff_not] at hl
    split
    · rfl
    · rename_i hq; omega

namespace Sim7x00

/-- The reply states for the questions. -/
def repOf (w : List Byte) : Option Rep :=
  if w = b!"AT+CSQ" then some .csq
  else if w = b!"AT+CDNSGIP=\"" then some .cdnsgip
  else if w = b!"AT+CIPRXGET=4,0" then some .ciprxget4
  else if w = b!"AT+CIPRXGET=2,0," then some .ciprxget2
  else if w ∈ b!"AT+CICCID" :: identCommands then some .requestID
  else none

theorem repOf_ok (w : List Byte) : repOf w ≠ some .okReply := by
  unfold repOf; (repeat' split) <;> simp

theorem parseLine_keeps (p : Platform) (d : D) (h : (parseReply p (parseWait d).1).1.rep = d.rep) :
    (parseLine p d).1.rep = d.rep := by
  unfold parseLine
  dsimp only
  split
  · exact (parseWait_hold d).2.1
  · split
    · exact h
    · rw [(checkState_hold _).2]; exact h

theorem act_question (d : D) (w g : List Byte) (rest : List Ev) (ht : (act d).trace = d.trace ++ .cmd w g :: rest)
    (hw : (questionsSim7x00.lookup w).isSome = true) : repOf w = some (act d).rep := by
  cases hsnd : d.snd
  case sendDnsQuery =>
    by_cases hq : d.sendDnsQuery.2 = true
    · obtain ⟨⟨g', rest', h, _⟩, _⟩ := said_sendDnsQuery hq
      simp only [act, hsnd, if_pos hq] at ht ⊢
      rw [h] at ht
      have := List.append_cancel_left ht
      injection this with this _
      injection this with this _
      subst this
      rfl
    · have := SimDev.sendDnsQuery_false (d := d) (by simpa using hq)
      simp only [act, hsnd, if_neg hq] at ht
      simp [this] at ht
  case sendCiprxget2 =>
    have e : act d = actCiprxget2 d := by simp only [act, hsnd]
    rw [e] at ht ⊢
    unfold actCiprxget2 at ht ⊢
    cases hd : d.disconnectPending
    · simp only [hd, Bool.false_eq_true, if_false] at ht ⊢
      split at ht
      · rename_i hb
        rw [if_pos hb]
        by_cases hq : d.sendCiprxget2.2 = true
        · rw [if_pos hq] at ht ⊢
          obtain ⟨⟨g', rest', h, _⟩, _⟩ := said_sendCiprxget2 hq
          have ht : d.sendCiprxget2.1.trace = _ := ht
          rw [h] at ht
          have := List.append_cancel_left ht
          injection this with this _
          injection this with this _
          subst this
          rfl
        · rw [if_neg hq] at ht
          have := SimDev.sendCiprxget2_false (d := d) (by simpa using hq)
          simp [this] at ht
      · split at ht <;> simp at ht
    · simp [hd, handleDisconnect] at ht
  case connected =>
    have e : act d = actConnected d := by simp only [act, hsnd]
    rw [e] at ht
    exfalso
    unfold actConnected at ht
    split at ht
    · dsimp only at ht
      by_cases hq : (d.prepareSending true).2 = true
      · rw [if_pos hq] at ht
        obtain ⟨h3, h4⟩ := prepareSending_full hq
        have : w = sendCmd := by
          by_cases hu : (d.prepareSending true).1.typ = .udp
          · rw [if_pos hu] at ht; simp [h3] at ht; exact ht.1.1.symm
          · rw [if_neg hu] at ht; simp [h3] at ht; exact ht.1.1.symm
        subst this
        revert hw; decide
      · rw [if_neg hq] at ht
        have := (prepareSending_trace_false (d := d) (by simpa using hq)).1
        simp [this] at ht
    · split at ht
      · simp at ht
      · cases hd : d.disconnectPending <;> simp [handleDisconnect, hd] at ht
  case receiving =>
    have e : act d = actReceiving d := by simp only [act, hsnd]
    rw [e] at ht
    exfalso
    unfold actReceiving at ht
    split at ht
    · dsimp only at ht
      by_cases hq : d.receive.2 = true
      · rw [if_pos hq] at ht
        have ht : d.receive.1.trace = _ := ht
        rw [(receive_true hq).1] at ht
        simp at ht
      · rw [if_neg hq, (receive_trace_false (d := d) (by simpa using hq)).1] at ht
        simp at ht
    · split at ht <;> simp at ht
  all_goals
    simp only [act, hsnd, actCgsockcont, actCipopen, handleConnect, handleDisconnect] at ht ⊢
    (repeat' split at ht) <;> simp at ht <;>
      first
        | (obtain ⟨⟨h, _⟩, _⟩ := ht; subst h; first | rfl | exact absurd hw (by decide))
        | (obtain ⟨h, _⟩ := ht; subst h; first | rfl | exact absurd hw (by decide))


theorem true_sections (p : Platform) : Sections p (fun _ => True) := by
  constructor <;> intros <;> trivial

/-- The questions are waited for, beside another invariant `J`. -/
theorem quest_sections (p : Platform) {J : D → Prop} (hJ : Sections p J) {q : Questions} (base : List Ev)
    (hq : ∀ w, (q.lookup w).isSome = true → (questionsSim7x00.lookup w).isSome = true)
    (hg : ∀ d s m l, J d → J (d.gotLine s m d.rep l))
    (hl : ∀ e l w v, J e → LineDone e l → LineOk e → q.lookup w = some v → repOf w = some e.rep → v l = false →
      (parseLine p e).1.rep = e.rep) :
    Sections p (fun d => J d ∧ QuestInv q repOf base d) where
  fail d h ho := ⟨hJ.fail d h.1 ho, h.2.same rfl rfl⟩
  reset d h hr hk := by
    refine ⟨hJ.reset d h.1 hr hk, ?_⟩
    unfold handleReset
    dsimp only
    refine h.2.flushed (w := b!"AT+CRESET") ?_
      (((said_cmdN _ _).arg lineEnd).set rfl ⟨rfl, rfl, rfl, rfl, rfl, rfl⟩) ?_
    · rfl
    cases hh : q.lookup b!"AT+CRESET" with
    | none => rfl
    | some v => exact absurd (hq b!"AT+CRESET" (by rw [hh]; rfl)) (by decide)
  line d s m l hs h hr hlr hd hok := by
    refine ⟨hJ.line d s m l hs h.1 hr hlr hd hok, h.2.line (by rw [parseLine_trace]) fun w v hv hrp hvl => ?_⟩
    exact hl _ l w v (hg d s m l h.1) hd hok hv hrp hvl
  drop d h hr hdp hs := ⟨hJ.drop d h.1 hr hdp hs, h.2.note _ rfl rfl rfl⟩
  csq d h hr hw hp hx hrs hlr := by
    refine ⟨hJ.csq d h.1 hr hw hp hx hrs hlr, h.2.said (fun w => by rw [hp]; exact repOf_ok w)
      ((said_sendCommand d b!"AT+CSQ").set rfl ⟨rfl, rfl, rfl, rfl, rfl, rfl⟩) fun _ => rfl⟩
  ident d h hr hw hp hx hi := by
    obtain ⟨w, hm, g1, g2, ht⟩ := SimDev.sendIDRequest_true hi
    refine ⟨hJ.ident d h.1 hr hw hp hx hi, h.2.cmd (fun w => by rw [hp]; exact repOf_ok w) (w := w) (g := g1)
      (rest := [.arg lineEnd g2]) (by simp [ht]) rfl fun _ => ?_⟩
    simp only [SimDev.idCommands, iccidCommand, List.mem_cons, List.not_mem_nil, or_false] at hm
    rcases hm with rfl | rfl | rfl | rfl | rfl <;> rfl
  identNone d h hi := ⟨hJ.identNone d h.1 hi, h.2.same (SimDev.sendIDRequest_false hi).1 (by simp)⟩
  act d h hr hw hp hx := by
    refine ⟨hJ.act d h.1 hr hw hp hx, h.2.turn (fun w => by rw [hp]; exact repOf_ok w) (act_turn d) ?_
      fun w g rest ht hw => act_question d w g rest ht (hq w hw)⟩
    cases hh : q.lookup sendCmd with
    | none => rfl
    | some v => exact absurd (hq sendCmd (by rw [hh]; rfl)) (by decide)

theorem quest_lines (p : Platform) (e : D) (l w : List Byte) (v : List Byte → Bool) (hd : LineDone e l)
    (hv : questionsSim7x00.lookup w = some v) (hr : repOf w = some e.rep) (hl : v l = false) :
    (parseLine p e).1.rep = e.rep := by
  obtain ⟨a1, a2, a3⟩ := parseWait_hold e
  have hf : LineDone (parseWait e).1 l := ⟨by rw [a3]; exact hd.text, by rw [a3]; exact hd.zero, by
    rw [show (parseWait e).1.lbFill = e.lbFill by unfold parseWait; (repeat' split) <;> rfl]; exact hd.fill⟩
  refine parseLine_keeps p e ?_
  generalize (parseWait e).1 = f at hf a2
  rw [← a2] at hr ⊢
  obtain ⟨l1, l2, h1, _⟩ := List.lookup_eq_some_iff.mp hv
  have hm : (w, v) ∈ questionsSim7x00 := by rw [h1]; simp
  simp only [questionsSim7x00, identCommands, List.map_cons, List.map_nil, List.cons_append, List.nil_append,
    List.mem_cons, List.not_mem_nil, or_false, Prod.mk.injEq] at hm
  have hx : ∀ lit, (0 : Byte) ∉ lit → begins lit l = false → f.has lit = false := fun lit h0 hb => by
    rw [hf.has_iff h0]; exact hb
  rcases hm with ⟨rfl, rfl⟩ | ⟨rfl, rfl⟩ | ⟨rfl, rfl⟩ | ⟨rfl, rfl⟩ | hm
  · have e1 : f.rep = .csq := by injection hr with hr; exact hr.symm
    simp [parseReply, e1, SimDev.parseCsq, hx _ (by decide) hl]
  · have e1 : f.rep = .cdnsgip := by injection hr with hr; exact hr.symm
    have := parseDns_line hf hl
    simp [parseReply, e1, this]
  · have e1 : f.rep = .ciprxget4 := by injection hr with hr; exact hr.symm
    simp [parseReply, e1, SimDev.parseCiprxget4, hx _ (by decide) hl]
  · have e1 : f.rep = .ciprxget2 := by injection hr with hr; exact hr.symm
    simp [parseReply, e1, SimDev.parseCiprxget2, hx _ (by decide) hl]
  · have e1 : f.rep = .requestID ∧ v = identLine := by
      rcases hm with ⟨rfl, rfl⟩ | ⟨rfl, rfl⟩ | ⟨rfl, rfl⟩ | ⟨rfl, rfl⟩ | ⟨rfl, rfl⟩ <;>
        exact ⟨by injection hr with hr; exact hr.symm, rfl⟩
    obtain ⟨e1, rfl⟩ := e1
    simp [parseReply, e1, parseId_line hf hl]

theorem quest_own (base : List Ev) : Own (fun d => True ∧ QuestInv (X := SimExt) questionsSim7x00 repOf base d) where
  reset d h := ⟨trivial, h.2.clear .apiReset (Or.inr rfl) rfl⟩
  ext _ _ h := ⟨trivial, h.2.same rfl rfl⟩
  lock _ h _ _ := ⟨trivial, h.2.same rfl rfl⟩
  unlock _ h := ⟨trivial, h.2.same rfl rfl⟩

end Sim7x00

namespace Sim800

/-- The reply states for the questions. -/
def repOf (w : List Byte) : Option Rep :=
  if w = b!"AT+CSQ" then some .csq
  else if w = b!"AT+CDNSGIP=\"" then some .cdnsgip
  else if w = b!"AT+CIPRXGET=4,0" then some .ciprxget4
  else if w = b!"AT+CIPRXGET=2,0," then some .ciprxget2
  else if w = b!"AT+CIFSR" then some .cifsr
  else if w ∈ b!"AT+CCID" :: identCommands then some .requestID
  else none

theorem repOf_ok (w : List Byte) : repOf w ≠ some .okReply := by
  unfold repOf; (repeat' split) <;> simp

theorem parseLine_keeps (p : Platform) (d : D) (h : (parseReply p (parseWait d)).rep = d.rep) :
    (parseLine p d).1.rep = d.rep := by
  unfold parseLine
  split
  · rfl
  · rw [(checkState_hold _).2]; exact h

theorem act_question (d : D) (w g : List Byte) (rest : List Ev) (ht : (act d).trace = d.trace ++ .cmd w g :: rest)
    (hw : (questionsSim800.lookup w).isSome = true) : repOf w = some (act d).rep := by
  cases hsnd : d.snd
  case sendDnsQuery =>
    by_cases hq : d.sendDnsQuery.2 = true
    · obtain ⟨⟨g', rest', h, _⟩, _⟩ := said_sendDnsQuery hq
      simp only [act, hsnd, if_pos hq] at ht ⊢
      rw [h] at ht
      have := List.append_cancel_left ht
      injection this with this _
      injection this with this _
      subst this
      rfl
    · have := SimDev.sendDnsQuery_false (d := d) (by simpa using hq)
      simp only [act, hsnd, if_neg hq] at ht
      simp [this] at ht
  case sendCiprxget2 =>
    have e : act d = actCiprxget2 d := by simp only [act, hsnd]
    rw [e] at ht ⊢
    unfold actCiprxget2 at ht ⊢
    cases hd : d.disconnectPending
    · simp only [hd, Bool.false_eq_true, if_false] at ht ⊢
      split at ht
      · rename_i hb
        rw [if_pos hb]
        by_cases hq : d.sendCiprxget2.2 = true
        · rw [if_pos hq] at ht ⊢
          obtain ⟨⟨g', rest', h, _⟩, _⟩ := said_sendCiprxget2 hq
          have ht : d.sendCiprxget2.1.trace = _ := ht
          rw [h] at ht
          have := List.append_cancel_left ht
          injection this with this _
          injection this with this _
          subst this
          rfl
        · rw [if_neg hq] at ht
          have := SimDev.sendCiprxget2_false (d := d) (by simpa using hq)
          simp [this] at ht
      · split at ht <;> simp at ht
    · simp [hd, handleDisconnect] at ht
  case connected =>
    have e : act d = actConnected d := by simp only [act, hsnd]
    rw [e] at ht
    exfalso
    unfold actConnected at ht
    split at ht
    · dsimp only at ht
      by_cases hq : (d.prepareSending true).2 = true
      · rw [if_pos hq] at ht
        obtain ⟨h3, h4⟩ := prepareSending_full hq
        have : w = sendCmd := by
          simp [h3] at ht; exact ht.1.1.symm
        subst this
        revert hw; decide
      · rw [if_neg hq] at ht
        have := (prepareSending_trace_false (d := d) (by simpa using hq)).1
        simp [this] at ht
    · split at ht
      · simp at ht
      · cases hd : d.disconnectPending <;> cases hi : d.ipConnected <;> simp [handleDisconnect, hd, hi] at ht
  case receiving =>
    have e : act d = actReceiving d := by simp only [act, hsnd]
    rw [e] at ht
    exfalso
    unfold actReceiving at ht
    split at ht
    · dsimp only at ht
      by_cases hq : d.receive.2 = true
      · rw [if_pos hq] at ht
        have ht : d.receive.1.trace = _ := ht
        rw [(receive_true hq).1] at ht
        simp at ht
      · rw [if_neg hq, (receive_trace_false (d := d) (by simpa using hq)).1] at ht
        simp at ht
    · split at ht <;> simp at ht
  case sendCifsr =>
    cases hd : d.disconnectPending
    · simp [act, hsnd, hd] at ht ⊢
      obtain ⟨⟨h, _⟩, _⟩ := ht; subst h; rfl
    · simp [act, hsnd, hd, handleDisconnect] at ht
  all_goals
    simp only [act, hsnd, actCstt, actCipstart, handleConnect, handleDisconnect] at ht ⊢
    (repeat' split at ht) <;> simp at ht <;>
      first
        | (obtain ⟨⟨h, _⟩, _⟩ := ht; subst h; first | rfl | exact absurd hw (by decide))
        | (obtain ⟨h, _⟩ := ht; subst h; first | rfl | exact absurd hw (by decide))


theorem true_sections (p : Platform) : Sections p (fun _ => True) := by
  refine ⟨⟨?_, ?_, ?_, ?_, ?_, ?_, ?_⟩, ?_⟩ <;> intros <;> trivial

/-- The questions are waited for, beside another invariant `J`. -/
theorem quest_sections (p : Platform) {J : D → Prop} (hJ : Sections p J) {q : Questions} (base : List Ev)
    (hq : ∀ w, (q.lookup w).isSome = true → (questionsSim800.lookup w).isSome = true)
    (hg : ∀ d s m l, J d → J (d.gotLine s m d.rep l))
    (hl : ∀ e l w v, J e → LineDone e l → LineOk e → q.lookup w = some v → repOf w = some e.rep → v l = false →
      (parseLine p e).1.rep = e.rep) :
    Sections p (fun d => J d ∧ QuestInv q repOf base d) where
  fail d h ho := ⟨hJ.fail d h.1 ho, h.2.same rfl rfl⟩
  reset d h hr hk := ⟨hJ.reset d h.1 hr hk, h.2.clear .flush (Or.inl rfl) (handleReset_facts d).1⟩
  line d s m l hs h hr hlr hd hok := by
    refine ⟨hJ.line d s m l hs h.1 hr hlr hd hok, h.2.line (by rw [parseLine_trace]) fun w v hv hrp hvl => ?_⟩
    exact hl _ l w v (hg d s m l h.1) hd hok hv hrp hvl
  drop d h hr hdp hs := ⟨hJ.drop d h.1 hr hdp hs, h.2.note _ rfl rfl rfl⟩
  csq d h hr hw hp hx hrs hlr := by
    refine ⟨hJ.csq d h.1 hr hw hp hx hrs hlr, h.2.said (fun w => by rw [hp]; exact repOf_ok w)
      ((said_sendCommand d b!"AT+CSQ").set rfl ⟨rfl, rfl, rfl, rfl, rfl, rfl⟩) fun _ => rfl⟩
  ident d h hr hw hp hx hi := by
    obtain ⟨w, hm, g1, g2, ht⟩ := SimDev.sendIDRequest_true hi
    refine ⟨hJ.ident d h.1 hr hw hp hx hi, h.2.cmd (fun w => by rw [hp]; exact repOf_ok w) (w := w) (g := g1)
      (rest := [.arg lineEnd g2]) (by simp [ht]) rfl fun _ => ?_⟩
    simp only [SimDev.idCommands, iccidCommand, List.mem_cons, List.not_mem_nil, or_false] at hm
    rcases hm with rfl | rfl | rfl | rfl | rfl <;> rfl
  identNone d h hi := ⟨hJ.identNone d h.1 hi, h.2.same (SimDev.sendIDRequest_false hi).1 (by simp)⟩
  act d h hr hw hp hx := by
    refine ⟨hJ.act d h.1 hr hw hp hx, h.2.turn (fun w => by rw [hp]; exact repOf_ok w) (act_turn d) ?_
      fun w g rest ht hw => act_question d w g rest ht (hq w hw)⟩
    cases hh : q.lookup sendCmd with
    | none => rfl
    | some v => exact absurd (hq sendCmd (by rw [hh]; rfl)) (by decide)

theorem quest_lines (p : Platform) (e : D) (l w : List Byte) (v : List Byte → Bool) (hd : LineDone e l)
    (hv : questionsSim800.lookup w = some v) (hr : repOf w = some e.rep) (hl : v l = false) :
    (parseLine p e).1.rep = e.rep := by
  obtain ⟨a1, a2, a3⟩ := parseWait_hold e
  have hf : LineDone (parseWait e) l := ⟨by rw [a3]; exact hd.text, by rw [a3]; exact hd.zero, by
    rw [show (parseWait e).lbFill = e.lbFill by unfold parseWait; (repeat' split) <;> rfl]; exact hd.fill⟩
  refine parseLine_keeps p e ?_
  generalize (parseWait e) = f at hf a2
  rw [← a2] at hr ⊢
  obtain ⟨l1, l2, h1, _⟩ := List.lookup_eq_some_iff.mp hv
  have hm : (w, v) ∈ questionsSim800 := by rw [h1]; simp
  simp only [questionsSim800, identCommands, List.map_cons, List.map_nil, List.cons_append, List.nil_append,
    List.mem_cons, List.not_mem_nil, or_false, Prod.mk.injEq] at hm
  have hx : ∀ lit, (0 : Byte) ∉ lit → begins lit l = false → f.has lit = false := fun lit h0 hb => by
    rw [hf.has_iff h0]; exact hb
  rcases hm with ⟨rfl, rfl⟩ | ⟨rfl, rfl⟩ | ⟨rfl, rfl⟩ | ⟨rfl, rfl⟩ | ⟨rfl, rfl⟩ | hm
  · have e1 : f.rep = .csq := by injection hr with hr; exact hr.symm
    rw [Bool.or_eq_false_iff] at hl
    simp [parseReply, e1, SimDev.parseCsq, hx _ (by decide) hl.1, parseId_line hf hl.2]
  · have e1 : f.rep = .cdnsgip := by injection hr with hr; exact hr.symm
    have := parseDns_line hf hl
    simp [parseReply, e1, this]
  · have e1 : f.rep = .ciprxget4 := by injection hr with hr; exact hr.symm
    simp [parseReply, e1, SimDev.parseCiprxget4, hx _ (by decide) hl]
  · have e1 : f.rep = .ciprxget2 := by injection hr with hr; exact hr.symm
    simp [parseReply, e1, SimDev.parseCiprxget2, hx _ (by decide) hl]
  · have e1 : f.rep = .cifsr := by injection hr with hr; exact hr.symm
    have hl : ((cstr l).filter (· = 46)).length ≠ 3 := by simpa using hl
    rw [← hf.cstr] at hl
    have hl : ¬ ((cstr f.line.cells).filter (· = 46)).length = 3 := hl
    simp only [parseReply, e1]
    rw [if_neg hl]
    exact e1
  · have e1 : f.rep = .requestID ∧ v = identLine := by
      rcases hm with ⟨rfl, rfl⟩ | ⟨rfl, rfl⟩ | ⟨rfl, rfl⟩ | ⟨rfl, rfl⟩ | ⟨rfl, rfl⟩ <;>
        exact ⟨by injection hr with hr; exact hr.symm, rfl⟩
    obtain ⟨e1, rfl⟩ := e1
    simp [parseReply, e1, parseId_line hf hl]

theorem quest_own (base : List Ev) : Own (fun d => True ∧ QuestInv (X := SimExt) questionsSim800 repOf base d) where
  reset d h := ⟨trivial, h.2.clear .apiReset (Or.inr rfl) rfl⟩
  ext _ _ h := ⟨trivial, h.2.same rfl rfl⟩
  lock _ h _ _ := ⟨trivial, h.2.same rfl rfl⟩
  unlock _ h := ⟨trivial, h.2.same rfl rfl⟩

end Sim800

namespace Espressif

/-- The reply states for the questions. -/
def repOf (w : List Byte) : Option Rep :=
  if w = b!"AT+CWJAP?" then some .rssi else if w = b!"AT+CIPSTAMAC?" then some .reqMac else none

theorem repOf_ok (w : List Byte) : repOf w ≠ some .okReply := by
  unfold repOf; (repeat' split) <;> simp

theorem parseLine_keeps (p : Platform) (d : D)
    (h : (parseReply p (parseWait (parseSendFail d))).rep = d.rep) : (parseLine p d).1.rep = d.rep := by
  unfold parseLine
  split
  · rfl
  · rw [(checkState_hold p _).2]; exact h

theorem act_question (d : D) (w g : List Byte) (rest : List Ev) (ht : (act d).trace = d.trace ++ .cmd w g :: rest) :
    questionsEspressif.lookup w = none := by
  cases hsnd : d.snd
  case sendCiprecvdata =>
    have e : act d = actCiprecvdata d := by simp only [act, hsnd]
    rw [e] at ht
    unfold actCiprecvdata at ht
    cases hd : d.disconnectPending
    · simp only [hd, Bool.false_eq_true, if_false] at ht
      split at ht
      · by_cases hq : (sendCiprcvdata d).2 = true
        · rw [if_pos hq] at ht
          obtain ⟨⟨g', rest', h, _⟩, _⟩ := said_sendCiprcvdata hq
          have ht : (sendCiprcvdata d).1.trace = _ := ht
          rw [h] at ht
          have := List.append_cancel_left ht
          injection this with this _
          injection this with this _
          subst this
          rfl
        · rw [if_neg hq] at ht
          have := sendCiprcvdata_false (d := d) (by simpa using hq)
          simp [this] at ht
      · simp at ht
    · simp [hd, handleDisconnect] at ht
  case connected =>
    have e : act d = actConnected d := by simp only [act, hsnd]
    rw [e] at ht
    unfold actConnected at ht
    split at ht
    · dsimp only at ht
      by_cases hq : (d.prepareSending false).2 = true
      · rw [if_pos hq] at ht
        obtain ⟨h3, h4⟩ := prepareSending_full hq
        have : w = sendCmd := by
          simp [h3] at ht; exact ht.1.1.symm
        subst this
        rfl
      · rw [if_neg hq] at ht
        have := (prepareSending_trace_false (d := d) (by simpa using hq)).1
        simp [this] at ht
    · split at ht
      · simp at ht
      · cases hd : d.disconnectPending <;> cases hi : d.ipConnected <;> simp [handleDisconnect, hd, hi] at ht
  case receiving =>
    have e : act d = actReceiving d := by simp only [act, hsnd]
    rw [e] at ht
    exfalso
    unfold actReceiving at ht
    split at ht
    · dsimp only at ht
      by_cases hq : d.receive.2 = true
      · have ht : d.receive.1.trace = d.trace ++ .cmd w g :: rest := by
          rw [← ht]; split <;> rfl
        rw [(receive_true hq).1] at ht
        simp at ht
      · rw [if_neg (fun x => hq x.1), (receive_trace_false (d := d) (by simpa using hq)).1] at ht
        simp at ht
    · split at ht <;> simp at ht
  all_goals
    simp only [act, hsnd, actCwjap, actCipstart, handleConnect] at ht
    (repeat' split at ht) <;> simp at ht <;>
      first
        | (obtain ⟨⟨h, _⟩, _⟩ := ht; subst h; rfl)
        | (obtain ⟨h, _⟩ := ht; subst h; rfl)

/-- The questions are waited for. -/
theorem quest_sections (p : Platform) (base : List Ev) : Sections p (QuestInv questionsEspressif repOf base) where
  fail d h ho := h.same rfl rfl
  reset d h hr := by
    unfold handleReset
    dsimp only
    refine h.flushed (w := b!"AT+RST") ?_
      (((said_cmd _ _).arg lineEnd).set rfl ⟨rfl, rfl, rfl, rfl, rfl, rfl⟩) (by decide)
    rfl
  line d s m l r hs h hr hlr ha hd hok _ := by
    refine h.line (by rw [parseLine_trace]) fun w v hv hrp hvl => ?_
    have hr : r = d.rep := by
      rcases ha with rfl | ⟨x, _⟩
      · rfl
      · rw [x] at hrp
        revert hrp
        unfold repOf
        (repeat' split) <;> simp
    subst hr
    have e1 : (parseWait (parseSendFail (d.gotLine s m d.rep l))).rep = d.rep := by
      unfold parseWait parseSendFail; (repeat' split) <;> rfl
    have e2 : (parseWait (parseSendFail (d.gotLine s m d.rep l))).line = (d.gotLine s m d.rep l).line := by
      unfold parseWait parseSendFail; (repeat' split) <;> rfl
    refine parseLine_keeps p (d.gotLine s m d.rep l) ?_
    show _ = d.rep
    have hx : ∀ lit, (0 : Byte) ∉ lit → begins lit l = false →
        (parseWait (parseSendFail (d.gotLine s m d.rep l))).has lit = false := fun lit h0 hb => by
      unfold Dev.has
      rw [e2]
      show (d.gotLine s m d.rep l).has lit = false
      rw [hd.has_iff h0]; exact hb
    generalize parseWait (parseSendFail (d.gotLine s m d.rep l)) = f at *
    rw [← e1] at hrp ⊢
    obtain ⟨l1, l2, h1, _⟩ := List.lookup_eq_some_iff.mp hv
    have hm : (w, v) ∈ questionsEspressif := by rw [h1]; simp
    simp only [questionsEspressif, List.mem_cons, List.not_mem_nil, or_false, Prod.mk.injEq] at hm
    rcases hm with ⟨rfl, rfl⟩ | ⟨rfl, rfl⟩
    · have e1 : f.rep = .rssi := by injection hrp with hr; exact hr.symm
      rw [Bool.or_eq_false_iff] at hvl
      simp [parseReply, e1, hx _ (by decide) hvl.1, hx _ (by decide) hvl.2]
    · have e1 : f.rep = .reqMac := by injection hrp with hr; exact hr.symm
      simp [parseReply, e1, hx _ (by decide) hvl]
  drop d h hr hdp hs := h.note _ rfl rfl rfl
  csq d h hr hw hp hx hrs hlr :=
    h.said (fun w => by rw [hp]; exact repOf_ok w)
      ((said_sendCommand d b!"AT+CWJAP?").set rfl ⟨rfl, rfl, rfl, rfl, rfl, rfl⟩) fun _ => rfl
  mac d h hr hw hp hx hrs hlr :=
    h.said (fun w => by rw [hp]; exact repOf_ok w)
      ((said_sendCommand d b!"AT+CIPSTAMAC?").set rfl ⟨rfl, rfl, rfl, rfl, rfl, rfl⟩) fun _ => rfl
  act d h hr hw hp hx :=
    h.turn (fun w => by rw [hp]; exact repOf_ok w) (act_turn d) (by decide)
      fun w g rest ht hw => by rw [act_question d w g rest ht] at hw; cases hw

theorem quest_own (base : List Ev) : Own (QuestInv questionsEspressif repOf base) where
  reset d h := h.clear .apiReset (Or.inr rfl) rfl
  ext _ _ h := h.same rfl rfl
  ub _ h := h.same rfl rfl

end Espressif

namespace CC1352P7

/-- The reply states for the questions. -/
def repOf (w : List Byte) : Option Rep :=
  if w = b!"AT+CSQ" then some .csq else if w = b!"AT+CIPSTAMAC" then some .reqMac else none

theorem repOf_ok (w : List Byte) : repOf w ≠ some .okReply := by
  unfold repOf; (repeat' split) <;> simp

theorem parseLine_keeps (p : Platform) (d : D)
    (h : (parseReply p (parseWait d)).rep = d.rep) : (parseLine p d).1.rep = d.rep := by
  unfold parseLine
  split
  · rfl
  · rw [(checkState_hold p _).2]; exact h

theorem act_question (d : D) (w g : List Byte) (rest : List Ev) (ht : (act d).trace = d.trace ++ .cmd w g :: rest) :
    questionsCC1352P7.lookup w = none := by
  cases hsnd : d.snd
  case sendCiprecvdata =>
    have e : act d = actCiprecvdata d := by simp only [act, hsnd]
    rw [e] at ht
    unfold actCiprecvdata at ht
    cases hd : d.disconnectPending
    · simp only [hd, Bool.false_eq_true, if_false] at ht
      split at ht
      · by_cases hq : (sendCiprcvdata d).2 = true
        · rw [if_pos hq] at ht
          obtain ⟨⟨g', rest', h, _⟩, _⟩ := said_sendCiprcvdata hq
          have ht : (sendCiprcvdata d).1.trace = _ := ht
          rw [h] at ht
          have := List.append_cancel_left ht
          injection this with this _
          injection this with this _
          subst this
          rfl
        · rw [if_neg hq] at ht
          have := sendCiprcvdata_false (d := d) (by simpa using hq)
          simp [this] at ht
      · simp at ht
    · simp [hd, handleDisconnect] at ht
  case connected =>
    have e : act d = actConnected d := by simp only [act, hsnd]
    rw [e] at ht
    unfold actConnected at ht
    split at ht
    · dsimp only at ht
      by_cases hq : (d.prepareSending false).2 = true
      · rw [if_pos hq] at ht
        obtain ⟨h3, h4⟩ := prepareSending_full hq
        have : w = sendCmd := by
          simp [h3] at ht; exact ht.1.1.symm
        subst this
        rfl
      · rw [if_neg hq] at ht
        have := (prepareSending_trace_false (d := d) (by simpa using hq)).1
        simp [this] at ht
    · split at ht
      · simp at ht
      · cases hd : d.disconnectPending <;> cases hi : d.ipConnected <;> simp [handleDisconnect, hd, hi] at ht
  case receiving =>
    have e : act d = actReceiving d := by simp only [act, hsnd]
    rw [e] at ht
    exfalso
    unfold actReceiving at ht
    split at ht
    · dsimp only at ht
      by_cases hq : d.receive.2 = true
      · have ht : d.receive.1.trace = d.trace ++ .cmd w g :: rest := by
          rw [← ht]; split <;> rfl
        rw [(receive_true hq).1] at ht
        simp at ht
      · rw [if_neg hq, (receive_trace_false (d := d) (by simpa using hq)).1] at ht
        simp at ht
    · split at ht <;> simp at ht
  all_goals
    simp only [act, hsnd, actCipstart, handleConnect] at ht
    (repeat' split at ht) <;> simp at ht <;>
      first
        | (obtain ⟨⟨h, _⟩, _⟩ := ht; subst h; rfl)
        | (obtain ⟨h, _⟩ := ht; subst h; rfl)

/-- The questions are waited for. -/
theorem quest_sections (p : Platform) (base : List Ev) : Sections p (QuestInv questionsCC1352P7 repOf base) where
  fail d h ho := h.same rfl rfl
  reset d h hr := h.clear .flush (Or.inl rfl) (handleReset_facts d).1
  line d s m l hs h hr hlr hd hok _ := by
    refine h.line (by rw [parseLine_trace]) fun w v hv hrp hvl => ?_
    have e1 : (parseWait (d.gotLine s m d.rep l)).rep = d.rep := by
      unfold parseWait; (repeat' split) <;> rfl
    have e2 : (parseWait (d.gotLine s m d.rep l)).line = (d.gotLine s m d.rep l).line := by
      unfold parseWait; (repeat' split) <;> rfl
    refine parseLine_keeps p (d.gotLine s m d.rep l) ?_
    show _ = d.rep
    have hx : ∀ lit, (0 : Byte) ∉ lit → begins lit l = false →
        (parseWait (d.gotLine s m d.rep l)).has lit = false := fun lit h0 hb => by
      unfold Dev.has
      rw [e2]
      show (d.gotLine s m d.rep l).has lit = false
      rw [hd.has_iff h0]; exact hb
    generalize parseWait (d.gotLine s m d.rep l) = f at *
    rw [← e1] at hrp ⊢
    obtain ⟨l1, l2, h1, _⟩ := List.lookup_eq_some_iff.mp hv
    have hm : (w, v) ∈ questionsCC1352P7 := by rw [h1]; simp
    simp only [questionsCC1352P7, List.mem_cons, List.not_mem_nil, or_false, Prod.mk.injEq] at hm
    rcases hm with ⟨rfl, rfl⟩ | ⟨rfl, rfl⟩
    · have e1 : f.rep = .csq := by injection hrp with hr; exact hr.symm
      rw [Bool.or_eq_false_iff] at hvl
      simp [parseReply, parseCsq, parseMac, e1, hx _ (by decide) hvl.1, hx _ (by decide) hvl.2]
    · have e1 : f.rep = .reqMac := by injection hrp with hr; exact hr.symm
      simp [parseReply, parseMac, e1, hx _ (by decide) hvl]
  drop d h hr hdp hs := h.note _ rfl rfl rfl
  csq d h hr hw hp hx hrs hlr :=
    h.said (fun w => by rw [hp]; exact repOf_ok w)
      ((said_sendCommand d b!"AT+CSQ").set rfl ⟨rfl, rfl, rfl, rfl, rfl, rfl⟩) fun _ => rfl
  mac d h hr hw hp hx hrs hlr :=
    h.said (fun w => by rw [hp]; exact repOf_ok w)
      ((said_sendCommand d b!"AT+CIPSTAMAC").set rfl ⟨rfl, rfl, rfl, rfl, rfl, rfl⟩) fun _ => rfl
  act d h hr hw hp hx :=
    h.turn (fun w => by rw [hp]; exact repOf_ok w) (act_turn d) (by decide)
      fun w g rest ht hw => by rw [act_question d w g rest ht] at hw; cases hw

theorem quest_own (base : List Ev) : Own (QuestInv questionsCC1352P7 repOf base) where
  reset d h := h.clear .apiReset (Or.inr rfl) rfl
  ext _ _ h := h.same rfl rfl

end CC1352P7

end Verif
