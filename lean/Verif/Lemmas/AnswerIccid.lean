import Verif.Lemmas.AnswerDev

/-! A question about the ICCID is answered by a valid ICCID only. -/

namespace Verif

open Dev Spec Props.Parse

variable {S R : Type}

theorem lookup_iccid {c w : List Byte} {v : List Byte → Bool} (h : (questionIccid c).lookup w = some v) :
    w = c ∧ ∀ l, v l = false → identLine l = false ∨ ¬ ValidIccid (idText l) := by
  obtain ⟨l1, l2, h1, _⟩ := List.lookup_eq_some_iff.mp h
  have hm : (w, v) ∈ questionIccid c := by rw [h1]; simp
  simp only [questionIccid, List.mem_singleton, Prod.mk.injEq] at hm
  obtain ⟨rfl, rfl⟩ := hm
  refine ⟨rfl, fun l hl => ?_⟩
  cases hi : identLine l with
  | false => exact Or.inl rfl
  | true => exact Or.inr (by simpa [hi] using hl)

/-- The reply parser takes only a valid ICCID. -/
theorem parseId_iccid {d : SimDev S R} {l : List Byte} (hd : LineDone d l) (hk : LineOk d)
    (h2 : d.ext.id.get 2 = IdType.iccid.code) (hlen : d.ext.id.cells.length = idMax)
    (hl : identLine l = false ∨ ¬ ValidIccid (idText l)) : (SimDev.parseIDReply d).2 = false := by
  rcases hl with hl | hl
  · rw [parseId_line hd hl]
  · cases hq : (SimDev.parseIDReply d).2 with
    | false => rfl
    | true =>
      obtain ⟨h1, _⟩ := C41_parse d h2 hlen hk.len
      obtain ⟨h1, _⟩ := h1 hq
      obtain ⟨j, hj⟩ := hd.cells
      rw [hj, idText_cut] at h1
      exact absurd (valid_cut h1) hl

namespace Sim7x00

abbrev IccidI (base : List Ev) (d : D) : Prop :=
  Asked (S := Snd) (· = .requestID) base d ∧ QuestInv (questionIccid iccidCommand) repOf base d

theorem iccid_sections (p : Platform) (base : List Ev) : Sections p (IccidI base) := by
  refine quest_sections p (asked_sections p base) base ?_ (fun d s m l h => h.keep rfl ⟨_, rfl⟩ id) ?_
  · intro w hw
    cases hh : (questionIccid iccidCommand).lookup w with
    | none => rw [hh] at hw; cases hw
    | some v => rw [(lookup_iccid hh).1]; rfl
  · intro e l w v hJ hd hk hv hr hl
    obtain ⟨rfl, hu⟩ := lookup_iccid hv
    have hr : e.rep = .requestID := by injection hr with hr; exact hr.symm
    have hc := hJ.now.resolve_right (by rintro (⟨a, _⟩ | ⟨a, _⟩) <;> exact a hr)
    rcases parseLine_id p e with ⟨_, b⟩ | ⟨_, b, _⟩ | ⟨_, b, _⟩
    · exact b
    · exact absurd hr b
    · rw [parseId_iccid hd hk hc.2 hJ.len (hu l hl)] at b; cases b

theorem iccid_step (p : Platform) (base : List Ev) {d : D} (hl : LineOk d) (h : IccidI base d) (op : Op)
    (ho : ∀ t, op ≠ .requestID t) : IccidI base (step p d op) := by
  by_cases hr : ∃ ok, op = .run ok
  · obtain ⟨ok, rfl⟩ := hr
    exact (iccid_sections p base).run ⟨fun _ _ _ _ _ h => ⟨h.1.same rfl rfl rfl, h.2.same rfl rfl⟩,
      fun _ _ h => ⟨h.1.same rfl rfl rfl, h.2.same rfl rfl⟩⟩ hl h ok
  · refine ⟨asked_step p base hl h.1 op ho, ?_⟩
    have h := h.2
    cases op with
    | run ok => exact absurd ⟨ok, rfl⟩ hr
    | connect =>
      simp only [step]
      unfold SimDev.connect
      split
      · exact h
      · exact QuestInv.calls.ipConnect h
    | resetStates => exact h.clear .apiReset (Or.inr rfl) rfl
    | setApn => exact h.same rfl rfl
    | serialLock =>
      simp only [step, SimDev.serialLock]
      split
      · exact h
      · exact h.same rfl rfl
    | serialUnlock => exact h.same rfl rfl
    | requestID t => exact absurd rfl (ho t)
    | _ => simp only [step]; exact QuestInv.calls.common h _

theorem iccid_exec (p : Platform) (base : List Ev) {d : D} (hv : Inv d) (h : IccidI base d)
    (ops : List Op) (ho : ∀ t, Op.requestID t ∉ ops) : IccidI base (exec (step p) d ops) :=
  (exec_inv (step := step p) (I := fun d => Inv d ∧ IccidI base d)
    (ok := fun op => ∀ t, op ≠ .requestID t)
    (fun _ op hq h => ⟨step_inv p op h.1, iccid_step p base h.1.1.line h.2 op hq⟩) ⟨hv, h⟩ ops
    fun op hop t e => ho t (e ▸ hop)).2

end Sim7x00

namespace Sim800

abbrev IccidI (base : List Ev) (d : D) : Prop :=
  AskedI base d ∧ QuestInv (questionIccid iccidCommand) repOf base d

theorem iccid_sections (p : Platform) (base : List Ev) : Sections p (IccidI base) := by
  refine quest_sections p (asked_sections p base) base ?_ (fun d s m l h => ⟨h.1.keep rfl ⟨_, rfl⟩ id, h.2⟩) ?_
  · intro w hw
    cases hh : (questionIccid iccidCommand).lookup w with
    | none => rw [hh] at hw; cases hw
    | some v => rw [(lookup_iccid hh).1]; rfl
  · intro e l w v hJ hd hk hv hr hl
    obtain ⟨rfl, hu⟩ := lookup_iccid hv
    have hr : e.rep = .requestID := by injection hr with hr; exact hr.symm
    have hc := hJ.1.now.resolve_right (by rintro (⟨a, _⟩ | ⟨a, _⟩) <;> exact a hr)
    rcases (parseLine_id p e hJ.2.2).2 with ⟨_, b⟩ | ⟨_, b, _⟩ | ⟨_, b, _⟩
    · exact b
    · exact absurd hr b
    · rw [parseId_iccid hd hk hc.2 hJ.1.len (hu l hl)] at b; cases b

theorem iccid_step (p : Platform) (base : List Ev) {d : D} (hl : LineOk d) (h : IccidI base d) (op : Op)
    (ho : ∀ t, op ≠ .requestID t) (ho' : op ≠ .requestRSSI) : IccidI base (step p d op) := by
  by_cases hr : ∃ ok, op = .run ok
  · obtain ⟨ok, rfl⟩ := hr
    exact (iccid_sections p base).run ⟨fun _ _ _ _ _ h => ⟨⟨h.1.1.same rfl rfl rfl, h.1.2⟩, h.2.same rfl rfl⟩,
      fun _ _ h => ⟨⟨h.1.1.same rfl rfl rfl, h.1.2⟩, h.2.same rfl rfl⟩⟩ hl h ok
  · refine ⟨asked_step p base hl h.1 op ho ho', ?_⟩
    have h := h.2
    cases op with
    | run ok => exact absurd ⟨ok, rfl⟩ hr
    | connect =>
      simp only [step]
      unfold SimDev.connect
      split
      · exact h
      · exact QuestInv.calls.ipConnect h
    | resetStates => exact h.clear .apiReset (Or.inr rfl) rfl
    | setApn => exact h.same rfl rfl
    | serialLock =>
      simp only [step, SimDev.serialLock]
      split
      · exact h
      · exact h.same rfl rfl
    | serialUnlock => exact h.same rfl rfl
    | requestID t => exact absurd rfl (ho t)
    | _ => simp only [step]; exact QuestInv.calls.common h _

theorem iccid_exec (p : Platform) (base : List Ev) {d : D} (hv : Inv d) (h : IccidI base d)
    (ops : List Op) (ho : ∀ t, Op.requestID t ∉ ops) (ho' : Op.requestRSSI ∉ ops) :
    IccidI base (exec (step p) d ops) :=
  (exec_inv (step := step p) (I := fun d => Inv d ∧ IccidI base d)
    (ok := fun op => (∀ t, op ≠ .requestID t) ∧ op ≠ .requestRSSI)
    (fun _ op hq h => ⟨step_inv p op h.1, iccid_step p base h.1.1.line h.2 op hq.1 hq.2⟩) ⟨hv, h⟩ ops
    fun op hop => ⟨fun t e => ho t (e ▸ hop), fun e => ho' (e ▸ hop)⟩).2

end Sim800
end Verif
