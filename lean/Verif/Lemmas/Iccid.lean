import Verif.Lemmas.Stages
import Verif.Lemmas.Since
import Verif.Lemmas.Receiving
import Verif.Props.Parse

/-! The identification string while an ICCID is requested. -/

namespace Verif

open Dev Spec Props.Parse

variable {S R : Type}

/-! ## The text of a line -/

theorem cut_zero (a j : List Byte) (n : Nat) :
    cstr (((a ++ 0 :: j).take n).takeWhile (· ≠ 13)) = cstr ((a.take n).takeWhile (· ≠ 13)) := by
  induction a generalizing n with
  | nil =>
    cases n with
    | zero => rfl
    | succ n => simp [cstr]
  | cons c cs ih =>
    cases n with
    | zero => rfl
    | succ n =>
      simp only [List.cons_append, List.take_succ_cons, List.takeWhile_cons]
      split
      · simp only [cstr, List.takeWhile_cons] at ih ⊢
        split
        · rw [ih n]
        · rfl
      · rfl

theorem valid_cut {a j : List Byte} (h : ValidIccid (a ++ 0 :: j)) : ValidIccid a := by
  rw [← C41_check] at h ⊢
  have hz : isDigit 0 = false := by decide
  have e : (a ++ 0 :: j).takeWhile isDigit = a.takeWhile isDigit := by
    clear h
    induction a with
    | nil => simp [hz]
    | cons c cs ih =>
      simp only [List.cons_append, List.takeWhile_cons]
      split
      · rw [ih]
      · rfl
  unfold SimDev.iccidValid at h ⊢
  rw [e] at h
  match a, h with
  | [], h => simp at h
  | [c], h =>
    simp only [List.cons_append, List.nil_append, List.tail_cons, List.headD_cons, Bool.and_eq_true,
      beq_iff_eq] at h
    exact absurd h.2 (by decide)
  | c :: b :: r, h => simpa using h

theorem idText_cut {l j : List Byte} : idText (l ++ 0 :: j) = idText l ++ 0 :: j := by
  have hp : b!"+ICCID: " <+: l ++ 0 :: j ↔ b!"+ICCID: " <+: l := by
    constructor
    · intro h
      have := prefix_take_of_zero (by decide) h (show (l ++ 0 :: j)[l.length]? = some 0 by simp)
      rwa [List.take_left] at this
    · exact fun h => h.trans (List.prefix_append _ _)
  unfold idText
  by_cases h : b!"+ICCID: " <+: l
  · rw [if_pos h, if_pos (hp.mpr h), List.drop_append_of_le_length (by simpa using h.length_le)]
  · rw [if_neg h, if_neg (fun x => h (hp.mp x))]

/-! ## The invariant -/

/-- Since the trace was `base` a line with a valid ICCID has arrived, and the buffer holds its text. -/
def Got (base : List Ev) (d : SimDev S R) : Prop :=
  ∃ new l, d.trace = base ++ new ∧ .line l ∈ new ∧ ValidIccid (idText l) ∧
    cstr d.ext.id.cells = cstr (idStored l)

/-- An ICCID was requested when the trace was `base`. In the reply states `ask` lines are searched for
an identification. -/
structure Asked (ask : R → Prop) (base : List Ev) (d : SimDev S R) : Prop where
  len : d.ext.id.cells.length = idMax
  grown : ∃ new, d.trace = base ++ new
  now : (d.ext.id.get 0 = 0 ∧ d.ext.id.get 2 = IdType.iccid.code) ∨
    (¬ ask d.rep ∧ d.ext.id.get 0 = 0 ∧ d.ext.id.get 1 = 0) ∨
    (¬ ask d.rep ∧ d.ext.id.get 0 ≠ 0 ∧ Got base d)

namespace Asked

variable {ask : R → Prop} {base : List Ev} {d e : SimDev S R}

theorem keep (h : Asked ask base d) (hi : e.ext.id = d.ext.id)
    (ht : ∃ new, e.trace = d.trace ++ new) (hr : ¬ ask d.rep → ¬ ask e.rep) : Asked ask base e := by
  obtain ⟨n1, h1⟩ := h.grown
  obtain ⟨n2, h2⟩ := ht
  refine ⟨by rw [hi]; exact h.len, ⟨n1 ++ n2, by rw [h2, h1, List.append_assoc]⟩, ?_⟩
  rw [hi]
  rcases h.now with a | a | ⟨a, b, new, l, c1, c2, c3, c4⟩
  · exact Or.inl a
  · exact Or.inr (Or.inl ⟨hr a.1, a.2⟩)
  · exact Or.inr (Or.inr ⟨hr a, b, new ++ n2, l, by rw [h2, c1, List.append_assoc],
      List.mem_append_left _ c2, c3, by rw [hi]; exact c4⟩)

theorem same (h : Asked ask base d) (hi : e.ext.id = d.ext.id) (ht : e.trace = d.trace)
    (hr : e.rep = d.rep) : Asked ask base e :=
  h.keep hi ⟨[], by simp [ht]⟩ (by rw [hr]; exact id)

theorem reset (h : Asked ask base d) (s0 : S) (r0 : R) (h0 : ¬ ask r0) :
    Asked ask base (SimDev.resetStates d s0 r0) := by
  have hl := h.len
  obtain ⟨n1, h1⟩ := h.grown
  refine ⟨by simp [SimDev.resetStates, Mem.store, hl],
    ⟨n1 ++ [.apiReset], by simp [SimDev.resetStates, h1]⟩, Or.inr (Or.inl ⟨h0, ?_, ?_⟩)⟩ <;>
    simp [SimDev.resetStates, Mem.store, Mem.get, hl, idMax]

theorem sent (h : Asked ask base d) (hi : e.ext.id = d.ext.id.store 1 0)
    (hq : d.ext.id.get 1 ≠ 0 ∧ d.ext.id.get 0 = 0)
    (ht : ∃ new, e.trace = d.trace ++ new) : Asked ask base e := by
  have hl := h.len
  obtain ⟨n1, h1⟩ := h.grown
  obtain ⟨n2, h2⟩ := ht
  refine ⟨by simp [hi, Mem.store, hl], ⟨n1 ++ n2, by rw [h2, h1, List.append_assoc]⟩, Or.inl ?_⟩
  rcases h.now with ⟨a, b⟩ | ⟨_, _, a⟩ | ⟨_, a, _⟩
  · rw [hi]
    simp only [Mem.get, Mem.store] at a b ⊢
    refine ⟨?_, ?_⟩
    · rw [List.getD_eq_getElem?_getD, List.getElem?_set_ne (by decide), ← List.getD_eq_getElem?_getD]
      exact a
    · rw [List.getD_eq_getElem?_getD, List.getElem?_set_ne (by decide), ← List.getD_eq_getElem?_getD]
      exact b
  · exact absurd a hq.1
  · exact absurd hq.2 a

/-- The reply parser finds an identification. -/
theorem found (h : Asked ask base d) {l : List Byte} (hd : LineDone d l) (hl : LineOk d)
    (hlast : ∃ t, d.trace = base ++ t ++ [.line l]) (ha : ask d.rep)
    (hq : (SimDev.parseIDReply d).2 = true) (hi : e.ext.id = (SimDev.parseIDReply d).1.ext.id)
    (ht : e.trace = d.trace) (hr : ¬ ask e.rep) : Asked ask base e := by
  have hc := h.now.resolve_right (by rintro (⟨a, _⟩ | ⟨a, _⟩) <;> exact a ha)
  obtain ⟨h1, _⟩ := C41_parse d hc.2 h.len hl.len
  obtain ⟨h1, h2, _⟩ := h1 hq
  obtain ⟨j, hj⟩ := hd.cells
  rw [hj, idText_cut] at h1
  have hv := valid_cut h1
  have hs : cstr (idStored d.line.cells) = cstr (idStored l) := by
    rw [hj]; unfold idStored; rw [idText_cut]; exact cut_zero _ _ _
  have hcs : ∀ (a b : List Byte), cstr (a ++ 0 :: b) = cstr a := by
    intro a b
    induction a with
    | nil => rfl
    | cons c cs ih =>
      simp only [cstr, List.cons_append, List.takeWhile_cons] at ih ⊢
      split
      · rw [ih]
      · rfl
  obtain ⟨t, hlast⟩ := hlast
  have hid : cstr e.ext.id.cells = cstr (idStored l) := by rw [hi, h2, hcs, hs]
  have hlen : e.ext.id.cells.length = idMax := by
    rw [hi, h2]
    have : (idStored d.line.cells).length ≤ 23 := by
      unfold idStored
      have := (List.takeWhile_prefix (fun x => decide (x ≠ (13 : Byte)))
        (l := (idText d.line.cells).take 23)).length_le
      simp only [List.length_take] at this
      omega
    simp only [List.length_append, List.length_cons, List.length_drop, h.len, idMax]
    omega
  have h89 : ∃ r, cstr (idStored l) = 56 :: r := by
    obtain ⟨ds, rest, e1, _, _, e2, _, ⟨u, e3⟩, _⟩ := hv
    refine ⟨cstr (((u ++ rest).take 21).takeWhile (· ≠ 13) |> fun x => (57 : Byte) :: x), ?_⟩
    unfold idStored
    rw [e1, ← e3]
    rfl
  have h0 : e.ext.id.get 0 ≠ 0 := by
    obtain ⟨r, h89⟩ := h89
    rw [← hid] at h89
    unfold Mem.get
    cases hx : e.ext.id.cells with
    | nil => rw [hx] at h89; simp [cstr] at h89
    | cons c cs =>
      rw [hx] at h89
      simp only [cstr, List.takeWhile_cons] at h89
      split at h89
      · injection h89 with h89 _
        subst h89
        simp
      · simp at h89
  exact ⟨hlen, ⟨t ++ [.line l], by rw [ht, hlast, List.append_assoc]⟩,
    Or.inr (Or.inr ⟨hr, h0, t ++ [.line l], l, by rw [ht, hlast, List.append_assoc], by simp, hv,
      hid⟩)⟩

theorem calls : Calls (Asked (S := S) ask base) where
  io _ _ _ _ _ h := h.same rfl rfl rfl
  isOpen _ _ h := h.same rfl rfl rfl
  conn _ h _ _ := h.keep rfl ⟨_, rfl⟩ id
  disc0 _ h _ := h.keep rfl ⟨_, rfl⟩ id
  disc _ h _ := h.keep rfl ⟨_, rfl⟩ id
  write0 _ h _ := h.keep rfl ⟨_, rfl⟩ id
  write _ _ h _ := h.keep rfl ⟨_, rfl⟩ id
  read _ _ h := h.keep rfl ⟨_, rfl⟩ id
  rssi _ h := h.same rfl rfl rfl
  userTx _ _ _ _ h := h.keep rfl ⟨_, rfl⟩ id
  userRx _ _ _ _ h := h.keep rfl ⟨_, rfl⟩ id
  host _ _ _ _ h := h.same rfl rfl rfl

/-- The request itself. -/
theorem start (d : SimDev S R) (hl : d.ext.id.cells.length = idMax) :
    Asked ask d.trace (SimDev.requestIDString d .iccid) := by
  refine ⟨by simp [SimDev.requestIDString, Mem.store, hl], ⟨[], by simp [SimDev.requestIDString]⟩,
    Or.inl ⟨?_, ?_⟩⟩ <;>
    simp [SimDev.requestIDString, Mem.store, Mem.get, hl, idMax, IdType.code]

theorem result (h : Asked ask base d) {s : List Byte} (hs : SimDev.getIDString d = some s) :
    ∃ new l, d.trace = base ++ new ∧ .line l ∈ new ∧ ValidIccid (idText l) ∧
      s = cstr (idStored l) := by
  unfold SimDev.getIDString at hs
  split at hs
  · rename_i hq
    injection hs with hs
    rcases h.now with ⟨a, _⟩ | ⟨_, a, _⟩ | ⟨_, _, new, l, a, b, c, e⟩
    · exact absurd a hq.2
    · exact absurd a hq.2
    · exact ⟨new, l, a, b, c, hs ▸ e⟩
  · cases hs

end Asked

theorem SimDev.idReq_true {d : SimDev S R} {c : List Byte} (h : (d.sendIDRequest c).2 = true) :
    (d.sendIDRequest c).1.ext.id = d.ext.id.store 1 0 ∧
      (d.ext.id.get 1 ≠ 0 ∧ d.ext.id.get 0 = 0) ∧ ∃ new, (d.sendIDRequest c).1.trace = d.trace ++ new := by
  unfold SimDev.sendIDRequest at h ⊢
  split
  · rename_i hq
    rw [if_pos hq] at h
    dsimp only at h ⊢
    split
    · exact ⟨rfl, ⟨hq.1, hq.2.1⟩, by simp only [sendCommand, Dev.arg, Dev.cmd, List.append_assoc]; exact ⟨_, rfl⟩⟩
    · rename_i hn
      rw [hn] at h
      cases h
  · rename_i hq
    rw [if_neg hq] at h
    cases h

theorem SimDev.idReq_false {d : SimDev S R} {c : List Byte} (h : (d.sendIDRequest c).2 = false) :
    (d.sendIDRequest c).1.trace = d.trace ∧ (d.sendIDRequest c).1.rep = d.rep ∧
      (d.sendIDRequest c).1.rssi = d.rssi ∧
      ((d.sendIDRequest c).1.ext.id = d.ext.id ∨
        ((d.sendIDRequest c).1.ext.id = d.ext.id.store 1 0 ∧ d.ext.id.get 1 ≠ 0 ∧ d.ext.id.get 0 = 0)) := by
  unfold SimDev.sendIDRequest at h ⊢
  split
  · rename_i hq
    rw [if_pos hq] at h
    dsimp only at h ⊢
    split
    · rename_i hn
      rw [hn] at h
      cases h
    · exact ⟨rfl, rfl, rfl, Or.inr ⟨rfl, hq.1, hq.2.1⟩⟩
  · exact ⟨rfl, rfl, rfl, Or.inl rfl⟩

theorem SimDev.parseDns_id (d : SimDev S R) : d.parseDnsReply.1.ext.id = d.ext.id ∧
    d.parseDnsReply.1.trace = d.trace ∧ d.parseDnsReply.1.rep = d.rep ∧
    d.parseDnsReply.1.rssi = d.rssi := by
  unfold SimDev.parseDnsReply
  dsimp only
  (repeat' split) <;> exact ⟨rfl, rfl, rfl, rfl⟩

/-- The text that is searched for an identification. -/
def SimDev.idSource (line : Mem) : Option (List Byte) :=
  if hasPrefix line b!"AT" || line.get 0 == cr then none
  else if hasPrefix line b!"+ICCID: " then some (line.drop 8)
  else if hasPrefix line b!"+" then none
  else some (line.drop 0)

theorem SimDev.parseId_eq (d : SimDev S R) : d.parseIDReply =
    match SimDev.idSource d.line with
    | none => (d, false)
    | some src =>
      if d.ext.id.get 2 = IdType.iccid.code ∧ SimDev.iccidValid src = false then (d, false)
      else ({ d with ext := { d.ext with id := SimDev.copyUntil cr idMax idMax src 0 d.ext.id } }, true) := by
  have hgo : ∀ src, SimDev.parseIDReply.go d src =
      if d.ext.id.get 2 = IdType.iccid.code ∧ SimDev.iccidValid src = false then (d, false)
      else ({ d with ext := { d.ext with id := SimDev.copyUntil cr idMax idMax src 0 d.ext.id } }, true) := by
    intro src
    unfold SimDev.parseIDReply.go
    dsimp only
    by_cases h1 : d.ext.id.get 2 = IdType.iccid.code
    · rw [if_pos h1]
      by_cases h2 : SimDev.iccidValid src = true
      · rw [if_pos h2, if_neg (by simp [h2])]
      · rw [if_neg h2, if_pos ⟨h1, by simpa using h2⟩]
    · rw [if_neg h1, if_pos rfl, if_neg (fun h => h1 h.1)]
  unfold SimDev.parseIDReply SimDev.idSource Dev.has
  (repeat' split) <;> simp_all

theorem SimDev.parseId_cases (d : SimDev S R) : d.parseIDReply = (d, false) ∨ ∃ src, d.parseIDReply =
    ({ d with ext := { d.ext with id := SimDev.copyUntil cr idMax idMax src 0 d.ext.id } }, true) := by
  rw [SimDev.parseId_eq]
  split
  · exact Or.inl rfl
  · split
    · exact Or.inl rfl
    · exact Or.inr ⟨_, rfl⟩

theorem SimDev.parseId_congr {d e : SimDev S R} (h1 : e.ext = d.ext) (h2 : e.line = d.line) :
    e.parseIDReply.2 = d.parseIDReply.2 ∧ e.parseIDReply.1.ext = d.parseIDReply.1.ext := by
  rw [SimDev.parseId_eq, SimDev.parseId_eq, h1, h2]
  split
  · exact ⟨rfl, h1⟩
  · split
    · exact ⟨rfl, h1⟩
    · exact ⟨rfl, rfl⟩

theorem SimDev.parseId_frame (d : SimDev S R) : d.parseIDReply.1.trace = d.trace ∧
    d.parseIDReply.1.rep = d.rep ∧ d.parseIDReply.1.rssi = d.rssi ∧
    (d.parseIDReply.2 = false → d.parseIDReply.1 = d) := by
  rcases SimDev.parseId_cases d with e | ⟨src, e⟩ <;> rw [e] <;> simp

theorem SimDev.getId_len {d : SimDev S R} (h : d.ext.id.cells.length = idMax) (src : List Byte) :
    (SimDev.copyUntil cr idMax idMax src 0 d.ext.id).cells.length = idMax := by
  have : ∀ (fuel : Nat) (src : List Byte) (k : Nat) (m : Mem),
      (SimDev.copyUntil cr idMax fuel src k m).cells.length = m.cells.length := by
    intro fuel
    induction fuel with
    | zero => intro src k m; simp [SimDev.copyUntil, Mem.store]
    | succ n ih =>
      intro src k m
      unfold SimDev.copyUntil
      split
      · rw [ih]; simp [Mem.store]
      · simp [Mem.store]
  rw [this, h]

/-- The identification buffer keeps its size. -/
def IdLen (d : SimDev S R) : Prop := d.ext.id.cells.length = idMax

theorem IdLen.calls : Calls (IdLen (S := S) (R := R)) where
  io _ _ _ _ _ h := h
  isOpen _ _ h := h
  conn _ h _ _ := h
  disc0 _ h _ := h
  disc _ h _ := h
  write0 _ h _ := h
  write _ _ h _ := h
  read _ _ h := h
  rssi _ h := h
  userTx _ _ _ _ h := h
  userRx _ _ _ _ h := h
  host _ _ _ _ h := h

theorem IdLen.parseId {d : SimDev S R} (h : IdLen d) : IdLen (SimDev.parseIDReply d).1 := by
  rcases SimDev.parseId_cases d with e | ⟨src, e⟩ <;> rw [e]
  · exact h
  · exact SimDev.getId_len h _

theorem IdLen.idReq {d : SimDev S R} (h : IdLen d) (c : List Byte) : IdLen (d.sendIDRequest c).1 := by
  unfold SimDev.sendIDRequest
  have h : d.ext.id.cells.length = idMax := h
  split
  · dsimp only
    split <;> simp [IdLen, h, Mem.store]
  · exact h

theorem IdLen.reset {d : SimDev S R} (h : IdLen d) (s0 : S) (r0 : R) :
    IdLen (SimDev.resetStates d s0 r0) := by
  have h : d.ext.id.cells.length = idMax := h
  simp [IdLen, SimDev.resetStates, h, Mem.store]

theorem IdLen.request {d : SimDev S R} (h : IdLen d) (t : IdType) :
    IdLen (SimDev.requestIDString d t) := by
  have h : d.ext.id.cells.length = idMax := h
  simp [IdLen, SimDev.requestIDString, h, Mem.store]

/-! ## SIM7x00 -/

namespace Sim7x00

theorem act_id (d : D) : (act d).ext = d.ext ∧ (d.rep ≠ .requestID → (act d).rep ≠ .requestID) := by
  unfold act
  split <;> (try unfold Dev.handleConnect) <;> (try unfold actCgsockcont) <;> (try unfold actCipopen) <;>
    (try unfold actConnected) <;> (try unfold actCiprxget2) <;> (try unfold actReceiving) <;>
    (try unfold Dev.handleDisconnect) <;> (try dsimp only) <;> (repeat' split) <;> simp_all

theorem parseReply_id (p : Platform) (e : D) :
    ((parseReply p e).1.ext.id = e.ext.id ∧ (parseReply p e).1.rep = e.rep) ∨
    ((parseReply p e).1.ext.id = e.ext.id ∧ e.rep ≠ .requestID ∧ (parseReply p e).1.rep ≠ .requestID) ∨
    (e.rep = .requestID ∧ (SimDev.parseIDReply e).2 = true ∧
      (parseReply p e).1.ext.id = (SimDev.parseIDReply e).1.ext.id ∧
      (parseReply p e).1.rep = .okReply) := by
  have hx := SimDev.parseId_frame e
  have hd := SimDev.parseDns_id e
  unfold parseReply
  split
  all_goals
    rename_i hrep
    (try dsimp only)
    (repeat' split) <;> simp_all

/-- What a line does to the identification. -/
theorem parseLine_id (p : Platform) (d : D) :
    ((parseLine p d).1.ext.id = d.ext.id ∧ (parseLine p d).1.rep = d.rep) ∨
    ((parseLine p d).1.ext.id = d.ext.id ∧ d.rep ≠ .requestID ∧ (parseLine p d).1.rep ≠ .requestID) ∨
    (d.rep = .requestID ∧ (SimDev.parseIDReply d).2 = true ∧
      (parseLine p d).1.ext.id = (SimDev.parseIDReply d).1.ext.id ∧ (parseLine p d).1.rep = .okReply) := by
  have hc : ∀ e : D, (checkState e).ext = e.ext ∧ (checkState e).rep = e.rep := by
    intro e; unfold checkState; split <;> simp
  have hw : (parseWait d).1.ext = d.ext ∧ (parseWait d).1.rep = d.rep ∧
      (parseWait d).1.line = d.line := by
    unfold parseWait; (repeat' split) <;> simp
  unfold parseLine
  dsimp only
  split
  · exact Or.inl ⟨by rw [hw.1], hw.2.1⟩
  · obtain ⟨hw1, hw2, hw3⟩ := hw
    have hid := SimDev.parseId_congr hw1 hw3
    generalize (parseWait d).1 = e at *
    have hr := parseReply_id p e
    rw [hw1, hw2, hid.1, hid.2] at hr
    split
    · exact hr
    · rw [(hc _).1, (hc _).2]; exact hr

theorem asked_sections (p : Platform) (base : List Ev) :
    Sections p (Asked (S := Snd) (· = .requestID) base) where
  fail _ h _ := h.same rfl rfl rfl
  reset d h _ _ := h.keep rfl (Since.grows (eff_handleReset (x := NoHeader) d))
    (fun _ => by simp [handleReset])
  line d s m l _ h _ _ h1 h2 := by
    have h' : Asked (S := Snd) (· = .requestID) base (d.gotLine s m d.rep l) :=
      h.keep rfl ⟨_, rfl⟩ id
    have ht := parseLine_trace p (d.gotLine s m d.rep l)
    obtain ⟨t, hg⟩ := h.grown
    rcases parseLine_id p (d.gotLine s m d.rep l) with ⟨a, b⟩ | ⟨a, b, c⟩ | ⟨a, b, c, e⟩
    · exact h'.same a ht b
    · exact h'.keep a ⟨[], by simp [ht]⟩ fun _ => c
    · exact h'.found h1 h2 ⟨t, by rw [← hg]⟩ a b c ht (by rw [e]; simp)
  drop _ h _ _ _ := h.keep rfl ⟨_, rfl⟩ id
  csq d h _ _ _ _ _ _ := h.keep rfl
    (by simp only [sendCommand, Dev.arg, Dev.cmd, List.append_assoc]; exact ⟨_, rfl⟩) (fun _ => by simp)
  ident d h _ _ _ _ hq := by
    obtain ⟨a, b, c⟩ := SimDev.idReq_true hq
    exact h.sent a b c
  identNone d h hq := by
    obtain ⟨a, b, _, c | ⟨c, e⟩⟩ := SimDev.idReq_false hq
    · exact h.same c a b
    · exact h.sent c e ⟨[], by simp [a]⟩
  act d h _ _ _ _ := h.keep (by rw [(act_id d).1])
    (Since.grows (eff_act (x := NoHeader) d fun h => by cases h)) (act_id d).2

theorem asked_step (p : Platform) (base : List Ev) {d : D} (hl : LineOk d)
    (h : Asked (S := Snd) (· = .requestID) base d) (op : Op) (ho : ∀ t, op ≠ .requestID t) :
    Asked (S := Snd) (· = .requestID) base (step p d op) := by
  cases op with
  | run ok => exact (asked_sections p base).run Asked.calls.toPort hl h ok
  | connect =>
    simp only [step]
    unfold SimDev.connect
    split
    · exact h
    · exact Asked.calls.ipConnect h
  | resetStates => exact h.reset _ _ (by simp)
  | setApn => exact h.same rfl rfl rfl
  | serialLock =>
    simp only [step, SimDev.serialLock]
    split
    · exact h
    · exact h.same rfl rfl rfl
  | serialUnlock => exact h.same rfl rfl rfl
  | requestID t => exact absurd rfl (ho t)
  | _ => simp only [step]; exact Asked.calls.common h _

theorem asked_exec (p : Platform) (base : List Ev) {d : D} (hv : Inv d)
    (h : Asked (S := Snd) (· = .requestID) base d) (ops : List Op)
    (ho : ∀ t, Op.requestID t ∉ ops) :
    Asked (S := Snd) (· = .requestID) base (exec (step p) d ops) :=
  (exec_inv (step := step p) (I := fun d => Inv d ∧ Asked (S := Snd) (· = .requestID) base d)
    (ok := fun op => ∀ t, op ≠ .requestID t)
    (fun _ op hq h => ⟨step_inv p op h.1, asked_step p base h.1.1.line h.2 op hq⟩) ⟨hv, h⟩ ops
    fun op hop t e => ho t (e ▸ hop)).2

theorem idLen_sections (p : Platform) : Sections p (IdLen (S := Snd) (R := Rep)) where
  fail _ h _ := h
  reset _ h _ _ := h
  line d s m l _ h _ _ h1 h2 := by
    have h' : IdLen (S := Snd) (R := Rep) (d.gotLine s m d.rep l) := h
    rcases parseLine_id p (d.gotLine s m d.rep l) with ⟨a, _⟩ | ⟨a, _⟩ | ⟨_, _, a, _⟩
    · unfold IdLen; rw [a]; exact h
    · unfold IdLen; rw [a]; exact h
    · unfold IdLen; rw [a]; exact h'.parseId
  drop _ h _ _ _ := h
  csq _ h _ _ _ _ _ _ := h
  ident _ h _ _ _ _ _ := h.idReq _
  identNone _ h _ := h.idReq _
  act d h _ _ _ _ := by unfold IdLen; rw [(act_id d).1]; exact h

theorem idLen_exec (p : Platform) {d : D} (hv : Inv d) (h : IdLen (S := Snd) (R := Rep) d)
    (ops : List Op) : IdLen (S := Snd) (R := Rep) (exec (step p) d ops) := by
  refine (exec_inv (step := step p) (I := fun d => Inv d ∧ IdLen (S := Snd) (R := Rep) d)
    (ok := fun _ => True)
    (fun d op _ h => ⟨step_inv p op h.1, ?_⟩) ⟨hv, h⟩ ops fun _ _ => trivial).2
  obtain ⟨hv, h⟩ := h
  cases op with
  | run ok => exact (idLen_sections p).run IdLen.calls.toPort hv.1.line h ok
  | connect =>
    simp only [step]
    unfold SimDev.connect
    split
    · exact h
    · exact IdLen.calls.ipConnect h
  | resetStates => exact h.reset _ _
  | setApn => exact h
  | serialLock =>
    simp only [step, SimDev.serialLock]
    split
    · exact h
    · exact h
  | serialUnlock => exact h
  | requestID t => exact h.request t
  | _ => simp only [step]; exact IdLen.calls.common h _

end Sim7x00
/-! ## SIM800 -/

namespace Sim800

theorem act_id (d : D) : (act d).ext = d.ext ∧ (act d).rssi = d.rssi ∧
    (d.rep ≠ .requestID → (act d).rep ≠ .requestID) ∧ (d.rep ≠ .csq → (act d).rep ≠ .csq) := by
  unfold act
  split <;> (try unfold Dev.handleConnect) <;> (try unfold actCstt) <;> (try unfold actCipstart) <;>
    (try unfold actConnected) <;> (try unfold actCiprxget2) <;> (try unfold actReceiving) <;>
    (try unfold Dev.handleDisconnect) <;> (try dsimp only) <;> (repeat' split) <;> simp_all

theorem parseReply_id (p : Platform) (e : D) (hn : e.rep ≠ .csq) :
    ((parseReply p e).rssi = e.rssi ∧ (parseReply p e).rep ≠ .csq) ∧
    (((parseReply p e).ext.id = e.ext.id ∧ (parseReply p e).rep = e.rep) ∨
    ((parseReply p e).ext.id = e.ext.id ∧ e.rep ≠ .requestID ∧ (parseReply p e).rep ≠ .requestID) ∨
    (e.rep = .requestID ∧ (SimDev.parseIDReply e).2 = true ∧
      (parseReply p e).ext.id = (SimDev.parseIDReply e).1.ext.id ∧
      (parseReply p e).rep = .okReply)) := by
  have hx := SimDev.parseId_frame e
  have hd := SimDev.parseDns_id e
  unfold parseReply
  split
  all_goals
    rename_i hrep
    (try dsimp only)
    (repeat' split) <;> simp_all

/-- What a line does to the identification, when no signal strength is asked for. -/
theorem parseLine_id (p : Platform) (d : D) (hn : d.rep ≠ .csq) :
    ((parseLine p d).1.rssi = d.rssi ∧ (parseLine p d).1.rep ≠ .csq) ∧
    (((parseLine p d).1.ext.id = d.ext.id ∧ (parseLine p d).1.rep = d.rep) ∨
    ((parseLine p d).1.ext.id = d.ext.id ∧ d.rep ≠ .requestID ∧ (parseLine p d).1.rep ≠ .requestID) ∨
    (d.rep = .requestID ∧ (SimDev.parseIDReply d).2 = true ∧
      (parseLine p d).1.ext.id = (SimDev.parseIDReply d).1.ext.id ∧ (parseLine p d).1.rep = .okReply)) := by
  have hc : ∀ e : D, (checkState e).ext = e.ext ∧ (checkState e).rep = e.rep ∧
      (checkState e).rssi = e.rssi := by
    intro e; unfold checkState; split <;> simp
  have hw : (parseWait d).ext = d.ext ∧ (parseWait d).rep = d.rep ∧
      (parseWait d).line = d.line ∧ (parseWait d).rssi = d.rssi := by
    unfold parseWait; (repeat' split) <;> simp
  unfold parseLine
  split
  · exact ⟨⟨rfl, hn⟩, Or.inl ⟨rfl, rfl⟩⟩
  · obtain ⟨hw1, hw2, hw3, hw4⟩ := hw
    have hid := SimDev.parseId_congr hw1 hw3
    generalize parseWait d = e at *
    have hr := parseReply_id p e (by rw [hw2]; exact hn)
    rw [hw1, hw2, hid.1, hid.2, hw4] at hr
    rw [(hc _).1, (hc _).2.1, (hc _).2.2]; exact hr

/-- No signal strength is asked for. -/
def NoCsq (d : D) : Prop := d.rssi ≠ int16Max ∧ d.rep ≠ .csq

/-- The identification, when no signal strength is asked for. -/
def AskedI (base : List Ev) (d : D) : Prop := Asked (S := Snd) (· = .requestID) base d ∧ NoCsq d

theorem asked_port (base : List Ev) : Port (AskedI base) where
  io _ _ _ _ _ h := ⟨h.1.same rfl rfl rfl, h.2⟩
  isOpen _ _ h := ⟨h.1.same rfl rfl rfl, h.2⟩

theorem handleReset_id (d : D) : (handleReset d).ext = d.ext ∧ (handleReset d).rssi = d.rssi ∧
    (handleReset d).rep = .okReply := by
  unfold handleReset
  dsimp only
  split <;> simp

theorem asked_sections (p : Platform) (base : List Ev) : Sections p (AskedI base) where
  fail _ h _ := ⟨h.1.same rfl rfl rfl, h.2⟩
  reset d h _ _ := by
    obtain ⟨a, b, c⟩ := handleReset_id d
    exact ⟨h.1.keep (by rw [a]) (Since.grows (eff_handleReset (x := NoHeader) d))
      (fun _ => by rw [c]; simp), by rw [b]; exact h.2.1, by rw [c]; simp⟩
  line d s m l _ h _ _ h1 h2 := by
    have h' : Asked (S := Snd) (· = .requestID) base (d.gotLine s m d.rep l) :=
      h.1.keep rfl ⟨_, rfl⟩ id
    have ht := parseLine_trace p (d.gotLine s m d.rep l)
    obtain ⟨t, hg⟩ := h.1.grown
    obtain ⟨⟨n1, n2⟩, hq⟩ := parseLine_id p (d.gotLine s m d.rep l) h.2.2
    refine ⟨?_, by rw [n1]; exact h.2.1, n2⟩
    rcases hq with ⟨a, b⟩ | ⟨a, b, c⟩ | ⟨a, b, c, e⟩
    · exact h'.same a ht b
    · exact h'.keep a ⟨[], by simp [ht]⟩ fun _ => c
    · exact h'.found h1 h2 ⟨t, by rw [← hg]⟩ a b c ht (by rw [e]; simp)
  drop _ h _ _ _ := ⟨h.1.keep rfl ⟨_, rfl⟩ id, h.2⟩
  csq d h _ _ _ _ hq _ := absurd hq h.2.1
  ident d h _ _ _ _ hq := by
    obtain ⟨a, b, c⟩ := SimDev.idReq_true hq
    exact ⟨h.1.sent a b c, by simpa using h.2.1, by simp⟩
  identNone d h hq := by
    obtain ⟨a, b, b', c⟩ := SimDev.idReq_false hq
    refine ⟨?_, by rw [b']; exact h.2.1, by rw [b]; exact h.2.2⟩
    rcases c with c | ⟨c, e⟩
    · exact h.1.same c a b
    · exact h.1.sent c e ⟨[], by simp [a]⟩
  act d h _ _ _ _ := by
    obtain ⟨a, b, c, e⟩ := act_id d
    exact ⟨h.1.keep (by rw [a]) (Since.grows (eff_act (x := NoHeader) d fun h => by cases h)) c,
      by rw [b]; exact h.2.1, e h.2.2⟩

theorem noCsq_step (p : Platform) {d : D} (h : NoCsq d) (op : Op) (ho : op ≠ .requestRSSI)
    (hr : ∀ ok, op ≠ .run ok) : NoCsq (step p d op) := by
  cases op with
  | run ok => exact absurd rfl (hr ok)
  | requestRSSI => exact absurd rfl ho
  | connect =>
    simp only [step, SimDev.connect, Dev.ipConnect, Dev.logConnect]
    (repeat' split) <;> exact h
  | resetStates => exact ⟨by simp [step, SimDev.resetStates, int16Max], by simp [step, SimDev.resetStates]⟩
  | serialLock =>
    simp only [step, SimDev.serialLock]
    split <;> exact h
  | serialWrite =>
    simp only [step, Dev.common, Dev.serialWrite]
    (repeat' split) <;> exact h
  | serialRead =>
    simp only [step, Dev.common, Dev.serialRead]
    (repeat' split) <;> exact h
  | disconnect =>
    simp only [step, Dev.common, Dev.disconnect]
    (repeat' split) <;> exact h
  | write =>
    simp only [step, Dev.common, Dev.write]
    (repeat' split) <;> exact h
  | _ => exact h

theorem asked_step (p : Platform) (base : List Ev) {d : D} (hl : LineOk d) (h : AskedI base d) (op : Op)
    (ho : ∀ t, op ≠ .requestID t) (ho' : op ≠ .requestRSSI) : AskedI base (step p d op) := by
  by_cases hr : ∃ ok, op = .run ok
  · obtain ⟨ok, rfl⟩ := hr
    exact (asked_sections p base).run (asked_port base) hl h ok
  · refine ⟨?_, noCsq_step p h.2 op ho' fun ok e => hr ⟨ok, e⟩⟩
    have h := h.1
    cases op with
    | run ok => exact absurd ⟨ok, rfl⟩ hr
    | connect =>
      simp only [step]
      unfold SimDev.connect
      split
      · exact h
      · exact Asked.calls.ipConnect h
    | resetStates => exact h.reset _ _ (by simp)
    | setApn => exact h.same rfl rfl rfl
    | serialLock =>
      simp only [step, SimDev.serialLock]
      split
      · exact h
      · exact h.same rfl rfl rfl
    | serialUnlock => exact h.same rfl rfl rfl
    | requestID t => exact absurd rfl (ho t)
    | _ => simp only [step]; exact Asked.calls.common h _

theorem asked_exec (p : Platform) (base : List Ev) {d : D} (hv : Inv d) (h : AskedI base d)
    (ops : List Op) (ho : ∀ t, Op.requestID t ∉ ops) (ho' : Op.requestRSSI ∉ ops) :
    AskedI base (exec (step p) d ops) :=
  (exec_inv (step := step p) (I := fun d => Inv d ∧ AskedI base d)
    (ok := fun op => (∀ t, op ≠ .requestID t) ∧ op ≠ .requestRSSI)
    (fun _ op hq h => ⟨step_inv p op h.1, asked_step p base h.1.1.line h.2 op hq.1 hq.2⟩) ⟨hv, h⟩ ops
    fun op hop => ⟨fun t e => ho t (e ▸ hop), fun e => ho' (e ▸ hop)⟩).2

/-- Size of the buffer, when no signal strength is asked for. -/
def LenI (d : D) : Prop := IdLen (S := Snd) (R := Rep) d ∧ NoCsq d

theorem len_sections (p : Platform) : Sections p LenI where
  fail _ h _ := h
  reset d h _ _ := by
    obtain ⟨a, b, c⟩ := handleReset_id d
    exact ⟨by unfold IdLen; rw [a]; exact h.1, by rw [b]; exact h.2.1, by rw [c]; simp⟩
  line d s m l _ h _ _ h1 h2 := by
    have h' : IdLen (S := Snd) (R := Rep) (d.gotLine s m d.rep l) := h.1
    obtain ⟨⟨n1, n2⟩, hq⟩ := parseLine_id p (d.gotLine s m d.rep l) h.2.2
    refine ⟨?_, by rw [n1]; exact h.2.1, n2⟩
    rcases hq with ⟨a, _⟩ | ⟨a, _⟩ | ⟨_, _, a, _⟩
    · unfold IdLen; rw [a]; exact h.1
    · unfold IdLen; rw [a]; exact h.1
    · unfold IdLen; rw [a]; exact h'.parseId
  drop _ h _ _ _ := h
  csq d h _ _ _ _ hq _ := absurd hq h.2.1
  ident _ h _ _ _ _ _ := ⟨h.1.idReq _, by simpa using h.2.1, by simp⟩
  identNone d h hq := by
    obtain ⟨_, b, b', _⟩ := SimDev.idReq_false hq
    exact ⟨h.1.idReq _, by rw [b']; exact h.2.1, by rw [b]; exact h.2.2⟩
  act d h _ _ _ _ := by
    obtain ⟨a, b, _, e⟩ := act_id d
    exact ⟨by unfold IdLen; rw [a]; exact h.1, by rw [b]; exact h.2.1, e h.2.2⟩

theorem len_exec (p : Platform) {d : D} (hv : Inv d) (h : LenI d) (ops : List Op)
    (ho : Op.requestRSSI ∉ ops) : LenI (exec (step p) d ops) := by
  refine (exec_inv (step := step p) (I := fun d => Inv d ∧ LenI d) (ok := fun op => op ≠ .requestRSSI)
    (fun d op hq h => ⟨step_inv p op h.1, ?_⟩) ⟨hv, h⟩ ops fun op hop e => ho (e ▸ hop)).2
  obtain ⟨hv, h⟩ := h
  by_cases hr : ∃ ok, op = .run ok
  · obtain ⟨ok, rfl⟩ := hr
    exact (len_sections p).run (I := LenI) ⟨fun _ _ _ _ _ h => h, fun _ _ h => h⟩ hv.1.line h ok
  · refine ⟨?_, noCsq_step p h.2 op hq fun ok e => hr ⟨ok, e⟩⟩
    have h := h.1
    cases op with
    | run ok => exact absurd ⟨ok, rfl⟩ hr
    | connect =>
      simp only [step]
      unfold SimDev.connect
      split
      · exact h
      · exact IdLen.calls.ipConnect h
    | resetStates => exact h.reset _ _
    | setApn => exact h
    | serialLock =>
      simp only [step, SimDev.serialLock]
      split
      · exact h
      · exact h
    | serialUnlock => exact h
    | requestID t => exact h.request t
    | _ => simp only [step]; exact IdLen.calls.common h _

end Sim800
end Verif
