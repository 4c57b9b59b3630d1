import Verif.Lemmas.Turn

/-! Invariants about the payload of the application: announced before it is sent, sent after the prompt,
nothing lost or changed on the way. -/

namespace Verif

open Dev Spec

variable {S R X : Type}

/-! ### Announcement and prompt -/

/-- In the state in which payload is sent: the send command was given and, unless the driver waits for
the prompt, the prompt was seen. -/
structure TxInv (prompts status : List (List Byte)) (shape : Nat → List (List Byte) → Prop) (sd : S)
    (rp : R) (d : Dev S R X) : Prop where
  ok : PayOk prompts status shape d.trace
  st : d.snd = sd → d.resetPending = false → ∃ args, shape d.bytesToWrite args ∧
    ((tx prompts status).after d.trace = .ready args ∨
      ((tx prompts status).after d.trace = .asked args ∧ d.wait = some b!">" ∧ d.rep = rp))

variable {prompts status : List (List Byte)} {shape : Nat → List (List Byte) → Prop} {sd rc : S}
  {rp : R} {Q : Option (List Byte) → Dev S R X → Prop}

theorem payOk_append {t new : List Ev} (h : PayOk prompts status shape t)
    (hn : ∀ e ∈ new, ∀ bs, e ≠ .pay bs) : PayOk prompts status shape (t ++ new) := by
  induction new generalizing t with
  | nil => simpa using h
  | cons e es ih =>
    rw [show t ++ e :: es = (t ++ [e]) ++ es by simp]
    refine ih (always_snoc.mpr ⟨h, fun bs hb => absurd hb (hn e (by simp) bs)⟩) fun x hx => hn x (by simp [hx])

/-- Events that concern neither payload nor the send command. -/
def dull : Ev → Bool
  | .cmd _ _ | .arg _ _ | .pay _ | .line _ | .apiReset | .apiWrite _ => false
  | _ => true

theorem tx_dull {e : Ev} (h : dull e = true ∨ ∃ bs, e = .apiWrite bs) (s : Tx) :
    (tx prompts status).step s e = s := by
  rcases h with h | ⟨bs, rfl⟩
  · cases e <;> first | rfl | simp [dull] at h
  · rfl

theorem TxInv.more {d e : Dev S R X} (h : TxInv prompts status shape sd rp d) (new : List Ev)
    (ht : e.trace = d.trace ++ new) (hn : ∀ x ∈ new, dull x = true ∨ ∃ bs, x = .apiWrite bs)
    (hs : e.snd = sd → e.resetPending = false →
      d.snd = sd ∧ d.resetPending = false ∧ e.bytesToWrite = d.bytesToWrite ∧ e.wait = d.wait ∧
        e.rep = d.rep) :
    TxInv prompts status shape sd rp e := by
  have hk : (tx prompts status).after e.trace = (tx prompts status).after d.trace := by
    rw [ht]; exact Observer.after_neutral _ _ _ fun x hx s => tx_dull (hn x hx) s
  refine ⟨?_, fun h1 h2 => ?_⟩
  · rw [ht]
    refine payOk_append h.ok fun x hx bs hb => ?_
    rcases hn x hx with y | ⟨_, y⟩ <;> rw [hb] at y <;> simp [dull] at y
  · obtain ⟨a, b, c, w, r⟩ := hs h1 h2
    rw [hk, c, w, r]
    exact h.st a b

theorem TxInv.same {d e : Dev S R X} (h : TxInv prompts status shape sd rp d) (ht : e.trace = d.trace)
    (hs : e.snd = sd → e.resetPending = false →
      d.snd = sd ∧ d.resetPending = false ∧ e.bytesToWrite = d.bytesToWrite ∧ e.wait = d.wait ∧
        e.rep = d.rep) :
    TxInv prompts status shape sd rp e :=
  h.more [] (by simp [ht]) (by simp) hs

/-- Not the state in which payload is sent; no payload was sent. -/
theorem TxInv.leave {d e : Dev S R X} (h : TxInv prompts status shape sd rp d) (new : List Ev)
    (ht : e.trace = d.trace ++ new) (hn : ∀ x ∈ new, ∀ bs, x ≠ .pay bs) (hs : e.snd ≠ sd) :
    TxInv prompts status shape sd rp e :=
  ⟨by rw [ht]; exact payOk_append h.ok hn, fun x => absurd x hs⟩

theorem txInv_calls : Calls (TxInv (S := S) (R := R) (X := X) prompts status shape sd rp) where
  io _ _ _ _ _ h := h.same rfl fun a b => ⟨a, b, rfl, rfl, rfl⟩
  isOpen _ _ h := h.same rfl fun a b => ⟨a, b, rfl, rfl, rfl⟩
  host _ _ _ _ h := h.same rfl fun a b => ⟨a, b, rfl, rfl, rfl⟩
  conn _ h _ _ := h.more [_] rfl (by simp [dull]) fun a b => ⟨a, b, rfl, rfl, rfl⟩
  disc0 _ h _ := h.more [_] rfl (by simp [dull]) fun a b => ⟨a, b, rfl, rfl, rfl⟩
  disc _ h _ := h.more [_] rfl (by simp [dull]) fun a b => ⟨a, b, rfl, rfl, rfl⟩
  write0 _ h _ := h.more [_] rfl (by simp [dull]) fun a b => ⟨a, b, rfl, rfl, rfl⟩
  write _ _ h _ := h.more [_] rfl (by simp [dull]) fun a b => ⟨a, b, rfl, rfl, rfl⟩
  read _ _ h := h.more [_] rfl (by simp [dull]) fun a b => ⟨a, b, rfl, rfl, rfl⟩
  rssi _ h := h.same rfl fun a b => ⟨a, b, rfl, rfl, rfl⟩
  userTx _ _ _ _ h := h.more [_] rfl (by simp [dull]) fun a b => ⟨a, b, rfl, rfl, rfl⟩
  userRx _ _ _ _ h := h.more [_] rfl (by simp [dull]) fun a b => ⟨a, b, rfl, rfl, rfl⟩

theorem txInv_line {d e : Dev S R X} {l : List Byte} (h : TxInv prompts status shape sd rp d)
    (ht : e.trace = d.trace ++ [.line l])
    (hs : e.snd = sd → e.resetPending = false →
      d.snd = sd ∧ d.resetPending = false ∧ e.bytesToWrite = d.bytesToWrite ∧
        (d.wait = some b!">" → d.rep = rp → (e.wait = d.wait ∧ e.rep = d.rep) ∨ ∃ q ∈ prompts, q <+: l)) :
    TxInv prompts status shape sd rp e := by
  refine ⟨by rw [ht]; exact payOk_append h.ok (by simp), fun h1 h2 => ?_⟩
  obtain ⟨a, b, c, w⟩ := hs h1 h2
  obtain ⟨args, k1, k2⟩ := h.st a b
  refine ⟨args, by rw [c]; exact k1, ?_⟩
  rw [ht, Observer.after_snoc]
  rcases k2 with k2 | ⟨k2, k3, k4⟩
  · left; rw [k2]; rfl
  · rw [k2]
    by_cases hp : (prompts.any (·.isPrefixOf l)) = true
    · left; simp only [tx, hp, if_true]
    · rcases w k3 k4 with w | ⟨q, hq, hq'⟩
      · right
        exact ⟨by simp only [tx, if_neg hp], by rw [w.1]; exact k3, by rw [w.2]; exact k4⟩
      · exact absurd (List.any_eq_true (p := fun x => x.isPrefixOf l) |>.mpr
          ⟨q, hq, List.isPrefixOf_iff_prefix.mpr hq'⟩) hp

theorem tx_args (rest : List Ev) (ha : rest.all isArg = true) (s : Tx) :
    rest.foldl (tx prompts status).step s =
      match s with
      | .asked a => .asked (a ++ gots rest)
      | s => s := by
  induction rest generalizing s with
  | nil => cases s <;> simp [gots]
  | cons e es ih =>
    simp only [List.all_cons, Bool.and_eq_true] at ha
    cases e <;> first | (simp [isArg] at ha; done) | skip
    rw [List.foldl_cons, ih ha.2]
    cases s <;> simp [tx, gots]

theorem isArg_not_pay {rest : List Ev} (ha : rest.all isArg = true) {x : Ev} (hx : x ∈ rest)
    (bs : List Byte) : x ≠ .pay bs := by
  have := List.all_eq_true.mp ha x hx
  rintro rfl
  simp [isArg] at this

/-- A status request between prompt and payload. -/
theorem txInv_status {d e : Dev S R X} {w : List Byte} (h : TxInv prompts status shape sd rp d)
    (hs : Said d w e) (hw : w ∈ status) (hc : w ≠ sendCmd) (hwait : d.wait = none)
    (hsnd : e.snd = d.snd) : TxInv prompts status shape sd rp e := by
  obtain ⟨⟨g, rest, ht, ha⟩, hk⟩ := hs
  refine ⟨?_, fun h1 h2 => ?_⟩
  · rw [ht]
    refine payOk_append h.ok fun x hx bs => ?_
    simp only [List.mem_cons] at hx
    rcases hx with rfl | hx
    · simp
    · exact isArg_not_pay ha hx bs
  · obtain ⟨args, k1, k2⟩ := h.st (hsnd ▸ h1) (by rw [← hk.reset]; exact h2)
    refine ⟨args, by rw [hk.toWrite]; exact k1, Or.inl ?_⟩
    rcases k2 with k2 | ⟨_, k3, _⟩
    · rw [ht, Observer.after_append, List.foldl_cons, tx_args _ ha, k2]
      simp [tx, hc, hw]
    · rw [hwait] at k3; simp at k3

theorem pulls_length (r : Ring Byte) (n : Nat) : (pulls r n).2.length = n := by
  induction n generalizing r with
  | zero => rfl
  | succ n ih => simp [pulls, ih]

theorem txInv_turn {d e : Dev S R X} (h : TxInv prompts status shape sd rp d)
    (hr : d.resetPending = false) (hw : d.wait = none) (hp : d.rep = rp)
    (ht : Turn sd rc shape Q d e) :
    TxInv prompts status shape sd rp e := by
  cases ht with
  | quiet ht hs hk => exact h.leave [] (by simp [ht]) (by simp) hs
  | cmd w g rest ht hw ha hs hk hq =>
    refine h.leave _ ht (fun x hx bs => ?_) hs
    simp only [List.mem_cons] at hx
    rcases hx with rfl | hx
    · simp
    · exact isArg_not_pay ha hx bs
  | send rest ht ha hn hsh hwt hrp hs hk =>
    refine ⟨?_, fun _ _ => ⟨gots rest, by rw [hn]; exact hsh, Or.inr ⟨?_, hwt, hrp.trans hp⟩⟩⟩
    · rw [ht]
      refine payOk_append h.ok fun x hx bs => ?_
      simp only [List.mem_cons] at hx
      rcases hx with rfl | hx
      · simp
      · exact isArg_not_pay ha hx bs
    · rw [ht, Observer.after_append, List.foldl_cons, tx_args _ ha]
      simp [tx]
  | pay h0 ht hb hs hk hp =>
    refine ⟨?_, fun x => absurd x hs⟩
    rw [ht]
    refine always_snoc.mpr ⟨h.ok, fun bs hbs => ?_⟩
    obtain ⟨args, k1, k2⟩ := h.st h0 hr
    simp only [Ev.pay.injEq] at hbs
    refine ⟨args, ?_, by rw [← hbs, pulls_length]; exact k1⟩
    rcases k2 with k2 | ⟨_, k3, _⟩
    · exact k2
    · rw [hw] at k3; simp at k3
  | data h0 hq h1 ht hb h2 hs hl hk =>
    exact h.leave _ (ht.trans (receive_true hq).1) (by simp) hs

/-! ### The stream of payload -/

/-- At most one byte leaves the transmit buffer between two accesses of the driver to it. -/
def SlowTx (s : Ser) : Prop := ∀ b ∈ s.sched, (b.filter (·.txOk)).length ≤ 1

theorem SlowTx.later {s s' : Ser} (h : SlowTx s) (hl : Ser.Later s s') : SlowTx s' :=
  fun b hb => h b (hl.sched.subset hb)

theorem Ser.txFree_transfer_le (s : Ser) (h : Hw) :
    (s.transfer h).txFree ≤ s.txFree + if h.txOk then 1 else 0 := by
  unfold Ser.transfer
  have e : (s.transferRx h.rx).txFree = s.txFree := by
    unfold Ser.transferRx
    split
    · rfl
    · dsimp only; split <;> rfl
  rw [← e]
  generalize s.transferRx h.rx = s
  unfold Ser.transferTx
  split
  · dsimp only
    cases h.txOk with
    | false => exact Nat.le_refl _
    | true =>
      show s.tx.ring.size - (if s.tx.ring.avail > 0 then s.tx.ring.avail - 1 else s.tx.ring.avail) ≤
        s.tx.ring.size - s.tx.ring.avail + 1
      split <;> omega
  · exact Nat.le_add_right _ _

theorem Ser.txFree_transfers_le (s : Ser) (hs : List Hw) :
    (s.transfers hs).txFree ≤ s.txFree + (hs.filter (·.txOk)).length := by
  induction hs generalizing s with
  | nil => exact Nat.le_refl _
  | cons h hs ih =>
    have h1 := ih (s.transfer h)
    have h2 := Ser.txFree_transfer_le s h
    have e : s.transfers (h :: hs) = (s.transfer h).transfers hs := rfl
    rw [e]
    cases ht : h.txOk <;> simp [ht, List.filter_cons] at h2 ⊢ <;> omega

theorem SlowTx.sync {s : Ser} (h : SlowTx s) : s.sync.txFree ≤ s.txFree + 1 := by
  unfold Ser.sync
  split
  · split
    · omega
    · rename_i b bs hb
      have h1 := Ser.txFree_transfers_le { s with sched := bs } b
      have h2 := h b (by rw [hb]; simp)
      have e : ({ s with sched := bs } : Ser).txFree = s.txFree := rfl
      omega
  · omega

/-- Not more is announced than there is. -/
theorem Dev.sendAmount_le {d : Dev S R X} (h : SlowTx d.ser) : d.sendAmount ≤ d.wbuf.avail := by
  unfold Dev.sendAmount Dev.amount
  have h1 : SlowTx d.askSpace.askSpace.ser :=
    (h.later (Ser.later_spaceAvailable _)).later (Ser.later_spaceAvailable _)
  have h2 := h1.sync
  have e1 : d.askSpace.serSpace = d.askSpace.askSpace.ser.txFree := rfl
  have e2 : d.askSpace.askSpace.serSpace = d.askSpace.askSpace.ser.sync.txFree := rfl
  rw [e1, e2]
  split <;> omega

theorem rep_pulls {r : Ring Byte} {q : List Byte} (h : Ring.Rep r q) (n : Nat) (hn : n ≤ q.length) :
    Ring.Rep (pulls r n).1 (q.drop n) ∧ (pulls r n).2 = q.take n := by
  induction n generalizing r q with
  | zero => exact ⟨by simpa [pulls] using h, rfl⟩
  | succ n ih =>
    cases q with
    | nil => simp at hn
    | cons a q =>
      have h1 := Ring.rep_pull h
      have h2 := ih h1.1 (by simpa using hn)
      refine ⟨by simpa [pulls] using h2.1, ?_⟩
      simp only [pulls, List.take_succ_cons, h1.2, h2.2]

/-- What `write()` accepted is what was sent and what is in the write buffer. -/
structure OutInv (sd : S) (d : Dev S R X) : Prop where
  stream : ∃ q, Ring.Rep d.wbuf q ∧ written.after d.trace = paid.after d.trace ++ q ∧
    (d.snd = sd → d.resetPending = false → d.bytesToWrite ≤ q.length)
  slow : SlowTx d.ser

/-- Events that do not concern the stream of payload. -/
def noStream : Ev → Bool
  | .pay _ | .apiReset | .apiWrite _ => false
  | _ => true

theorem stream_dull (t new : List Ev) (h : new.all noStream = true) :
    written.after (t ++ new) = written.after t ∧ paid.after (t ++ new) = paid.after t := by
  constructor
  · refine Observer.after_neutral _ _ _ fun e he s => ?_
    have := List.all_eq_true.mp h e he
    cases e <;> first | rfl | simp [noStream] at this
  · refine Observer.after_neutral _ _ _ fun e he s => ?_
    have := List.all_eq_true.mp h e he
    cases e <;> first | rfl | simp [noStream] at this

theorem OutInv.more {d e : Dev S R X} (h : OutInv sd d) (new : List Ev)
    (ht : e.trace = d.trace ++ new) (hn : new.all noStream = true) (hw : e.wbuf = d.wbuf)
    (hs : e.snd = sd → e.resetPending = false →
      d.snd = sd ∧ d.resetPending = false ∧ e.bytesToWrite = d.bytesToWrite)
    (hl : Ser.Later d.ser e.ser) : OutInv sd e := by
  obtain ⟨⟨q, h1, h2, h3⟩, h4⟩ := h
  obtain ⟨k1, k2⟩ := stream_dull d.trace new hn
  refine ⟨⟨q, by rw [hw]; exact h1, by rw [ht, k1, k2]; exact h2, fun a b => ?_⟩, h4.later hl⟩
  obtain ⟨x, y, z⟩ := hs a b
  rw [z]; exact h3 x y

theorem OutInv.same {d e : Dev S R X} (h : OutInv sd d) (ht : e.trace = d.trace)
    (hw : e.wbuf = d.wbuf)
    (hs : e.snd = sd → e.resetPending = false →
      d.snd = sd ∧ d.resetPending = false ∧ e.bytesToWrite = d.bytesToWrite)
    (hl : Ser.Later d.ser e.ser) : OutInv sd e :=
  h.more [] (by simp [ht]) rfl hw hs hl

theorem outInv_calls : Calls (OutInv (S := S) (R := R) (X := X) sd) where
  io _ _ _ _ hl h := h.same rfl rfl (fun a b => ⟨a, b, rfl⟩) hl
  isOpen _ _ h := h.same rfl rfl (fun a b => ⟨a, b, rfl⟩) (.refl _)
  host _ _ _ _ h := h.same rfl rfl (fun a b => ⟨a, b, rfl⟩) (.refl _)
  conn _ h _ _ := h.more [_] rfl rfl rfl (fun a b => ⟨a, b, rfl⟩) (.refl _)
  disc0 _ h _ := h.more [_] rfl rfl rfl (fun a b => ⟨a, b, rfl⟩) (.refl _)
  disc _ h _ := h.more [_] rfl rfl rfl (fun a b => ⟨a, b, rfl⟩) (.refl _)
  write0 d h _ := by
    obtain ⟨⟨q, h1, h2, h3⟩, h4⟩ := h
    refine ⟨⟨q, h1, ?_, h3⟩, h4⟩
    show written.after (d.trace ++ _) = paid.after (d.trace ++ _) ++ q
    rw [Observer.after_snoc, Observer.after_snoc]
    simpa [written, paid] using h2
  write d bs h _ := by
    obtain ⟨⟨q, h1, h2, h3⟩, h4⟩ := h
    have k := Ring.rep_pushN h1 bs
    refine ⟨⟨_, k.1, ?_, fun a b => ?_⟩, h4⟩
    · show written.after (d.trace ++ _) = paid.after (d.trace ++ _) ++ _
      rw [Observer.after_snoc, Observer.after_snoc]
      have e : bs.take (d.wbuf.pushN bs).2 = bs.take (d.wbuf.size - q.length) := by
        rw [k.2]
        rcases Nat.le_total bs.length (d.wbuf.size - q.length) with hx | hx
        · rw [Nat.min_eq_left hx, List.take_length, List.take_of_length_le hx]
        · rw [Nat.min_eq_right hx]
      rw [e]
      show written.after d.trace ++ _ = paid.after d.trace ++ _
      rw [h2, List.append_assoc]
    · have := h3 a b
      show d.bytesToWrite ≤ _
      rw [List.length_append]; omega
  read _ _ h := h.more [_] rfl rfl rfl (fun a b => ⟨a, b, rfl⟩) (.refl _)
  rssi _ h := h.same rfl rfl (fun a b => ⟨a, b, rfl⟩) (.refl _)
  userTx _ _ _ hl h := h.more [_] rfl rfl rfl (fun a b => ⟨a, b, rfl⟩) hl
  userRx _ _ _ hl h := h.more [_] rfl rfl rfl (fun a b => ⟨a, b, rfl⟩) hl

theorem isArg_noStream {rest : List Ev} (ha : rest.all isArg = true) : rest.all noStream = true := by
  refine List.all_eq_true.mpr fun x hx => ?_
  have := List.all_eq_true.mp ha x hx
  cases x <;> first | rfl | simp [isArg] at this

theorem isArg_noStream' {rest : List Ev} (ha : rest.all isArg = true) {w g : List Byte} :
    (Ev.cmd w g :: rest).all noStream = true := by
  rw [List.all_cons, isArg_noStream ha]; rfl

theorem outInv_said {d e : Dev S R X} {w : List Byte} (h : OutInv sd d) (hs : Said d w e)
    (hsnd : e.snd = d.snd) (hl : Ser.Later d.ser e.ser) : OutInv sd e := by
  obtain ⟨⟨g, rest, ht, ha⟩, hk⟩ := hs
  exact h.more _ ht (isArg_noStream' ha) hk.wbuf
    (fun a b => ⟨hsnd ▸ a, by rw [← hk.reset]; exact b, hk.toWrite⟩) hl

/-- `resetStates()` starts a new stream. -/
theorem outInv_reset {d e : Dev S R X} (h : OutInv sd d) (ht : e.trace = d.trace ++ [.apiReset])
    (hw : e.wbuf = d.wbuf.flush) (hb : e.bytesToWrite = 0) (hl : Ser.Later d.ser e.ser) :
    OutInv sd e := by
  obtain ⟨⟨q, h1, h2, h3⟩, h4⟩ := h
  refine ⟨⟨[], by rw [hw]; exact Ring.rep_flush h1.len h1.ok, ?_, fun _ _ => by rw [hb]; simp⟩, h4.later hl⟩
  rw [ht, Observer.after_snoc, Observer.after_snoc]
  rfl

theorem outInv_turn {d e : Dev S R X} (h : OutInv sd d) (hr : d.resetPending = false)
    (ht : Turn sd rc shape Q d e) (hl : Ser.Later d.ser e.ser) : OutInv sd e := by
  cases ht with
  | quiet ht hs hk => exact h.same ht hk.wbuf (fun a => absurd a hs) hl
  | cmd w g rest ht hw ha hs hk hq =>
    exact h.more _ ht (isArg_noStream' ha) hk.wbuf (fun a => absurd a hs) hl
  | send rest ht ha hn hsh hwt hrp hs hk =>
    obtain ⟨⟨q, h1, h2, h3⟩, h4⟩ := h
    obtain ⟨k1, k2⟩ := stream_dull d.trace (.cmd sendCmd sendCmd :: rest)
      (isArg_noStream' ha)
    refine ⟨⟨q, by rw [show e.wbuf = d.wbuf from hk.wbuf]; exact h1, by rw [ht, k1, k2]; exact h2, fun _ _ => ?_⟩,
      h4.later hl⟩
    rw [hn, ← h1.av]
    exact Dev.sendAmount_le h4
  | pay h0 ht hb hs hk hp =>
    obtain ⟨⟨q, h1, h2, h3⟩, h4⟩ := h
    have k := rep_pulls h1 d.bytesToWrite (h3 h0 hr)
    refine ⟨⟨_, by rw [hb]; exact k.1, ?_, fun a => absurd a hs⟩, h4.later hl⟩
    rw [ht, Observer.after_snoc, Observer.after_snoc, k.2]
    show written.after d.trace = (paid.after d.trace ++ q.take d.bytesToWrite) ++ q.drop d.bytesToWrite
    rw [List.append_assoc, List.take_append_drop, h2]
  | data h0 hq h1 ht hb h2 hs hl' hk =>
    exact h.more _ (ht.trans (receive_true hq).1) rfl hk.wbuf (fun a => absurd a hs) hl

theorem SimDev.parseDnsReply_noReset {S R : Type} {d : SimDev S R}
    (h : d.parseDnsReply.1.resetPending = false) : d.resetPending = false := by
  revert h
  unfold SimDev.parseDnsReply
  dsimp only
  (repeat' split) <;> simp

end Verif
