import Verif.Lemmas.Served
import Verif.Spec.Served

/-! A driver that is run often enough: the bytes that wait in the receive buffer. -/

namespace Verif

open Dev Spec

variable {S R X : Type}

/-! ## Arriving bytes -/

namespace Ser

theorem held_transferTx (s : Ser) (b : Bool) : (s.transferTx b).rx = s.rx ∧ (s.transferTx b).accepted = s.accepted := by
  unfold transferTx
  dsimp only
  (repeat' split) <;> exact ⟨rfl, rfl⟩

/-- Bytes for which there is room are all accepted. -/
theorem held_transfers {s : Ser} (hv : RxOk s) (hs : List Hw) (hr : s.held + (arriving hs).length ≤ s.rx.ring.size) :
    (s.transfers hs).held = s.held + (arriving hs).length ∧
    (s.transfers hs).accepted = s.accepted ++ arriving hs := by
  obtain ⟨rq, hv⟩ := hv
  have key : ∀ (hs : List Hw) (s : Ser) (q : List Byte), LineBuf.Rep s.rx q → q.length + (arriving hs).length ≤ s.rx.ring.size →
      LineBuf.Rep (s.transfers hs).rx (q ++ arriving hs) ∧ (s.transfers hs).accepted = s.accepted ++ arriving hs := by
    intro hs
    induction hs with
    | nil => intro s q h _; exact ⟨by simpa [arriving, transfers] using h, by simp [arriving, transfers]⟩
    | cons x xs ih =>
      intro s q h hr
      obtain ⟨h1, h2⟩ := held_transferTx (s.transferRx x.rx) x.txOk
      have e : s.transfers (x :: xs) = ((s.transferRx x.rx).transferTx x.txOk).transfers xs := rfl
      rw [e]
      cases hx : x.rx with
      | none =>
        have ea : arriving (x :: xs) = arriving xs := by simp [arriving, hx]
        rw [hx] at h1 h2
        rw [ea] at hr ⊢
        have h1' : ((s.transferRx none).transferTx x.txOk).rx = s.rx := h1
        have h2' : ((s.transferRx none).transferTx x.txOk).accepted = s.accepted := h2
        obtain ⟨h3, h4⟩ := ih ((s.transferRx none).transferTx x.txOk) q (by rw [h1']; exact h) (by rw [h1']; exact hr)
        exact ⟨h3, by rw [h4, h2']⟩
      | some c =>
        have ea : arriving (x :: xs) = c :: arriving xs := by simp [arriving, hx]
        rw [hx] at h1 h2
        rw [ea] at hr ⊢
        simp only [List.length_cons] at hr
        have hfull : s.rx.ring.isFull = false := by
          rw [Bool.eq_false_iff]
          intro hf
          have e : s.rx.ring.avail = s.rx.ring.size := by simpa [Ring.isFull] using hf
          have := h.ring.av
          omega
        have hrx : s.transferRx (some c) = { s with arrived := s.arrived ++ [c], rx := s.rx.push c, accepted := s.accepted ++ [c] } := by
          unfold transferRx
          simp [hfull]
        rw [hrx] at h1 h2 ⊢
        have h5 := LineBuf.rep_push h c (by omega)
        have hz : (s.rx.push c).ring.size = s.rx.ring.size := by simp [LineBuf.push]
        obtain ⟨h3, h4⟩ := ih _ (q ++ [c]) (by rw [h1]; exact h5) (by rw [h1]; simp only [hz]; simp; omega)
        refine ⟨by simpa using h3, ?_⟩
        rw [h4, h2]
        simp
  have e : s.held = rq.length := hv.rx.ring.av
  obtain ⟨h1, h2⟩ := key hs s rq hv.rx (by omega)
  refine ⟨?_, h2⟩
  have : (s.transfers hs).held = (rq ++ arriving hs).length := h1.ring.av
  rw [this, e]; simp

end Ser

/-! ## Waiting bytes -/

/-- What waits when `c` bytes have arrived since the last call of `run()`. -/
def Backlog (k c : Nat) (d : Dev S R X) : Prop :=
  d.ser.held ≤ c ∨ (d.lineRead = true ∧ d.load ≤ k + c) ∨
    (d.lineRead = false ∧ d.lbFill = 0 ∧ d.ser.held < d.bytesToRead + c)

theorem Backlog.same {k c : Nat} {d e : Dev S R X} (h : Backlog k c d) (h1 : e.ser.held = d.ser.held) (h2 : e.lbFill = d.lbFill)
    (h3 : e.lineRead = d.lineRead) (h4 : e.bytesToRead = d.bytesToRead) : Backlog k c e := by
  unfold Backlog Dev.load at *
  rw [h1, h2, h3, h4]; exact h

/-- While payload is expected nothing else is. -/
structure Primed (w : List Byte) (hdr : List Byte → Option Nat) (rq ok : R) (d : Dev S R X) : Prop where
  idle : d.bytesToRead ≠ 0 → d.wait = none ∧ d.rep = ok ∧ d.resetPending = false
  ask : d.rep = rq → d.wait = none
  full : Filled w hdr d.trace → d.lineRead = false → d.bytesToRead ≠ 0

/-- After the line buffer was filled. -/
theorem backlog_fill {k c : Nat} {d : Dev S R X} (hw : Backlog k c d) (hc : c ≤ k) (hq : RxQuiet d.ser) (hv : Ser.RxOk d.ser) (hl : LineOk d)
    (stop : Mem → Nat → Byte → Option R) (hstop : ∀ m c, stop m lineMax c ≠ none) (hr : d.lineRead = true)
    (hlong : ∀ l, (d.fillLine stop).1.trace = d.trace ++ [.line l] → k ≤ l.length) :
    ((d.fillLine stop).2 = false ∧ (d.fillLine stop).1.ser.held = 0) ∨
    ((d.fillLine stop).2 = true ∧ (d.fillLine stop).1.lbFill = 0 ∧ (d.fillLine stop).1.ser.held ≤ k) := by
  rcases fillLine_eased hq hv hl stop hstop hr with ⟨h1, h2, _⟩ | ⟨l, h1, h2, h3, h4, h5⟩
  · exact .inl ⟨h1, h2⟩
  · refine .inr ⟨h1, h2, ?_⟩
    have := hlong l h3
    unfold Backlog at hw
    rw [hr] at hw
    unfold Dev.load at *
    rcases hw with h | ⟨_, h⟩ | ⟨h, _⟩
    · omega
    · omega
    · simp at h

/-- Before the state machine acts. -/
def Pends (k : Nat) (e : Dev S R X) : Prop :=
  e.ser.held = 0 ∨ (e.lineRead = true ∧ e.load ≤ k) ∨ (e.lineRead = false ∧ e.lbFill = 0 ∧ e.ser.held < e.bytesToRead + k)

theorem Pends.same {k : Nat} {d e : Dev S R X} (h : Pends k d) (h1 : e.ser.held = d.ser.held) (h2 : e.lbFill = d.lbFill)
    (h3 : e.lineRead = d.lineRead) (h4 : e.bytesToRead = d.bytesToRead) : Pends k e := by
  unfold Pends Dev.load at *
  rw [h1, h2, h3, h4]; exact h

/-- No line was being read. -/
theorem Backlog.off {k c : Nat} {d : Dev S R X} (hw : Backlog k c d) (hc : c ≤ k) (hl : d.lineRead = false) (hb : d.bytesToRead ≠ 0)
    (hf : d.lbFill = 0) : Pends k d := by
  unfold Backlog at hw
  rw [hl] at hw
  refine .inr (.inr ⟨hl, hf, ?_⟩)
  rcases hw with h | ⟨h, _⟩ | ⟨_, _, h⟩
  · omega
  · simp at h
  · omega

theorem Pends.of_line {k : Nat} {e : Dev S R X} (hf : e.lbFill = 0) (hh : e.ser.held ≤ k) (hb : e.lineRead = false → e.bytesToRead ≠ 0) : Pends k e := by
  cases hl : e.lineRead with
  | true => exact .inr (.inl ⟨hl, by unfold Dev.load; omega⟩)
  | false =>
    have := hb hl
    exact .inr (.inr ⟨hl, hf, by omega⟩)

/-- Payload is thrown away. -/
theorem Pends.drop {k : Nat} {d : Dev S R X} (h : Pends k d) (hq : RxQuiet d.ser) (hv : Ser.RxOk d.ser) :
    Pends k d.flushReadBuffer := by
  obtain ⟨h1, h2, h3⟩ := hq.held_flushLoop hv d.bytesToRead
  have e1 : d.flushReadBuffer.ser.held = (flushLoop d.ser d.bytesToRead).1.held := rfl
  have e2 : d.flushReadBuffer.lbFill = d.lbFill := rfl
  have e3 : d.flushReadBuffer.bytesToRead = (flushLoop d.ser d.bytesToRead).2.1 := rfl
  have e4 : d.flushReadBuffer.lineRead = if (flushLoop d.ser d.bytesToRead).2.1 = 0 then true else d.lineRead := rfl
  rcases h3 with h3 | h3
  · have e5 : d.flushReadBuffer.lineRead = true := by rw [e4, if_pos h3]
    rcases h with h | ⟨_, h⟩ | ⟨_, hf, h⟩
    · exact .inl (by omega)
    · refine .inr (.inl ⟨e5, ?_⟩)
      unfold Dev.load at *
      omega
    · refine .inr (.inl ⟨e5, ?_⟩)
      unfold Dev.load at *
      omega
  · exact .inl (by omega)

/-- Nothing is read or less than was there. -/
theorem Pends.on {k : Nat} {d e : Dev S R X} (h : Pends k d) (he : Eased d e) (hl : d.lineRead = true) (hk : e.lineRead = true) :
    Backlog k 0 e := by
  rcases h with h | ⟨_, h⟩ | ⟨h, _⟩
  · exact .inl (by have := he.held; omega)
  · rcases he.load with h1 | h1
    · exact .inl (by omega)
    · exact .inr (.inl ⟨hk, by omega⟩)
  · rw [hl] at h; simp at h

/-- Payload is taken when it is complete. -/
theorem Pends.take {k : Nat} {d e : Dev S R X} (h : Pends k d) (hq : RxQuiet d.ser) (hv : Ser.RxOk d.ser) (hl : d.lineRead = false)
    (hs : e.ser = d.receive.1.ser) (hf : e.lbFill = d.lbFill)
    (ht : d.receive.2 = true → e.lineRead = true) (hn : d.receive.2 = false → e.lineRead = false ∧ e.bytesToRead = d.bytesToRead) :
    Backlog k 0 e := by
  rcases receive_eased hq hv with ⟨h1, h2⟩ | ⟨h1, h2, h3⟩
  · rcases h with h | ⟨h, _⟩ | ⟨_, h3, h4⟩
    · exact .inl (by rw [hs]; omega)
    · rw [hl] at h; simp at h
    · refine .inr (.inl ⟨ht h1, ?_⟩)
      unfold Dev.load
      rw [hs, hf]
      omega
  · obtain ⟨h4, h5⟩ := hn h1
    rcases h with h | ⟨h, _⟩ | ⟨_, h6, _⟩
    · exact .inl (by rw [hs]; omega)
    · rw [hl] at h; simp at h
    · exact .inr (.inr ⟨h4, by rw [hf]; exact h6, by rw [hs, h5]; omega⟩)

/-! ## Histories -/

theorem snoc_induction {α : Type} {P : List α → Prop} (h0 : P []) (h1 : ∀ l a, P l → P (l ++ [a])) (l : List α) : P l := by
  rw [← List.reverse_reverse l]
  induction l.reverse with
  | nil => exact h0
  | cons a l ih => rw [List.reverse_cons]; exact h1 _ _ ih

/-- Calls of the application that may happen at any time. -/
def isUse : Op → Bool
  | .irq _ | .run _ | .closePort | .serialLock => false
  | _ => true

theorem sinceRun_snoc (pre : List Op) (op : Op) :
    sinceRun (pre ++ [op]) = match op with
      | .run _ => 0
      | .irq hs => sinceRun pre + (arriving hs).length
      | _ => sinceRun pre := by
  unfold sinceRun
  rw [List.foldl_append]
  cases op <;> rfl

/-- What a driver has to fulfil. `T`: what is assumed of the events on the serial line; `m`: places that payload
which is due leaves free; `A`: the calls that are made. -/
structure Serving (step : Dev S R X → Op → Dev S R X) (A : Op → Prop) (I : Dev S R X → Prop) (T : List Ev → Prop) (k m size : Nat) :
    Prop where
  inv : ∀ d op, A op → op ≠ .closePort → op ≠ .serialLock → op ≠ .run false → I d → I (step d op)
  hist : ∀ d op, I d → T (step d op).trace → T d.trace
  irq : ∀ d hs, step d (.irq hs) = { d with ser := d.ser.transfers hs }
  use : ∀ d op, isUse op = true → I d → (step d op).ser.held = 0 ∨
    ((step d op).ser.held = d.ser.held ∧ (step d op).lbFill = d.lbFill ∧ (step d op).lineRead = d.lineRead ∧
      (step d op).bytesToRead = d.bytesToRead)
  run : ∀ d c, I d → c ≤ k → 20 ≤ d.ser.txFree → T (step d (.run true)).trace → Backlog k c d → Backlog k 0 (step d (.run true))
  rx : ∀ d, I d → Ser.RxOk d.ser
  cells : ∀ d, I d → d.ser.rx.ring.size = size
  room : ∀ d, I d → T d.trace → d.bytesToRead ≤ size - m

variable {step : Dev S R X → Op → Dev S R X} {A : Op → Prop} {I : Dev S R X → Prop} {T : List Ev → Prop} {k m size : Nat}

theorem Serving.invs (h : Serving step A I T k m size) {d : Dev S R X} (hd : I d) {ops : List Op} (ha : ∀ op ∈ ops, A op) (hs : Steady ops) : I (ops.foldl step d) := by
  induction ops generalizing d with
  | nil => exact hd
  | cons op ops ih =>
    obtain ⟨h1, h2, h3⟩ := hs op (by simp)
    exact ih (h.inv d op (ha op (by simp)) h1 h2 h3 hd) (fun o ho => ha o (by simp [ho])) fun o ho => hs o (by simp [ho])

theorem Serving.hists (h : Serving step A I T k m size) {d : Dev S R X} (hd : I d) {ops : List Op} (ha : ∀ op ∈ ops, A op) (hs : Steady ops)
    (ht : T (ops.foldl step d).trace) : T d.trace := by
  induction ops generalizing d with
  | nil => exact ht
  | cons op ops ih =>
    obtain ⟨h1, h2, h3⟩ := hs op (by simp)
    exact h.hist d op hd (ih (h.inv d op (ha op (by simp)) h1 h2 h3 hd) (fun o ho => ha o (by simp [ho])) (fun o ho => hs o (by simp [ho])) ht)

theorem Serving.fits (h : Serving step A I T k m size) {d : Dev S R X} (hd : I d) (ht : T d.trace) {c j : Nat} (hc : c + j ≤ k)
    (h2 : 2 * k ≤ size) (hm : k ≤ m + 1) (hw : Backlog k c d) : d.ser.held + j ≤ d.ser.rx.ring.size := by
  rw [h.cells d hd]
  have := h.room d hd ht
  unfold Backlog Dev.load at hw
  omega

theorem Serving.backlog (h : Serving step A I T k m size) (h2 : 2 * k ≤ size) (hm : k ≤ m + 1) {d : Dev S R X} (hd : I d)
    (h0 : d.ser.held = 0) {ops : List Op} (ha : ∀ op ∈ ops, A op) (hs : Steady ops) (hp : Polled k ops) (hx : Spacious step (·.ser.txFree) 20 d ops)
    (ht : T (ops.foldl step d).trace) (pre post : List Op) (he : ops = pre ++ post) :
    Backlog k (sinceRun pre) (pre.foldl step d) := by
  induction pre using snoc_induction generalizing post with
  | h0 => exact .inl (by show d.ser.held ≤ _; omega)
  | h1 pre op ih =>
    have hw := ih (op :: post) (by rw [he]; simp)
    have hsub : ∀ o ∈ pre, o ∈ ops := fun o ho => by rw [he]; simp [ho]
    have hop : op ∈ ops := by rw [he]; simp
    have hsp : Steady pre := fun o ho => hs o (hsub o ho)
    have hap : ∀ o ∈ pre, A o := fun o ho => ha o (hsub o ho)
    have hI := h.invs hd hap hsp
    have htp : T (pre.foldl step d).trace := by
      have hin : ∀ o ∈ op :: post, o ∈ ops := by
        intro o ho
        rw [he]; simp only [List.mem_append, List.mem_cons, List.not_mem_nil] at ho ⊢
        rcases ho with ho | ho
        · exact .inl (.inr (.inl ho))
        · exact .inr ho
      refine h.hists (ops := op :: post) hI (fun o ho => ha o (hin o ho)) (fun o ho => hs o (hin o ho)) ?_
      · have e : ops.foldl step d = (op :: post).foldl step (pre.foldl step d) := by rw [he]; simp
        rw [← e]; exact ht
    have htn : T (step (pre.foldl step d) op).trace := by
      refine h.hists (ops := post) (h.inv _ op (ha op hop) (hs op hop).1 (hs op hop).2.1 (hs op hop).2.2 hI)
        (fun o ho => ha o (by rw [he]; simp [ho])) (fun o ho => hs o (by rw [he]; simp [ho])) ?_
      · have e : ops.foldl step d = post.foldl step (step (pre.foldl step d) op) := by rw [he]; simp
        rw [← e]; exact ht
    have hc : sinceRun pre ≤ k := hp pre ⟨op :: post, by rw [he]; simp⟩
    have hc1 : sinceRun (pre ++ [op]) ≤ k := hp (pre ++ [op]) ⟨post, he.symm⟩
    rw [List.foldl_append]
    show Backlog k _ (step (pre.foldl step d) op)
    rw [sinceRun_snoc] at hc1 ⊢
    have hu : isUse op = true → Backlog k (sinceRun pre) (step (pre.foldl step d) op) := by
      intro hx
      rcases h.use (pre.foldl step d) op hx hI with h3 | ⟨h3, h4, h5, h6⟩
      · exact .inl (by rw [h3]; exact Nat.zero_le _)
      · exact hw.same h3 h4 h5 h6
    cases op
    case run ok =>
      have : ok = true := by
        cases ok
        · exact absurd rfl (hs _ hop).2.2
        · rfl
      subst this
      exact h.run _ _ hI hc (hx pre post true (by rw [he]; simp)) htn hw
    case irq hs' =>
      dsimp only at hc1 ⊢
      have hfit := h.fits hI htp hc1 h2 hm hw
      obtain ⟨h3, _⟩ := Ser.held_transfers (h.rx _ hI) hs' hfit
      rw [h.irq]
      unfold Backlog Dev.load at hw ⊢
      dsimp only
      rw [h3]
      rcases hw with hw | ⟨hw1, hw⟩ | ⟨hw1, hw2, hw⟩
      · exact .inl (by omega)
      · exact .inr (.inl ⟨hw1, by omega⟩)
      · exact .inr (.inr ⟨hw1, hw2, by omega⟩)
    case closePort => exact absurd rfl (hs _ hop).1
    case serialLock => exact absurd rfl (hs _ hop).2.1
    all_goals exact hu rfl

theorem Serving.lossless (h : Serving step A I T k m size) (h2 : 2 * k ≤ size) (hm : k ≤ m + 1) {d : Dev S R X} (hd : I d)
    (h0 : d.ser.held = 0) {ops : List Op} (ha : ∀ op ∈ ops, A op) (hs : Steady ops) (hp : Polled k ops) (hx : Spacious step (·.ser.txFree) 20 d ops)
    (ht : T (ops.foldl step d).trace) : Lossless step (·.ser.accepted) d ops := by
  intro pre hw post he
  have hW := h.backlog h2 hm hd h0 ha hs hp hx ht pre (.irq hw :: post) he
  have hsp : Steady pre := fun o ho => hs o (by rw [he]; simp [ho])
  have hap : ∀ o ∈ pre, A o := fun o ho => ha o (by rw [he]; simp [ho])
  have hI := h.invs hd hap hsp
  have htp : T (pre.foldl step d).trace := by
    refine h.hists (ops := .irq hw :: post) hI (fun o ho => ha o (by rw [he]; exact List.mem_append_right _ ho)) (fun o ho => hs o (by rw [he]; exact List.mem_append_right _ ho)) ?_
    have e : ops.foldl step d = (Op.irq hw :: post).foldl step (pre.foldl step d) := by rw [he]; simp
    rw [← e]; exact ht
  have hc1 : sinceRun (pre ++ [.irq hw]) ≤ k := hp (pre ++ [.irq hw]) ⟨post, by rw [he]; simp⟩
  rw [sinceRun_snoc] at hc1
  have hfit := h.fits hI htp hc1 h2 hm hW
  show (step (pre.foldl step d) (.irq hw)).ser.accepted = _
  rw [h.irq]
  exact (Ser.held_transfers (h.rx _ hI) hw hfit).2

end Verif
