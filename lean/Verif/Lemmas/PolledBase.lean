import Verif.Lemmas.Polled
import Verif.Lemmas.Receiving
import Verif.Lemmas.Stages
import Verif.Lemmas.Whole

/-! A driver that is run often enough: what is common to all drivers. -/

namespace Verif

open Dev Spec

variable {S R X : Type} {w : List Byte} {hdr : List Byte → Option Nat} {rq ok : R}

theorem filled_append {t new : List Ev} (h : Filled w hdr (t ++ new)) : Filled w hdr t := by
  intro pre e post he
  exact h pre e (post ++ new) (by rw [he]; simp)

theorem Primed.note {d e : Dev S R X} (h : Primed w hdr rq ok d) (new : List Ev) (ht : e.trace = d.trace ++ new)
    (hb : e.bytesToRead = d.bytesToRead) (hw : e.wait = d.wait) (hr : e.rep = d.rep) (hp : e.resetPending = d.resetPending)
    (hl : e.lineRead = d.lineRead) : Primed w hdr rq ok e := by
  refine ⟨by rw [hb, hw, hr, hp]; exact h.idle, by rw [hw, hr]; exact h.ask, fun hf => ?_⟩
  rw [hl, hb]
  exact h.full (filled_append (by rw [← ht]; exact hf))

theorem Primed.zero {d : Dev S R X} (hb : d.bytesToRead = 0) (hr : d.rep ≠ rq) (hl : d.lineRead = true) :
    Primed w hdr rq ok d :=
  ⟨fun h => absurd hb h, fun h => absurd h hr, fun _ h => by rw [hl] at h; simp at h⟩

theorem primed_calls : Calls (Primed (S := S) (R := R) (X := X) w hdr rq ok) where
  io _ _ _ _ _ h := h.note [] (by simp) rfl rfl rfl rfl rfl
  isOpen _ _ h := h.note [] (by simp) rfl rfl rfl rfl rfl
  conn _ h _ _ := h.note _ rfl rfl rfl rfl rfl rfl
  disc0 _ h _ := h.note _ rfl rfl rfl rfl rfl rfl
  disc _ h _ := h.note _ rfl rfl rfl rfl rfl rfl
  write0 _ h _ := h.note _ rfl rfl rfl rfl rfl rfl
  write _ _ h _ := h.note _ rfl rfl rfl rfl rfl rfl
  read _ _ h := h.note _ rfl rfl rfl rfl rfl rfl
  rssi _ h := h.note [] (by simp) rfl rfl rfl rfl rfl
  userTx _ _ _ _ h := h.note _ rfl rfl rfl rfl rfl rfl
  userRx _ _ _ _ h := h.note _ rfl rfl rfl rfl rfl rfl
  host _ _ _ _ h := h.note [] (by simp) rfl rfl rfl rfl rfl

theorem Primed.drop {d : Dev S R X} (h : Primed w hdr rq ok d) : Primed w hdr rq ok d.flushReadBuffer := by
  have e4 : d.flushReadBuffer.lineRead = if (flushLoop d.ser d.bytesToRead).2.1 = 0 then true else d.lineRead := rfl
  have e3 : d.flushReadBuffer.bytesToRead = (flushLoop d.ser d.bytesToRead).2.1 := rfl
  refine ⟨fun hb => h.idle ?_, h.ask, fun _ hl hb => ?_⟩
  · intro hz
    rw [e3, hz] at hb
    exact hb rfl
  · rw [e3] at hb
    rw [e4, if_pos hb] at hl
    simp at hl

/-- After the header of a data block payload is due. -/
theorem primed_header {a b : S} {d e : Dev S R X} {l : List Byte} {n : Nat} (h : RxInv w hdr rq a b d) (he : RxInv w hdr rq a b e)
    (ht : e.trace = d.trace ++ [.line l]) (hr : d.rep = rq) (hn : hdr l = some n) (hf : Filled w hdr e.trace) :
    e.bytesToRead ≠ 0 := by
  have hq := h.req.mpr hr
  have h1 := hf d.trace (.line l) [] ht l rfl hq
  rw [← he.due, ht, Observer.after_append]
  show ((rx w hdr).step _ (.line l)).due ≠ 0
  generalize (rx w hdr).after d.trace = s at hq ⊢
  cases hx : s.req with
  | none => exact absurd hx hq
  | some args =>
    rw [hn] at h1
    have : (rx w hdr).step s (.line l) = ⟨none, n⟩ := by simp only [rx, hx, hn]
    rw [this]
    exact fun h => h1 (by rw [show n = 0 from h])

theorem receive_on {d : Dev S R X} (h : d.lineRead = true) : d.receive.1.lineRead = true := by
  unfold Dev.receive
  split
  · rfl
  · exact h

/-- What is assumed of the events on the serial line. -/
def Kept (w : List Byte) (hdr : List Byte → Option Nat) (k : Nat) (base t : List Ev) : Prop :=
  Honours w hdr t ∧ Filled w hdr t ∧ ∀ new, t = base ++ new → ∀ l, .line l ∈ new → k ≤ l.length

theorem kept_append {k : Nat} {base t new : List Ev} (h : Kept w hdr k base (t ++ new)) :
    Kept w hdr k base t := by
  obtain ⟨h1, h2, h3⟩ := h
  refine ⟨honours_append h1, filled_append h2, fun n hn l hl => ?_⟩
  exact h3 (n ++ new) (by rw [hn]; simp) l (by simp [hl])

theorem handleConnect_ne {d : Dev S R X} {n a : S} (h : d.snd ≠ a) (hn : n ≠ a) : (d.handleConnect n).snd ≠ a := by
  unfold Dev.handleConnect
  split
  · exact hn
  · exact h

theorem handleDisconnect_ne {d : Dev S R X} {n a : S} (h : d.snd ≠ a) (hn : n ≠ a) : (d.handleDisconnect n).snd ≠ a := by
  unfold Dev.handleDisconnect
  split
  · exact hn
  · exact h

/-- The port is open, belongs to the driver and never failed to open. -/
structure Fine (err : S) (d : Dev S R X) : Prop where
  isOpen : d.isOpen = true
  free : d.serialLocked = false
  snd : d.snd ≠ err

theorem Fine.same {err : S} {d e : Dev S R X} (h : Fine err d) (h1 : e.isOpen = d.isOpen) (h2 : e.serialLocked = d.serialLocked)
    (h3 : e.snd = d.snd) : Fine err e := ⟨by rw [h1]; exact h.isOpen, by rw [h2]; exact h.free, by rw [h3]; exact h.snd⟩

theorem Fine.set {err : S} {d e : Dev S R X} (h : Fine err d) (h1 : e.isOpen = d.isOpen) (h2 : e.serialLocked = d.serialLocked)
    (h3 : e.snd ≠ err) : Fine err e := ⟨by rw [h1]; exact h.isOpen, by rw [h2]; exact h.free, h3⟩

theorem held_cmd {d : Dev S R X} (hq : RxQuiet d.ser) (s : List Byte) : (d.cmd s).ser.held = d.ser.held ∧ RxQuiet (d.cmd s).ser :=
  ⟨by show Ring.bytesAvailable (d.ser.writeStr s).1.rx.ring = _; rw [hq.writeStr]; rfl, hq.later (Ser.later_writeStr _ _)⟩

theorem held_arg {d : Dev S R X} (hq : RxQuiet d.ser) (s : List Byte) : (d.arg s).ser.held = d.ser.held ∧ RxQuiet (d.arg s).ser :=
  held_cmd hq s

theorem held_cmdN {d : Dev S R X} (hq : RxQuiet d.ser) (s : List Byte) : (d.cmdN s).ser.held = d.ser.held ∧ RxQuiet (d.cmdN s).ser :=
  ⟨by show Ring.bytesAvailable (d.ser.write s).1.rx.ring = _; rw [hq.write]; rfl, hq.later (Ser.later_write _ _)⟩

theorem quiet_flushSer {d : Dev S R X} (hq : RxQuiet d.ser) : RxQuiet d.flushSer.ser := hq.later (Ser.later_flush d.ser)

theorem flushReadBuffer_txFree (d : Dev S R X) : d.ser.txFree ≤ d.flushReadBuffer.ser.txFree := flushLoop_txFree d.ser d.bytesToRead

theorem flushSer_txFree (d : Dev S R X) : d.ser.txFree ≤ d.flushSer.ser.txFree := Ser.txFree_sync d.ser

/-- Calls of the application leave what waits alone. -/
theorem common_use (d : Dev S R X) (op : Op) (hu : isUse op = true) (hk : d.serialLocked = false) :
    (d.common op).ser = d.ser ∧ (d.common op).lbFill = d.lbFill ∧ (d.common op).lineRead = d.lineRead ∧
      (d.common op).bytesToRead = d.bytesToRead := by
  cases op
  case disconnect =>
    simp only [Dev.common]
    unfold Dev.disconnect
    split <;> exact ⟨rfl, rfl, rfl, rfl⟩
  case write bs =>
    simp only [Dev.common]
    unfold Dev.write
    dsimp only
    (repeat' split) <;> exact ⟨rfl, rfl, rfl, rfl⟩
  case serialWrite s => simp only [Dev.common]; unfold Dev.serialWrite; rw [hk]; exact ⟨rfl, rfl, rfl, rfl⟩
  case serialRead s => simp only [Dev.common]; unfold Dev.serialRead; rw [hk]; exact ⟨rfl, rfl, rfl, rfl⟩
  case irq => simp [isUse] at hu
  all_goals exact ⟨rfl, rfl, rfl, rfl⟩

theorem logConnect_use (r : Dev S R X × Bool) : (Dev.logConnect r).ser = r.1.ser ∧ (Dev.logConnect r).lbFill = r.1.lbFill ∧
    (Dev.logConnect r).lineRead = r.1.lineRead ∧ (Dev.logConnect r).bytesToRead = r.1.bytesToRead := by
  unfold Dev.logConnect
  split <;> exact ⟨rfl, rfl, rfl, rfl⟩

theorem api_grows {d e : Dev S R X} (a : Api d e) : ∃ new, e.trace = d.trace ++ new := by
  cases a with
  | quiet h1 h2 h3 h4 h5 =>
    rcases h5 with h5 | ⟨x, _, h5⟩
    · exact ⟨[], by rw [h5]; simp⟩
    · exact ⟨_, h5⟩
  | userRx bs h1 h3 h4 h5 => exact ⟨_, h5⟩
  | reset h1 h3 h4 h5 => exact ⟨_, h5⟩

end Verif
