import Verif.Lemmas.Payload
import Verif.Lemmas.Decimal
import Verif.Spec.Receiving

/-! Invariant: what the driver expects is what the observer of the received data expects. -/

namespace Verif

open Dev Spec

/-! ### Numbers -/

theorem digits_eq (l : List Byte) : digits l = decVal l := rfl

theorem decVal_append (a b : List Byte) : decVal (a ++ b) = decVal a * 10 ^ b.length + decVal b := by
  rw [decVal, List.foldl_append, foldl_dec]; rfl

/-- A part of the digits is a smaller number. -/
theorem decVal_take (l : List Byte) (n : Nat) : decVal (l.take n) ≤ decVal l := by
  conv => rhs; rw [← List.take_append_drop n l]
  rw [decVal_append]
  have : 1 ≤ 10 ^ (l.drop n).length := Nat.one_le_pow _ _ (by omega)
  have := Nat.mul_le_mul_left (decVal (l.take n)) this
  omega

theorem decVal_dec_le (n : Nat) : decVal (dec n) ≤ n := by
  have h : dec n = dec (n % 4294967296) := by unfold dec; rw [Nat.mod_mod]
  rw [h, dec_val (by omega)]
  exact Nat.mod_le _ _

theorem requestAmount_le (free reserve announced space maxRx : Nat) :
    SimDev.requestAmount free reserve announced space maxRx ≤ space ∧
    SimDev.requestAmount free reserve announced space maxRx ≤ announced ∧
    SimDev.requestAmount free reserve announced space maxRx ≤ maxRx := by
  unfold SimDev.requestAmount
  dsimp only
  (repeat' split) <;> omega

theorem dropWhile_zero (p : Byte → Bool) (hp : p 0 = false) (a b : List Byte) :
    (a ++ 0 :: b).dropWhile p = a.dropWhile p ++ 0 :: b := by
  induction a with
  | nil => simp [hp]
  | cons c a ih =>
    simp only [List.cons_append, List.dropWhile_cons]
    split
    · exact ih
    · rfl

theorem digitsVal_zero (acc : Nat) (a b : List Byte) : digitsVal acc (a ++ 0 :: b) = digitsVal acc a := by
  induction a generalizing acc with
  | nil => simp [digitsVal, isDigit]
  | cons c a ih =>
    simp only [List.cons_append, digitsVal]
    split
    · exact ih _
    · rfl

/-- `strtol` does not look behind the end of the string. -/
theorem strtol_zero (b : Bool) (l m : List Byte) : strtol b (l ++ 0 :: m) = strtol b l := by
  unfold strtol
  dsimp only
  rw [dropWhile_zero _ (by decide)]
  cases h : l.dropWhile isSpace with
  | nil => rfl
  | cons c r =>
    rw [List.cons_append]
    congr 1
    have e := digitsVal_zero 0 (c :: r) m
    rw [List.cons_append] at e
    by_cases h1 : c = 45
    · subst h1; simp only [digitsVal_zero]
    · by_cases h2 : c = 43
      · subst h2; simp only [digitsVal_zero]
      · split
        · rename_i heq; injection heq with x _; exact absurd x h1
        · rename_i heq; injection heq with x _; exact absurd x h2
        · split
          · rename_i heq; injection heq with x _; exact absurd x h1
          · rename_i heq; injection heq with x _; exact absurd x h2
          · rw [e]

variable {S R X : Type}

theorem Dev.LineDone.cells {d : Dev S R X} {l : List Byte} (h : LineDone d l) :
    ∃ m, d.line.cells = l ++ 0 :: m := by
  have hlt : l.length < d.line.cells.length := (List.getElem?_eq_some_iff.mp h.zero).1
  refine ⟨d.line.cells.drop (l.length + 1), ?_⟩
  conv => lhs; rw [← List.take_append_drop l.length d.line.cells]
  rw [h.text, List.drop_eq_getElem_cons hlt]
  have := h.zero
  rw [List.getElem?_eq_getElem hlt] at this
  injection this with this
  rw [this]

/-- The number in the line buffer is the number in the line. -/
theorem Dev.LineDone.number {d : Dev S R X} {l : List Byte} (h : LineDone d l) (b : Bool) {k : Nat}
    (hk : k ≤ l.length) : strtol b (d.line.drop k) = strtol b (l.drop k) := by
  obtain ⟨m, e⟩ := h.cells
  unfold Mem.drop
  rw [e, List.drop_append_of_le_length hk, strtol_zero]

theorem Dev.LineDone.has_iff {d : Dev S R X} {l lit : List Byte} (h : LineDone d l)
    (h0 : (0 : Byte) ∉ lit) : d.has lit = lit.isPrefixOf l := by
  rw [Bool.eq_iff_iff, List.isPrefixOf_iff_prefix]
  refine ⟨fun x => h.has h0 x, fun x => ?_⟩
  unfold Dev.has
  rw [hasPrefix_iff _ _ h0]
  obtain ⟨m, e⟩ := h.cells
  rw [e]
  exact x.trans (List.prefix_append _ _)

/-! ### While payload is expected -/

/-- While payload is expected, line reading is off and the send state is one of two. -/
def Held (a b : S) (d : Dev S R X) : Prop :=
  d.bytesToRead ≠ 0 → d.lineRead = false ∧ (d.snd = a ∨ d.snd = b)

theorem Busy.held {a b : S} {d : Dev S R X} (h : Busy a b d) : Held a b d :=
  fun hb => ⟨(h hb).1, (h hb).2.2⟩

theorem Held.same {a b : S} {d e : Dev S R X} (h : Held a b d) (h1 : e.bytesToRead = d.bytesToRead)
    (h2 : e.lineRead = d.lineRead) (h3 : e.snd = d.snd) : Held a b e := by
  intro hb
  rw [h1] at hb
  rw [h2, h3]
  exact h hb

theorem Held.zero {a b : S} {d : Dev S R X} (h : Held a b d) (hl : d.lineRead = true) :
    d.bytesToRead = 0 :=
  Classical.byContradiction fun hb => by have := (h hb).1; rw [hl] at this; simp at this

/-! ### The invariant -/

/-- Bytes of the application's read buffer. `n`: payload bytes due; `req`: outstanding request. -/
structure Fits (d : Dev S R X) (s : Rx) : Prop where
  rep : ∃ q, Ring.Rep d.rbuf q ∧ received.after d.trace = delivered.after d.trace ++ q
  due : s.due ≤ d.rbuf.spaceAvailable
  req : ∀ g more, s.req = some (g :: more) → decVal g ≤ d.rbuf.spaceAvailable

structure RxInv (w : List Byte) (hdr : List Byte → Option Nat) (rq : R) (a b : S)
    (d : Dev S R X) : Prop where
  held : Held a b d
  frame : Framed w hdr d.trace
  due : ((rx w hdr).after d.trace).due = d.bytesToRead
  req : ((rx w hdr).after d.trace).req ≠ none ↔ d.rep = rq
  fits : Honours w hdr d.trace → Fits d ((rx w hdr).after d.trace)

variable {w : List Byte} {hdr : List Byte → Option Nat} {rq : R} {a b : S}

theorem honours_init {t : List Ev} {e : Ev} (h : Honours w hdr (t ++ [e])) : Honours w hdr t :=
  (always_snoc.mp h).1

theorem honours_append {t new : List Ev} (h : Honours w hdr (t ++ new)) : Honours w hdr t := by
  intro pre e post he
  exact h pre e (post ++ new) (by rw [he]; simp)

/-- Events the observers do not look at. -/
def dumb : Ev → Bool
  | .pay _ | .apiConnect | .apiDisconnect | .apiWrite _ | .userTx _ | .userRx _ => true
  | _ => false

theorem framed_snoc {t : List Ev} {e : Ev} (h : Framed w hdr t)
    (h1 : ∀ l, e = .line l → ((rx w hdr).after t).due = 0)
    (h2 : ∀ bs, e = .data bs → bs.length = ((rx w hdr).after t).due ∧ bs ≠ [])
    (h3 : ∀ bs, e = .drop bs → bs.length ≤ ((rx w hdr).after t).due) : Framed w hdr (t ++ [e]) :=
  always_snoc.mpr ⟨h, h1, h2, h3⟩

/-- Events that are neither lines nor payload. -/
def mute : Ev → Bool
  | .line _ | .data _ | .drop _ => false
  | _ => true

theorem framed_append {t new : List Ev} (h : Framed w hdr t) (hn : ∀ e ∈ new, mute e = true) :
    Framed w hdr (t ++ new) := by
  induction new generalizing t with
  | nil => simpa using h
  | cons e es ih =>
    rw [show t ++ e :: es = (t ++ [e]) ++ es by simp]
    have he := hn e (by simp)
    refine ih (framed_snoc h ?_ ?_ ?_) fun x hx => hn x (by simp [hx]) <;>
      (intro l hl; subst hl; simp [mute] at he)

theorem Fits.congr {d e : Dev S R X} {s t : Rx} (h : Fits d s) (hb : e.rbuf = d.rbuf)
    (h1 : received.after e.trace = received.after d.trace)
    (h2 : delivered.after e.trace = delivered.after d.trace) (h3 : t.due = s.due)
    (h4 : ∀ g more, t.req = some (g :: more) → decVal g ≤ d.rbuf.spaceAvailable) : Fits e t := by
  refine ⟨?_, by rw [hb, h3]; exact h.due, by rw [hb]; exact h4⟩
  rw [h1, h2, hb]; exact h.rep

/-- Events without bytes for the application. -/
def plain : Ev → Bool
  | .data _ | .apiRead _ | .apiReset => false
  | _ => true

theorem recv_plain (t new : List Ev) (h : ∀ e ∈ new, plain e = true) :
    received.after (t ++ new) = received.after t ∧ delivered.after (t ++ new) = delivered.after t := by
  constructor
  · refine Observer.after_neutral _ _ _ fun e he s => ?_
    have := h e he
    cases e <;> first | rfl | simp [plain] at this
  · refine Observer.after_neutral _ _ _ fun e he s => ?_
    have := h e he
    cases e <;> first | rfl | simp [plain] at this

theorem RxInv.note {d e : Dev S R X} (h : RxInv w hdr rq a b d) (new : List Ev)
    (ht : e.trace = d.trace ++ new) (hn : ∀ x ∈ new, dumb x = true) (hb : e.rbuf = d.rbuf)
    (hr : e.bytesToRead = d.bytesToRead) (hp : e.rep = rq ↔ d.rep = rq) (hh : Held a b e) :
    RxInv w hdr rq a b e := by
  have hk : (rx w hdr).after e.trace = (rx w hdr).after d.trace := by
    rw [ht]
    refine Observer.after_neutral _ _ _ fun x hx s => ?_
    have := hn x hx
    cases x <;> first | rfl | simp [dumb] at this
  have hm : ∀ x ∈ new, mute x = true ∧ plain x = true := fun x hx => by
    have := hn x hx
    cases x <;> first | exact ⟨rfl, rfl⟩ | simp [dumb] at this
  obtain ⟨k1, k2⟩ := recv_plain d.trace new fun x hx => (hm x hx).2
  refine ⟨hh, ?_, ?_, ?_, fun ho => ?_⟩
  · rw [ht]; exact framed_append h.frame fun x hx => (hm x hx).1
  · rw [hk, hr]; exact h.due
  · rw [hk, hp]; exact h.req
  · rw [hk]
    have hf := h.fits (honours_append (by rw [← ht]; exact ho))
    exact hf.congr hb (by rw [ht]; exact k1) (by rw [ht]; exact k2) rfl hf.req

theorem RxInv.same {d e : Dev S R X} (h : RxInv w hdr rq a b d)
    (ht : e.trace = d.trace) (hb : e.rbuf = d.rbuf)
    (hr : e.bytesToRead = d.bytesToRead) (hp : e.rep = d.rep) (hl : e.lineRead = d.lineRead)
    (hs : e.snd = d.snd) :
    RxInv w hdr rq a b e :=
  h.note [] (by simp [ht]) (by simp) hb hr (by rw [hp]) (h.held.same hr hl hs)

theorem rx_calls : Calls (RxInv (S := S) (R := R) (X := X) w hdr rq a b) where
  io _ _ _ _ _ h := h.same rfl rfl rfl rfl rfl rfl
  isOpen _ _ h := h.same rfl rfl rfl rfl rfl rfl
  host _ _ _ _ h := h.same rfl rfl rfl rfl rfl rfl
  conn _ h _ _ := h.note [_] rfl (by simp [dumb]) rfl rfl Iff.rfl h.held
  disc0 _ h _ := h.note [_] rfl (by simp [dumb]) rfl rfl Iff.rfl h.held
  disc _ h _ := h.note [_] rfl (by simp [dumb]) rfl rfl Iff.rfl h.held
  write0 _ h _ := h.note [_] rfl (by simp [dumb]) rfl rfl Iff.rfl h.held
  write _ _ h _ := h.note [_] rfl (by simp [dumb]) rfl rfl Iff.rfl h.held
  read d n h := by
    refine ⟨h.held, framed_append h.frame (by simp [mute]), ?_, ?_, fun ho => ?_⟩
    · show ((rx w hdr).after (d.trace ++ [_])).due = _
      rw [Observer.after_snoc]; exact h.due
    · show ((rx w hdr).after (d.trace ++ [_])).req ≠ none ↔ _
      rw [Observer.after_snoc]; exact h.req
    · obtain ⟨⟨q, h1, h2⟩, h3, h4⟩ := h.fits (honours_init ho)
      obtain ⟨k1, k2⟩ := Ring.rep_pullN h1 n
      have hsp : d.rbuf.spaceAvailable ≤ (d.rbuf.pullN n).1.spaceAvailable := by
        rw [h1.spaceAvailable, k1.spaceAvailable, Ring.size_pullN, List.length_drop]; omega
      have e : (rx w hdr).after (d.trace ++ [.apiRead (d.rbuf.pullN n).2]) = (rx w hdr).after d.trace := by
        rw [Observer.after_snoc]; rfl
      refine ⟨⟨_, k1, ?_⟩, ?_, ?_⟩
      · show received.after (d.trace ++ [_]) = delivered.after (d.trace ++ [_]) ++ _
        rw [Observer.after_snoc, Observer.after_snoc]
        show received.after d.trace = (delivered.after d.trace ++ _) ++ _
        rw [h2, k2, List.append_assoc, List.take_append_drop]
      · show ((rx w hdr).after (d.trace ++ [.apiRead (d.rbuf.pullN n).2])).due ≤ _
        rw [e]; exact Nat.le_trans h3 hsp
      · intro g more hg
        exact Nat.le_trans (h4 g more (by rw [← e]; exact hg)) hsp
  rssi _ h := h.same rfl rfl rfl rfl rfl rfl
  userTx _ _ _ _ h := h.note [_] rfl (by simp [dumb]) rfl rfl Iff.rfl h.held
  userRx _ _ _ _ h := h.note [_] rfl (by simp [dumb]) rfl rfl Iff.rfl h.held

theorem rx_args (rest : List Ev) (ha : rest.all isArg = true) (s : Rx) :
    rest.foldl (rx w hdr).step s = { s with req := s.req.map (· ++ gots rest) } := by
  induction rest generalizing s with
  | nil => cases s with | mk r n => cases r <;> simp [gots]
  | cons e es ih =>
    simp only [List.all_cons, Bool.and_eq_true] at ha
    cases e <;> first | (simp [isArg] at ha; done) | skip
    rw [List.foldl_cons, ih ha.2]
    cases s with | mk r n => cases r <;> simp [rx, gots]

theorem rx_cmd (t : List Ev) {v g : List Byte} {rest : List Ev} (ha : rest.all isArg = true) :
    (rx w hdr).after (t ++ .cmd v g :: rest) =
      ⟨if v = w then some (gots rest) else none, ((rx w hdr).after t).due⟩ := by
  rw [Observer.after_append, List.foldl_cons, rx_args _ ha]
  by_cases hv : v = w <;> simp [rx, hv]

theorem isArg_mute {rest : List Ev} (ha : rest.all isArg = true) {x : Ev} (hx : x ∈ rest) :
    mute x = true ∧ plain x = true := by
  have := List.all_eq_true.mp ha x hx
  cases x <;> first | exact ⟨rfl, rfl⟩ | simp [isArg] at this

theorem isArg_mute' {rest : List Ev} (ha : rest.all isArg = true) {v g : List Byte} :
    ∀ x ∈ Ev.cmd v g :: rest, mute x = true ∧ plain x = true := by
  intro x hx
  rcases List.mem_cons.mp hx with rfl | hx
  · exact ⟨rfl, rfl⟩
  · exact isArg_mute ha hx

/-- A command other than the data request. -/
theorem rx_other {d e : Dev S R X} {v g : List Byte} {rest : List Ev} (h : RxInv w hdr rq a b d)
    (hv : v ≠ w) (ht : e.trace = d.trace ++ .cmd v g :: rest) (ha : rest.all isArg = true)
    (hb : e.rbuf = d.rbuf) (hr : e.bytesToRead = d.bytesToRead) (hp : e.rep ≠ rq) (hh : Held a b e) :
    RxInv w hdr rq a b e := by
  have hk := rx_cmd (w := w) (hdr := hdr) d.trace (v := v) (g := g) ha
  rw [if_neg hv] at hk
  obtain ⟨k1, k2⟩ := recv_plain d.trace _ fun x hx => (isArg_mute' ha (v := v) (g := g) x hx).2
  refine ⟨hh, ?_, ?_, ?_, fun ho => ?_⟩
  · rw [ht]; exact framed_append h.frame fun x hx => (isArg_mute' ha x hx).1
  · rw [ht, hk, hr]; exact h.due
  · rw [ht, hk]; simpa using hp
  · have hf := h.fits (honours_append (by rw [← ht]; exact ho))
    exact hf.congr hb (by rw [ht]; exact k1) (by rw [ht]; exact k2) (by rw [ht, hk]) (by rw [ht, hk]; simp)

theorem rx_said {d e : Dev S R X} {v : List Byte} (h : RxInv w hdr rq a b d) (hs : Said d v e)
    (hv : v ≠ w) (hp : e.rep ≠ rq) (hl : e.lineRead = d.lineRead) (hsnd : e.snd = d.snd) :
    RxInv w hdr rq a b e := by
  obtain ⟨⟨g, rest, ht, ha⟩, hk⟩ := hs
  exact rx_other h hv ht ha hk.rbuf hk.toRead hp (h.held.same hk.toRead hl hsnd)

/-- The data request. -/
theorem rx_request {d e : Dev S R X} {g g3 : List Byte} {n k : Nat} (h : RxInv w hdr rq a b d)
    (ht : e.trace = d.trace ++ [.cmd w g, .arg (dec n) ((dec n).take k), .arg lineEnd g3])
    (hn : n ≤ d.rbuf.spaceAvailable) (hb : e.rbuf = d.rbuf) (hr : e.bytesToRead = d.bytesToRead)
    (hp : e.rep = rq) (hh : Held a b e) : RxInv w hdr rq a b e := by
  have ha : List.all [Ev.arg (dec n) ((dec n).take k), Ev.arg lineEnd g3] isArg = true := rfl
  have hk := rx_cmd (w := w) (hdr := hdr) d.trace (v := w) (g := g) ha
  rw [if_pos rfl] at hk
  obtain ⟨k1, k2⟩ := recv_plain d.trace _ fun x hx => (isArg_mute' ha (v := w) (g := g) x hx).2
  refine ⟨hh, ?_, ?_, ?_, fun ho => ?_⟩
  · rw [ht]; exact framed_append h.frame fun x hx => (isArg_mute' ha x hx).1
  · rw [ht, hk, hr]; exact h.due
  · rw [ht, hk]; simpa using hp
  · have hf := h.fits (honours_append (by rw [← ht]; exact ho))
    refine hf.congr hb (by rw [ht]; exact k1) (by rw [ht]; exact k2) (by rw [ht, hk]) ?_
    rw [ht, hk]
    intro g' more hg
    simp only [gots, Option.some.injEq, List.cons.injEq] at hg
    rw [← hg.1]
    exact Nat.le_trans (decVal_take _ _) (Nat.le_trans (decVal_dec_le n) hn)

/-- The receive buffers were flushed. -/
theorem rx_flush {d e : Dev S R X} (h : RxInv w hdr rq a b d) (ht : e.trace = d.trace ++ [.flush])
    (hb : e.rbuf = d.rbuf) (hr : e.bytesToRead = 0) (hp : e.rep ≠ rq) : RxInv w hdr rq a b e := by
  obtain ⟨k1, k2⟩ := recv_plain d.trace [.flush] (by simp [plain])
  have hk : (rx w hdr).after e.trace = ⟨none, 0⟩ := by rw [ht, Observer.after_snoc]; rfl
  refine ⟨fun x => absurd hr x, ?_, ?_, ?_, fun ho => ?_⟩
  · rw [ht]; exact framed_append h.frame (by simp [mute])
  · rw [hk, hr]
  · rw [hk]; simpa using hp
  · have hf := h.fits (honours_append (by rw [← ht]; exact ho))
    refine ⟨?_, by rw [hk]; exact Nat.zero_le _, by rw [hk]; simp⟩
    rw [ht, k1, k2, hb]; exact hf.rep

/-- `resetStates()` was called. -/
theorem rx_reset {d e : Dev S R X} (h : RxInv w hdr rq a b d) (ht : e.trace = d.trace ++ [.apiReset])
    (hb : e.rbuf = d.rbuf.flush) (hr : e.bytesToRead = 0) (hp : e.rep ≠ rq) :
    RxInv w hdr rq a b e := by
  have hk : (rx w hdr).after e.trace = ⟨none, 0⟩ := by rw [ht, Observer.after_snoc]; rfl
  refine ⟨fun x => absurd hr x, ?_, ?_, ?_, fun ho => ?_⟩
  · rw [ht]; exact framed_append h.frame (by simp [mute])
  · rw [hk, hr]
  · rw [hk]; simpa using hp
  · obtain ⟨⟨q, h1, h2⟩, _, _⟩ := h.fits (honours_append (by rw [← ht]; exact ho))
    refine ⟨⟨[], by rw [hb]; exact Ring.rep_flush h1.len h1.ok, ?_⟩, by rw [hk]; exact Nat.zero_le _, by rw [hk]; simp⟩
    rw [ht, Observer.after_snoc, Observer.after_snoc]; rfl

theorem flushLoop_count (s : Ser) (n : Nat) : (flushLoop s n).2.2.length + (flushLoop s n).2.1 = n := by
  induction n generalizing s with
  | zero => rfl
  | succ n ih =>
    unfold flushLoop
    dsimp only
    split
    · simp
    · have := ih s.bytesAvailable.1.read1.1
      simp only [List.length_cons]; omega

/-- Payload is thrown away. -/
theorem rx_drop {d : Dev S R X} (h : RxInv w hdr rq a b d) : RxInv w hdr rq a b d.flushReadBuffer := by
  have hc := flushLoop_count d.ser d.bytesToRead
  have ht : d.flushReadBuffer.trace = d.trace ++ [.drop (flushLoop d.ser d.bytesToRead).2.2] := rfl
  have hr : d.flushReadBuffer.bytesToRead = (flushLoop d.ser d.bytesToRead).2.1 := rfl
  obtain ⟨k1, k2⟩ := recv_plain d.trace [.drop (flushLoop d.ser d.bytesToRead).2.2] (by simp [plain])
  have hk : (rx w hdr).after d.flushReadBuffer.trace =
      ⟨((rx w hdr).after d.trace).req, (flushLoop d.ser d.bytesToRead).2.1⟩ := by
    rw [ht, Observer.after_snoc]
    show Rx.mk _ (((rx w hdr).after d.trace).due - _) = _
    rw [h.due]
    congr 1
    omega
  refine ⟨?_, ?_, ?_, ?_, fun ho => ?_⟩
  · intro hb
    rw [hr] at hb
    have h0 : d.bytesToRead ≠ 0 := by omega
    refine ⟨?_, (h.held h0).2⟩
    show (if (flushLoop d.ser d.bytesToRead).2.1 = 0 then true else d.lineRead) = false
    rw [if_neg hb, (h.held h0).1]
  · rw [ht]
    refine framed_snoc h.frame (by simp) (by simp) fun bs hbs => ?_
    injection hbs with hbs
    rw [← hbs, h.due]; omega
  · rw [hk, hr]
  · rw [hk]; exact h.req
  · have hf := h.fits (honours_append (by rw [← ht]; exact ho))
    refine ⟨?_, ?_, ?_⟩
    · rw [ht, k1, k2]; exact hf.rep
    · rw [hk]
      have := hf.due
      rw [h.due] at this
      show (flushLoop d.ser d.bytesToRead).2.1 ≤ d.rbuf.spaceAvailable
      omega
    · rw [hk]; exact hf.req

theorem rep_pushes {r : Ring Byte} {q : List Byte} (h : Ring.Rep r q) (bs : List Byte)
    (hs : q.length + bs.length ≤ r.size) : Ring.Rep (bs.foldl Ring.push r) (q ++ bs) := by
  induction bs generalizing r q with
  | nil => simpa using h
  | cons c bs ih =>
    rw [List.foldl_cons, show q ++ c :: bs = (q ++ [c]) ++ bs by simp]
    simp only [List.length_cons] at hs
    refine ih (Ring.rep_push h c (by omega)) ?_
    rw [Ring.size_push, List.length_append, List.length_singleton]
    omega

theorem readLoop_length (s : Ser) (n : Nat) : (s.readLoop n).2.length = n := by
  induction n generalizing s with
  | zero => rfl
  | succ n ih => simp [Ser.readLoop, ih]

/-- Payload is taken for the application. -/
theorem rx_data {d e : Dev S R X} (h : RxInv w hdr rq a b d) (hq : d.receive.2 = true)
    (h1 : 0 < d.bytesToRead) (ht : e.trace = d.receive.1.trace) (hb : e.rbuf = d.receive.1.rbuf)
    (h2 : e.bytesToRead = 0) (hd : d.rep ≠ rq) (hp : e.rep ≠ rq) : RxInv w hdr rq a b e := by
  obtain ⟨r1, _, _, r4, _, r6⟩ := receive_true hq
  have hlen := readLoop_length d.askAvail.ser d.bytesToRead
  rw [r1] at ht
  rw [r6] at hb
  generalize (d.askAvail.ser.readLoop d.bytesToRead).2 = bs at ht hb hlen
  have hn : ((rx w hdr).after d.trace).req = none :=
    Classical.byContradiction fun x => hd (h.req.mp x)
  have hk : (rx w hdr).after e.trace = ⟨none, 0⟩ := by
    rw [ht, Observer.after_snoc]
    show Rx.mk ((rx w hdr).after d.trace).req (((rx w hdr).after d.trace).due - bs.length) = _
    rw [h.due, hn, hlen]
    congr 1
    omega
  refine ⟨fun x => absurd h2 x, ?_, ?_, ?_, fun ho => ?_⟩
  · rw [ht]
    refine framed_snoc h.frame (by simp) (fun l hl => ?_) (by simp)
    injection hl with hl
    rw [← hl, h.due, hlen]
    refine ⟨rfl, fun x => ?_⟩
    rw [x] at hlen
    simp at hlen
    omega
  · rw [hk, h2]
  · rw [hk]; simpa using hp
  · obtain ⟨⟨q, q1, q2⟩, q3, _⟩ := h.fits (honours_append (by rw [← ht]; exact ho))
    refine ⟨⟨q ++ bs, ?_, ?_⟩, by rw [hk]; exact Nat.zero_le _, by rw [hk]; simp⟩
    · rw [hb]
      refine rep_pushes q1 bs ?_
      rw [h.due, q1.spaceAvailable] at q3
      have := q1.le
      omega
    · rw [ht, Observer.after_snoc, Observer.after_snoc]
      show received.after d.trace ++ bs = delivered.after d.trace ++ (q ++ bs)
      rw [q2, List.append_assoc]

/-- A line that is not the awaited header. -/
theorem rx_line {d e : Dev S R X} {l : List Byte} (h : RxInv w hdr rq a b d) (hl : d.lineRead = true)
    (ht : e.trace = d.trace ++ [.line l]) (hb : e.rbuf = d.rbuf) (hr : e.bytesToRead = 0)
    (hp : e.rep = rq ↔ d.rep = rq) (hn : d.rep = rq → hdr l = none) : RxInv w hdr rq a b e := by
  have h0 := h.held.zero hl
  obtain ⟨k1, k2⟩ := recv_plain d.trace [.line l] (by simp [plain])
  have hk : (rx w hdr).after e.trace = (rx w hdr).after d.trace := by
    rw [ht, Observer.after_snoc]
    have hn' : ((rx w hdr).after d.trace).req ≠ none → hdr l = none := fun x => hn (h.req.mp x)
    show (match ((rx w hdr).after d.trace).req, hdr l with
      | some _, some n => Rx.mk none n | _, _ => (rx w hdr).after d.trace) = _
    generalize (rx w hdr).after d.trace = s at hn'
    cases s with | mk r n => cases r with
      | none => rfl
      | some x => rw [hn' (by simp)]
  refine ⟨fun x => absurd hr x, ?_, ?_, ?_, fun ho => ?_⟩
  · rw [ht]
    exact framed_snoc h.frame (fun _ _ => h.due.trans h0) (by simp) (by simp)
  · rw [hk, hr]; exact h.due.trans h0
  · rw [hk, hp]; exact h.req
  · rw [hk]
    have hf := h.fits (honours_append (by rw [← ht]; exact ho))
    exact hf.congr hb (by rw [ht]; exact k1) (by rw [ht]; exact k2) rfl hf.req

/-- The awaited header. -/
theorem rx_header {d e : Dev S R X} {l : List Byte} {n : Nat} (h : RxInv w hdr rq a b d)
    (hl : d.lineRead = true) (ht : e.trace = d.trace ++ [.line l]) (hb : e.rbuf = d.rbuf)
    (hd : d.rep = rq) (hn : hdr l = some n) (hr : e.bytesToRead = n) (hp : e.rep ≠ rq)
    (hh : Held a b e) : RxInv w hdr rq a b e := by
  have h0 := h.held.zero hl
  obtain ⟨k1, k2⟩ := recv_plain d.trace [.line l] (by simp [plain])
  cases hq : ((rx w hdr).after d.trace).req with
  | none => exact absurd hq (h.req.mpr hd)
  | some args =>
    have hk : (rx w hdr).after e.trace = ⟨none, n⟩ := by
      rw [ht, Observer.after_snoc]
      show (match ((rx w hdr).after d.trace).req, hdr l with
        | some _, some n => Rx.mk none n | _, _ => (rx w hdr).after d.trace) = _
      rw [hq, hn]
    refine ⟨hh, ?_, ?_, ?_, fun ho => ?_⟩
    · rw [ht]
      exact framed_snoc h.frame (fun _ _ => h.due.trans h0) (by simp) (by simp)
    · rw [hk, hr]
    · rw [hk]; simpa using hp
    · have ho' : Honours w hdr (d.trace ++ [.line l]) := by rw [← ht]; exact ho
      have hf := h.fits (honours_append ho')
      obtain ⟨g, more, e1, e2⟩ := (always_snoc.mp ho').2 l args n rfl hq hn
      refine ⟨?_, ?_, by rw [hk]; simp⟩
      · rw [ht, k1, k2, hb]; exact hf.rep
      · rw [hk, hb]
        exact Nat.le_trans e2 (hf.req g more (by rw [hq, e1]))

theorem rx_turn {sd rc : S} {shape : Nat → List (List Byte) → Prop}
    {Q : Option (List Byte) → Dev S R X → Prop} {d e : Dev S R X} (h : RxInv w hdr rq a b d)
    (hd : d.rep ≠ rq) (hp : e.rep ≠ rq) (hw : sendCmd ≠ w) (hq : ¬ Q (some w) e) (hh : Held a b e)
    (ht : Turn sd rc shape Q d e) : RxInv w hdr rq a b e := by
  have hi : e.rep = rq ↔ d.rep = rq := ⟨fun x => absurd x hp, fun x => absurd x hd⟩
  cases ht with
  | quiet ht hs hk => exact h.note [] (by simp [ht]) (by simp) hk.rbuf hk.toRead hi hh
  | cmd v g rest ht hv ha hs hk hq' =>
    exact rx_other h (fun x => hq (x ▸ hq')) ht ha hk.rbuf hk.toRead hp hh
  | send rest ht ha hn hsh hwt hrp hs hk => exact rx_other h hw ht ha hk.rbuf hk.toRead hp hh
  | pay h1 ht hb hs hk hp' =>
    exact h.note [_] ht (by simp [dumb]) hk.rbuf hk.toRead hi hh
  | data h1 hq' h2 ht hb h3 hs hl hk => exact rx_data h hq' h2 ht hb h3 hd hp

/-! ### Requests -/

theorem Dev.prepareSending_wait {d : Dev S R X} (c : Bool) {v : List Byte} (hw : d.wait = none)
    (hv : b!">" ≠ v) : (d.prepareSending c).1.wait ≠ some v := by
  unfold Dev.prepareSending
  dsimp only
  split
  · simp [hw]
  · intro h; injection h with h; exact hv h

theorem SimDev.sendCiprxget2_take {S R : Type} {d : SimDev S R} (h : d.sendCiprxget2.2 = true) :
    ∃ g1 k g3, d.sendCiprxget2.1.trace = d.trace ++ [.cmd requestSim g1,
      .arg (dec d.askAmount) ((dec d.askAmount).take k), .arg lineEnd g3] := by
  unfold SimDev.sendCiprxget2 at h ⊢
  dsimp only at h ⊢
  split
  · simp only [Dev.arg_trace, Dev.cmdN_trace, List.append_assoc]
    exact ⟨_, _, _, rfl⟩
  · rename_i hc; rw [if_neg hc] at h; simp at h

theorem SimDev.askAmount_le {S R : Type} (d : SimDev S R) :
    d.askAmount ≤ d.rbuf.spaceAvailable ∧ d.askAmount ≤ d.bytesToReceive ∧ d.askAmount ≤ d.ext.maxRx :=
  requestAmount_le _ _ _ _ _

theorem addSize_zero (n : Int) : addSize 0 n = toU64 n := by
  unfold addSize; rw [Int.natCast_zero, Int.zero_add]

theorem headerSim_none {p : Platform} {l : List Byte} (h : b!"+CIPRXGET: 2,0,".isPrefixOf l = false) :
    headerSim p l = none := by
  unfold headerSim; rw [h]; rfl

theorem headerSim_some {p : Platform} {l : List Byte} (h : b!"+CIPRXGET: 2,0,".isPrefixOf l = true) :
    headerSim p l = some (numberAt p l 15) := by
  unfold headerSim; rw [h]; rfl

theorem not_prefix {a c l : List Byte} (h : a.isPrefixOf l = true)
    (hn : ¬ (c <+: a ∨ a <+: c)) : c.isPrefixOf l = false := by
  rw [Bool.eq_false_iff]
  intro x
  rw [List.isPrefixOf_iff_prefix] at h x
  rcases Nat.le_total c.length a.length with y | y
  · exact hn (Or.inl (List.prefix_of_prefix_length_le x h y))
  · exact hn (Or.inr (List.prefix_of_prefix_length_le h x y))

/-! ### Constructor, and a test for `Honours` -/

theorem rx_init {w : List Byte} {hdr : List Byte → Option Nat} {rq : R} {a b : S} {d : Dev S R X}
    (rmem : List Byte) (ht : d.trace = [.apiReset]) (hb : d.bytesToRead = 0) (hr : d.rep ≠ rq)
    (hm : d.rbuf = Ring.init rmem) : RxInv w hdr rq a b d where
  held x := absurd hb x
  frame := by
    rw [ht]
    exact framed_snoc (t := []) (always_nil _) (by simp) (by simp) (by simp)
  due := by rw [ht, hb]; rfl
  req := by
    rw [ht]
    exact ⟨fun x => absurd rfl x, fun x => absurd x hr⟩
  fits _ := by
    rw [ht]
    exact ⟨⟨[], by rw [hm]; exact Ring.rep_init rmem, by rw [ht]; rfl⟩, Nat.zero_le _, fun g more x => by cases x⟩

/-- `Honours`, as a computation: the state of the observer is passed along. -/
def honoursFrom (w : List Byte) (hdr : List Byte → Option Nat) (s : Rx) : List Ev → Bool
  | [] => true
  | e :: t =>
    (match e with
     | .line l =>
       match s.req, hdr l with
       | some args, some n => match args with
         | g :: _ => decide (n ≤ digits g)
         | [] => false
       | _, _ => true
     | _ => true) && honoursFrom w hdr ((rx w hdr).step s e) t

theorem honours_of {w : List Byte} {hdr : List Byte → Option Nat} {t : List Ev}
    (h : honoursFrom w hdr (rx w hdr).init t = true) : Honours w hdr t := by
  have key : ∀ (pre : List Ev) (s : Rx) (e : Ev) (post : List Ev),
      honoursFrom w hdr s (pre ++ e :: post) = true →
      honoursFrom w hdr (pre.foldl (rx w hdr).step s) (e :: post) = true := by
    intro pre
    induction pre with
    | nil => intro s e post h; exact h
    | cons x xs ih =>
      intro s e post h
      rw [List.cons_append] at h
      unfold honoursFrom at h
      rw [Bool.and_eq_true] at h
      exact ih _ e post h.2
  intro pre e post he l args n hl hreq hn
  rw [he] at h
  have := key pre _ e post h
  unfold honoursFrom at this
  rw [Bool.and_eq_true] at this
  have h1 := this.1
  subst hl
  have hreq' : (pre.foldl (rx w hdr).step (rx w hdr).init).req = some args := hreq
  simp only [hreq', hn] at h1
  cases args with
  | nil => simp at h1
  | cons g more => exact ⟨g, more, rfl, by simpa using h1⟩

end Verif
